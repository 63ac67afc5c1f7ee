import Verif.Model.Messages

/-!
# Constructors with the messages of their exceptions

The functions below follow the constructors of the same names in the other model files, and also give the message of the
exception.
-/

namespace Verif

/-- What `str` and `type` do not take from the values of this model (Python built-ins, used in the f-strings that are cited below): the
texts of objects other than `None`, bools, ints, floats, strings, lists, tuples, enum members, columns, entities and storages, and the
texts of foreign classes. Nothing is assumed of either. -/
class PyText where
  object : Val → Str
  cls : Nat → Str

/-- The name of a member of `Op` (snuba_sdk/conditions.py:22-34). -/
def Op.member : Op → Str
  | .gt => c!"GT" | .lt => c!"LT" | .gte => c!"GTE" | .lte => c!"LTE" | .eq => c!"EQ" | .neq => c!"NEQ"
  | .in_ => c!"IN" | .notIn => c!"NOT_IN" | .like => c!"LIKE" | .notLike => c!"NOT_LIKE"
  | .isNull => c!"IS_NULL" | .isNotNull => c!"IS_NOT_NULL" | .not => c!"NOT"

/-- `repr` of `None` or a string (Python built-in, used by the generated `Column.__repr__`, snuba_sdk/column.py:16). -/
def optRepr [PyShow] : Option Str → Str
  | none => c!"None"
  | some s => (Val.str s).repr

/-- The generated `Column.__repr__` (fields at snuba_sdk/column.py:36-39). -/
def ColumnObj.repr [PyShow] (c : ColumnObj) : Str :=
  let entity := match c.entity with
    | none => c!"None"
    | some e => e.repr
  c!"Column(name=" ++ (Val.str c.name).repr ++ c!", entity=" ++ entity ++ c!", subscriptable=" ++ optRepr c.subscriptable ++
    c!", key=" ++ optRepr c.key ++ c!")"

/-- `f"{v}"` (Python built-in; snuba_sdk/entity.py:41-44 and storage.py:35-37 for entities and storages). -/
def Val.text [PyShow] [PyText] (v : Val) : Str :=
  match v with
  | .str s => s
  | .entity e => e.repr
  | .storage s => s.repr
  | .column c => c.repr
  | .op o => c!"Op." ++ o.member
  | .boolOp .and => c!"BooleanOp.AND"
  | .boolOp .or => c!"BooleanOp.OR"
  | .direction .asc => c!"Direction.ASC"
  | .direction .desc => c!"Direction.DESC"
  | .none | .bool _ | .int _ | .float _ | .list _ | .tuple _ => v.repr
  | _ => PyText.object v

/-- The name of the class of a value, with its module; used below for values that are neither enum members nor foreign objects (Python built-in `type`, used at snuba_sdk/conditions.py:81, 98 and orderby.py:33,
41). -/
def Val.clsName [PyText] : Val → Str
  | .none => c!"NoneType"
  | .bool _ => c!"bool"
  | .int _ => c!"int"
  | .float _ => c!"float"
  | .str _ => c!"str"
  | .bytes _ => c!"bytes"
  | .date _ => c!"datetime.date"
  | .datetime _ => c!"datetime.datetime"
  | .list _ => c!"list"
  | .tuple _ => c!"tuple"
  | .column _ => c!"snuba_sdk.column.Column"
  | .curried isFn .. => if isFn then c!"snuba_sdk.function.Function" else c!"snuba_sdk.function.CurriedFunction"
  | .ident _ => c!"snuba_sdk.function.Identifier"
  | .lam .. => c!"snuba_sdk.function.Lambda"
  | .aliased .. => c!"snuba_sdk.aliased_expression.AliasedExpression"
  | .cond .. => c!"snuba_sdk.conditions.Condition"
  | .boolCond .base .. => c!"snuba_sdk.conditions.BooleanCondition"
  | .boolCond .and .. => c!"snuba_sdk.conditions.And"
  | .boolCond .or .. => c!"snuba_sdk.conditions.Or"
  | .orderby .. => c!"snuba_sdk.orderby.OrderBy"
  | .limitby .. => c!"snuba_sdk.orderby.LimitBy"
  | .limit _ => c!"snuba_sdk.expressions.Limit"
  | .offset _ => c!"snuba_sdk.expressions.Offset"
  | .granularity _ => c!"snuba_sdk.expressions.Granularity"
  | .totals _ => c!"snuba_sdk.expressions.Totals"
  | .extrapolate _ => c!"snuba_sdk.expressions.Extrapolate"
  | .entity _ => c!"snuba_sdk.entity.Entity"
  | .storage _ => c!"snuba_sdk.storage.Storage"
  | .rel _ => c!"snuba_sdk.relationships.Relationship"
  | .join .. => c!"snuba_sdk.relationships.Join"
  | .op _ => c!"snuba_sdk.conditions.Op"
  | .boolOp _ => c!"snuba_sdk.conditions.BooleanOp"
  | .direction _ => c!"snuba_sdk.orderby.Direction"
  | .dataModel _ => c!"snuba_sdk.schema.DataModel"
  | .other _ => c!"object"

/-- The text of a class (Python built-in, used at snuba_sdk/conditions.py:81, 98 and orderby.py:33, 41). -/
def clsText (name : Str) : Str := c!"<class '" ++ name ++ c!"'>"

/-- The text of the class of a value (Python built-in `type`, used at snuba_sdk/conditions.py:81, 98); enum classes have their own. -/
def Val.classText [PyText] (v : Val) : Str :=
  match v with
  | .op _ => c!"<enum 'Op'>"
  | .boolOp _ => c!"<enum 'BooleanOp'>"
  | .direction _ => c!"<enum 'Direction'>"
  | .other n => PyText.cls n
  | _ => clsText v.clsName

/-- `f"{n:,}"` for `n ≥ 0` (Python built-in, used at snuba_sdk/expressions.py:85, 87); the first argument bounds the number of groups. -/
def commasAux : Nat → Nat → Str
  | 0, n => natStr n
  | f + 1, n => if n < 1000 then natStr n else commasAux f (n / 1000) ++ ',' :: padNat 3 (n % 1000)

/-- `f"{i:,}"` (Python built-in, used at snuba_sdk/expressions.py:85, 87). -/
def commas (i : Int) : Str :=
  if i < 0 then '-' :: commasAux i.natAbs i.natAbs else commasAux i.natAbs i.natAbs

/-- `is_scalar` (snuba_sdk/expressions.py:68-76), whose only exception is the one at line 73. -/
def isScalarMsg (v : Val) : Except Raised Bool :=
  match isScalar v with
  | .ok b => .ok b
  | .error e => raise e c!"tuple/array must contain only scalar values"

section
variable [PyShow] [PyText]

/-- `_validate_int_literal` (snuba_sdk/expressions.py:79-87). -/
def validateIntLiteralMsg (name : Str) (v : Val) (minn maxn : Option Int) : Except Raised PyInt :=
  match v.asInt? with
  | none => raise .invalidExpression (name ++ c!" '" ++ v.text ++ c!"' must be an integer")
  | some i =>
    match minn, maxn with
    | some m, some n =>
      if i.toInt < m then raise .invalidExpression (name ++ c!" '" ++ v.text ++ c!"' must be at least " ++ commas m)
      else if i.toInt > n then raise .invalidExpression (name ++ c!" '" ++ v.text ++ c!"' is capped at " ++ commas n)
      else .ok i
    | some m, none =>
      if i.toInt < m then raise .invalidExpression (name ++ c!" '" ++ v.text ++ c!"' must be at least " ++ commas m)
      else .ok i
    | none, some n =>
      if i.toInt > n then raise .invalidExpression (name ++ c!" '" ++ v.text ++ c!"' is capped at " ++ commas n)
      else .ok i
    | none, none => .ok i

/-- `Limit(v)` (snuba_sdk/expressions.py:90-95). -/
def mkLimitMsg (v : Val) : Except Raised Val := do
  let i ← validateIntLiteralMsg c!"limit" v (some 1) (some 10000)
  .ok (.limit i)

/-- `Offset(v)` (snuba_sdk/expressions.py:98-103). -/
def mkOffsetMsg (v : Val) : Except Raised Val := do
  let i ← validateIntLiteralMsg c!"offset" v (some 0) none
  .ok (.offset i)

/-- `Granularity(v)` (snuba_sdk/expressions.py:106-111). -/
def mkGranularityMsg (v : Val) : Except Raised Val := do
  let i ← validateIntLiteralMsg c!"granularity" v (some 1) none
  .ok (.granularity i)

omit [PyShow] [PyText] in
/-- `Totals(v)` (snuba_sdk/expressions.py:114-120). -/
def mkTotalsMsg (v : Val) : Except Raised Val :=
  match v with
  | .bool b => .ok (.totals b)
  | _ => raise .invalidExpression c!"totals must be a boolean"

omit [PyShow] [PyText] in
/-- `Extrapolate(v)` (snuba_sdk/expressions.py:123-129). -/
def mkExtrapolateMsg (v : Val) : Except Raised Val :=
  match v with
  | .bool b => .ok (.extrapolate b)
  | _ => raise .invalidExpression c!"extrapolate must be a boolean"

omit [PyShow] [PyText] in
/-- The sample check of `Entity.validate` (snuba_sdk/entity.py:27-31) and `Storage.validate` (storage.py:25-29). -/
def checkSampleMsg (v : Val) (e : Err) : Except Raised (Option PyFloat) :=
  match v with
  | .none => .ok none
  | .float f => if f.leZero then raise e c!"samples must be greater than 0.0" else .ok (some f)
  | _ => raise e c!"sample must be a float"

omit [PyShow] [PyText] in
/-- The data model check of `Entity.validate` (snuba_sdk/entity.py:37-39) and `Storage.validate` (storage.py:31-33). -/
def checkDataModelMsg (v : Val) (e : Err) : Except Raised (Option DataModel) :=
  match v with
  | .none => .ok none
  | .dataModel d => .ok (some d)
  | _ => raise e c!"data_model must be an instance of DataModel"

/-- The alias check of `Entity.validate` (snuba_sdk/entity.py:33-35). -/
def checkEntityAliasMsg (v : Val) : Except Raised (Option Str) :=
  match v with
  | .none => .ok none
  | .str (c :: s) => .ok (some (c :: s))
  | v => raise .invalidEntity (c!"'" ++ v.text ++ c!"' is not a valid alias")

/-- The name check of `Entity.validate` (snuba_sdk/entity.py:24-25) and `Storage.validate` (storage.py:22-23). -/
def checkSourceName (v : Val) (e : Err) (what : Str) : Except Raised Str :=
  match v with
  | .str s => if entityNameRe.matches s then .ok s else raise e (c!"'" ++ s ++ c!"' is not a valid " ++ what ++ c!" name")
  | v => raise e (c!"'" ++ v.text ++ c!"' is not a valid " ++ what ++ c!" name")

/-- `Entity(name, alias, sample, data_model)` (snuba_sdk/entity.py:15-39). -/
def mkEntityMsg (name alias sample dataModel : Val) : Except Raised Val := do
  let n ← checkSourceName name .invalidEntity c!"entity"
  let smp ← checkSampleMsg sample .invalidEntity
  let al ← checkEntityAliasMsg alias
  let dm ← checkDataModelMsg dataModel .invalidEntity
  .ok (.entity ⟨n, al, smp, dm⟩)

/-- `Storage(name, sample, data_model)` (snuba_sdk/storage.py:15-33). -/
def mkStorageMsg (name sample dataModel : Val) : Except Raised Val := do
  let n ← checkSourceName name .invalidStorage c!"storage"
  let smp ← checkSampleMsg sample .invalidStorage
  let dm ← checkDataModelMsg dataModel .invalidStorage
  .ok (.storage ⟨n, smp, dm⟩)

/-- The alias check of `CurriedFunction.validate` (snuba_sdk/function.py:74-82) and `AliasedExpression.validate`
(aliased_expression.py:32-40); `what` is what the message calls the object. -/
def checkAliasMsg (v : Val) (e : Err) (what : Str) : Except Raised (Option Str) :=
  match v with
  | .none => .ok none
  | .str (c :: s) =>
    if ALIAS_RE.matches (c :: s) then .ok (some (c :: s))
    else raise e (c!"alias '" ++ (c :: s) ++ c!"' of " ++ what ++ c!" contains invalid characters")
  | v => raise e (c!"alias '" ++ v.text ++ c!"' of " ++ what ++ c!" must be None or a non-empty string")

/-- `AliasedExpression(exp, alias)` (snuba_sdk/aliased_expression.py:8-40). -/
def mkAliasedMsg (exp alias : Val) : Except Raised Val :=
  match exp with
  | .column c => do
    let a ← checkAliasMsg alias .invalidExpression c!"expression"
    .ok (.aliased c a)
  | _ => raise .invalidExpression c!"aliased expressions can only contain a Column"

variable [U : PyUnicode]

omit [PyShow] [PyText] U in
/-- The entity part of `Column.validate` (snuba_sdk/column.py:49-57); at construction `subscriptable` is `None`. -/
def checkColumnEntityMsg (name : Str) (entity : Val) : Except Raised (Option EntityObj) :=
  match entity with
  | .none => .ok none
  | .entity e =>
    match e.alias with
    | none => raise .invalidColumn (c!"column '" ++ name ++ c!"' expects an Entity with an alias")
    | some [] => raise .invalidColumn (c!"column '" ++ name ++ c!"' expects an Entity with an alias")
    | some (_ :: _) => do
      ColumnObj.validateDataModelMsg e.name e.dataModel ⟨name, some e, none, none⟩
      .ok (some e)
  | _ => raise .invalidColumn (c!"column '" ++ name ++ c!"' expects an Entity")

/-- `Column(name, entity)` (snuba_sdk/column.py:17-65). -/
def mkColumnMsg (name entity : Val) : Except Raised Val :=
  match name with
  | .str s =>
    if columnNameRe.matches s then do
      let e ← checkColumnEntityMsg s entity
      .ok (.column (ColumnObj.setSubscript ⟨s, e, none, none⟩))
    else raise .invalidColumn (c!"column '" ++ s ++ c!"' is empty or contains invalid characters")
  | v => raise .invalidColumn (c!"column '" ++ v.text ++ c!"' must be a string")

/-- The name checks of `CurriedFunction.validate` (snuba_sdk/function.py:50-59). -/
def checkFunctionNameMsg (function : Val) : Except Raised Str :=
  match function with
  | .str [] => raise .invalidFunction c!"function cannot be empty"
  | .str s =>
    if functionNameRe.matches s then .ok s
    else raise .invalidFunction (c!"function '" ++ s ++ c!"' contains invalid characters")
  | v => raise .invalidFunction (c!"function '" ++ v.text ++ c!"' must be a string")

omit [PyShow] [PyText] U in
/-- The initializers of `CurriedFunction.validate` (snuba_sdk/function.py:61-72). -/
def checkInitsMsg (name : Str) (v : Val) : Except Raised (SeqKind × List Val) :=
  match v with
  | .none => .ok (.absent, [])
  | v => match v.seq? with
    | none => raise .invalidFunction (c!"initializers of function " ++ name ++ c!" must be a Sequence")
    | some (k, xs) =>
      if xs.all fun x => x.isColumn || isLiteral x then .ok (k, xs)
      else raise .invalidFunction (c!"initializers to function " ++ name ++ c!" must be a scalar or column")

omit U in
/-- The loop over parameters in `CurriedFunction.validate` (snuba_sdk/function.py:89-97). -/
def checkParamItemsMsg (name : Str) : List Val → Except Raised Unit
  | [] => .ok ()
  | p :: ps =>
    if p.isParamExpr then checkParamItemsMsg name ps
    else do
      let b ← isScalarMsg p
      if b then checkParamItemsMsg name ps
      else raise .invalidFunction (c!"parameter '" ++ p.text ++ c!"' of function " ++ name ++ c!" is an invalid type")

omit U in
/-- The parameters of `CurriedFunction.validate` (snuba_sdk/function.py:84-97). -/
def checkParamsMsg (name : Str) (v : Val) : Except Raised (SeqKind × List Val) :=
  match v with
  | .none => .ok (.absent, [])
  | v => match v.seq? with
    | none => raise .invalidFunction (c!"parameters of function " ++ name ++ c!" must be a Sequence")
    | some (k, xs) => do
      checkParamItemsMsg name xs
      .ok (k, xs)

/-- `CurriedFunction.validate` (snuba_sdk/function.py:49-97) on the raw fields. -/
def checkCurriedMsg (function initializers parameters alias : Val) :
    Except Raised (Str × (SeqKind × List Val) × (SeqKind × List Val) × Option Str) := do
  let n ← checkFunctionNameMsg function
  let inits ← checkInitsMsg n initializers
  let al ← checkAliasMsg alias .invalidFunction (c!"function " ++ n)
  let ps ← checkParamsMsg n parameters
  .ok (n, inits, ps, al)

/-- `CurriedFunction(function, initializers, parameters, alias)` (snuba_sdk/function.py:31-97). -/
def mkCurriedMsg (function initializers parameters alias : Val) : Except Raised Val := do
  let (n, i, p, a) ← checkCurriedMsg function initializers parameters alias
  .ok (.curried false n i.1 i.2 p.1 p.2 a)

/-- `Function(function, parameters, alias)` (snuba_sdk/function.py:111-115). -/
def mkFunctionMsg (function parameters alias : Val) : Except Raised Val := do
  let (n, i, p, a) ← checkCurriedMsg function .none parameters alias
  .ok (.curried true n i.1 i.2 p.1 p.2 a)

omit U in
/-- `Identifier(name)` (snuba_sdk/function.py:125-131). -/
def mkIdentifierMsg (name : Val) : Except Raised Val :=
  match name with
  | .str s =>
    if identifierRe.matches s then .ok (.ident s) else raise .invalidLambda (c!"`" ++ s ++ c!"` is not a valid identifier")
  | v => raise .invalidLambda (c!"`" ++ v.text ++ c!"` is not a valid identifier")

omit U in
/-- The identifier loop of `Lambda.validate` (snuba_sdk/function.py:142-144). -/
def checkIdentifiersMsg : List Val → Except Raised (List Str)
  | [] => .ok []
  | .str s :: vs =>
    if identifierRe.matches s then do
      let ss ← checkIdentifiersMsg vs
      .ok (s :: ss)
    else raise .invalidLambda (s ++ c!" is not a valid identifier")
  | v :: _ => raise .invalidLambda (v.text ++ c!" is not a valid identifier")

omit U in
/-- `Lambda(identifiers, transformation)` (snuba_sdk/function.py:134-146). -/
def mkLambdaMsg (identifiers transformation : Val) : Except Raised Val :=
  match identifiers.listOrTuple? with
  | none => raise .invalidLambda c!"identifiers must be a sequence"
  | some (k, xs) => do
    let ids ← checkIdentifiersMsg xs
    if transformation.isCurried then .ok (.lam k ids transformation)
    else raise .invalidLambda c!"transformation must be a function"

omit [PyShow] U in
/-- The right-hand side check of `Condition.validate` (snuba_sdk/conditions.py:94-99). -/
def checkRhsMsg (rhs : Val) : Except Raised Unit :=
  if rhs.isColOrFn then .ok ()
  else do
    let b ← isScalarMsg rhs
    if b then .ok ()
    else raise .invalidCondition (c!"invalid condition: RHS of a condition must be a Column, CurriedFunction, Function or Scalar not " ++
      rhs.classText)

omit [PyShow] [PyText] U in
/-- The unary operator check of `Condition.validate` (snuba_sdk/conditions.py:88-92). -/
def checkUnaryMsg (o : Op) (rhs : Val) : Except Raised Unit :=
  match isUnary o, rhs with
  | false, _ => .ok ()
  | true, .none => .ok ()
  | true, _ => raise .invalidCondition c!"invalid condition: unary operators don't have rhs conditions"

omit [PyShow] U in
/-- `Condition(lhs, op, rhs)` (snuba_sdk/conditions.py:72-99). -/
def mkConditionMsg (lhs op rhs : Val) : Except Raised Val :=
  if lhs.isColOrFn then
    match op with
    | .op o => do
      checkUnaryMsg o rhs
      checkRhsMsg rhs
      .ok (.cond lhs o rhs)
    | _ => raise .invalidCondition c!"invalid condition: operator of a condition must be an Op"
  else
    raise .invalidCondition
      (c!"invalid condition: LHS of a condition must be a Column, CurriedFunction or Function, not " ++ lhs.classText)

omit U in
/-- The loop of `BooleanCondition.validate` (snuba_sdk/conditions.py:127-131). -/
def checkConditionsMsg : List Val → Except Raised Unit
  | [] => .ok ()
  | c :: cs =>
    if c.isCondition then checkConditionsMsg cs
    else raise .invalidCondition (c!"invalid boolean: " ++ c.text ++ c!" is not a valid condition")

omit U in
/-- `BooleanCondition.validate` for a given class and operator (snuba_sdk/conditions.py:112-131). -/
def mkBoolMsg (cls : BoolCls) (op : BooleanOp) (conditions : Val) : Except Raised Val :=
  match conditions.listOrTuple? with
  | none => raise .invalidCondition c!"invalid boolean: conditions must be a list of other conditions"
  | some (k, cs) =>
    if cs.length < 2 then raise .invalidCondition c!"invalid boolean: must supply at least two conditions"
    else do
      checkConditionsMsg cs
      .ok (.boolCond cls op k cs)

omit U in
/-- `BooleanCondition(op, conditions)` (snuba_sdk/conditions.py:107-131). -/
def mkBooleanConditionMsg (op conditions : Val) : Except Raised Val :=
  match op with
  | .boolOp o => mkBoolMsg .base o conditions
  | _ => raise .invalidCondition c!"invalid boolean: operator of a boolean must be a BooleanOp"

omit [PyShow] [PyText] U in
/-- `OrderBy(exp, direction)` (snuba_sdk/orderby.py:15-26). -/
def mkOrderByMsg (exp direction : Val) : Except Raised Val :=
  if exp.isColOrFn then
    match direction with
    | .direction d => .ok (.orderby exp d)
    | _ => raise .invalidExpression c!"OrderBy direction must be a Direction"
  else raise .invalidExpression c!"OrderBy expression must be a Column, CurriedFunction or Function"

omit U in
/-- The element loop of `validate_sequence_of_type(…, Column, …)` (snuba_sdk/orderby.py:38-42). -/
def allColumnsMsg (name : Str) : List Val → Except Raised (List ColumnObj)
  | [] => .ok []
  | .column c :: vs => do
    let cs ← allColumnsMsg name vs
    .ok (c :: cs)
  | v :: _ =>
    raise .invalidExpression (name ++ c!": Invalid element '" ++ v.text ++ c!"' which must be a list composed entirely of " ++
      clsText c!"snuba_sdk.column.Column")

omit U in
/-- `LimitBy(columns, count)` (snuba_sdk/orderby.py:45-55) with `validate_sequence_of_type` (lines 29-42). -/
def mkLimitByMsg (columns count : Val) : Except Raised Val :=
  match columns.seq? with
  | none =>
    raise .invalidExpression (c!"LimitBy columns: '" ++ columns.text ++ c!"' must be a sequence of " ++
      clsText c!"snuba_sdk.column.Column")
  | some (k, xs) =>
    if xs.length < 1 then
      raise .invalidExpression (c!"LimitBy columns: '" ++ columns.text ++ c!"' must be contain at least " ++ natStr 1 ++ c!" elements")
    else do
      let cs ← allColumnsMsg c!"LimitBy columns" xs
      match count.asInt? with
      | none => raise .invalidExpression c!"LimitBy count must be a positive integer (max 10,000)"
      | some i =>
        if i.toInt ≤ 0 ∨ i.toInt > 10000 then raise .invalidExpression c!"LimitBy count must be a positive integer (max 10,000)"
        else .ok (.limitby k cs i)

omit U in
/-- `valid_entity` inside `Relationship.validate` (snuba_sdk/relationships.py:35-39). -/
def validEntityMsg (v : Val) : Except Raised EntityObj :=
  match v with
  | .entity e => match e.alias with
    | some _ => .ok e
    | none => raise .invalidExpression (e.repr ++ c!" must have a valid alias")
  | v => raise .invalidExpression (c!"'" ++ v.text ++ c!"' must be an Entity")

omit U in
/-- `Relationship(lhs, name, rhs)` (snuba_sdk/relationships.py:10-47). -/
def mkRelationshipMsg (lhs name rhs : Val) : Except Raised Val := do
  let l ← validEntityMsg lhs
  let r ← validEntityMsg rhs
  match name with
  | .str (c :: s) => .ok (.rel ⟨l, c :: s, r⟩)
  | v => raise .invalidExpression (c!"'" ++ v.text ++ c!"' is not a valid relationship name")

omit [PyShow] [PyText] U in
/-- `Join(relationships)` (snuba_sdk/relationships.py:50-97); the loop over the set of alias mappings is in `checkJoinMsg`. -/
def mkJoinMsg (σ : SetOrders) (relationships : Val) : Except Raised Val :=
  match relationships.listOrTuple? with
  | none => raise .invalidExpression c!"Join must have at least one Relationship"
  | some (k, xs) =>
    if xs.isEmpty then raise .invalidExpression c!"Join must have at least one Relationship"
    else
      match allRels xs with
      | .error e => raise e c!"Join expects a list of Relationship objects"
      | .ok rs => do
        checkJoinMsg σ rs
        .ok (.join k rs)

end

end Verif
