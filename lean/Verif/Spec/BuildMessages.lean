import Verif.Spec.Names
import Verif.Spec.Errors
import Verif.Spec.Legacy
import Verif.Spec.Messages
import Verif.Model.BuildMessages

/-!
# Specification: what the message of a refused constructor says

`Refusal c x t` says that something is wrong with the arguments of the call `c`, that it is the first such thing in the order in which the
class looks at them, and that the exception `x` with the text `t` tells it.
-/

namespace Verif.Spec

/-- A call of a constructor of the SDK with arbitrary arguments. -/
inductive BuildCall where
  | column (name entity : Val)
  | aliased (exp al : Val)
  | entity (name al sample model : Val)
  | storage (name sample model : Val)
  | curried (name inits params al : Val)
  | function (name params al : Val)
  | identifier (name : Val)
  | lambda (ids body : Val)
  | condition (lhs op rhs : Val)
  | boolean (op conds : Val)
  | and (conds : Val)
  | or (conds : Val)
  | orderby (exp dir : Val)
  | limitby (columns count : Val)
  | limit (v : Val)
  | offset (v : Val)
  | granularity (v : Val)
  | totals (v : Val)
  | extrapolate (v : Val)
  | relationship (lhs name rhs : Val)

/-- What the call gives, without messages. -/
def BuildCall.plain [PyUnicode] : BuildCall → Except Err Val
  | .column n e => mkColumn n e
  | .aliased x a => mkAliased x a
  | .entity n a s m => mkEntity n a s m
  | .storage n s m => mkStorage n s m
  | .curried n i p a => mkCurried n i p a
  | .function n p a => mkFunction n p a
  | .identifier n => mkIdentifier n
  | .lambda i b => mkLambda i b
  | .condition l o r => mkCondition l o r
  | .boolean o c => mkBooleanCondition o c
  | .and c => mkAnd c
  | .or c => mkOr c
  | .orderby x d => mkOrderBy x d
  | .limitby c n => mkLimitBy c n
  | .limit v => mkLimit v
  | .offset v => mkOffset v
  | .granularity v => mkGranularity v
  | .totals v => mkTotals v
  | .extrapolate v => mkExtrapolate v
  | .relationship l n r => mkRelationship l n r

variable [PyShow] [PyText] [U : PyUnicode]

/-- What the call gives, with messages. -/
def BuildCall.run : BuildCall → Except Raised Val
  | .column n e => mkColumnMsg n e
  | .aliased x a => mkAliasedMsg x a
  | .entity n a s m => mkEntityMsg n a s m
  | .storage n s m => mkStorageMsg n s m
  | .curried n i p a => mkCurriedMsg n i p a
  | .function n p a => mkFunctionMsg n p a
  | .identifier n => mkIdentifierMsg n
  | .lambda i b => mkLambdaMsg i b
  | .condition l o r => mkConditionMsg l o r
  | .boolean o c => mkBooleanConditionMsg o c
  | .and c => mkBoolMsg .and .and c
  | .or c => mkBoolMsg .or .or c
  | .orderby x d => mkOrderByMsg x d
  | .limitby c n => mkLimitByMsg c n
  | .limit v => mkLimitMsg v
  | .offset v => mkOffsetMsg v
  | .granularity v => mkGranularityMsg v
  | .totals v => mkTotalsMsg v
  | .extrapolate v => mkExtrapolateMsg v
  | .relationship l n r => mkRelationshipMsg l n r

omit [PyShow] [PyText] U

/-- No non-empty string. -/
def NoWord (v : Val) : Prop := ∀ s, v = .str s → s = []

/-- `None` or a non-empty string. -/
def NoneOrWord (v : Val) : Prop := v = .none ∨ ∃ s, v = .str s ∧ s ≠ []

/-- A string of the given language, possibly with a newline at the end. -/
def Named (L : Str → Prop) (v : Val) : Prop := ∃ s, v = .str s ∧ OptNewline L s

/-- A sample that is accepted. -/
def SampleOk (v : Val) : Prop := v = .none ∨ ∃ f, v = .float f ∧ NotBelow f

/-- What is wrong with a sample. -/
inductive SampleFault : Val → Str → Prop
  | type {v} : v ≠ .none → (∀ f, v ≠ .float f) → SampleFault v c!"sample must be a float"
  | low {f} : ¬ NotBelow f → SampleFault (.float f) c!"samples must be greater than 0.0"

/-- No data model, and not `None` either. -/
def NoModel (v : Val) : Prop := v ≠ .none ∧ ∀ d, v ≠ .dataModel d

/-- What is wrong with the alias of something that the message calls `what`. -/
inductive AliasFault [PyShow] [PyText] (what : Str) : Val → Str → Prop
  | type {v : Val} : v ≠ .none → NoWord v →
      AliasFault what v (c!"alias '" ++ v.text ++ c!"' of " ++ what ++ c!" must be None or a non-empty string")
  | text {s : Str} : s ≠ [] → ¬ OptNewline AliasText s →
      AliasFault what (.str s) (c!"alias '" ++ s ++ c!"' of " ++ what ++ c!" contains invalid characters")

/-- An alias that is accepted. -/
def AliasGiven (v : Val) : Prop := v = .none ∨ ∃ s, v = .str s ∧ s ≠ [] ∧ OptNewline AliasText s

/-- Initializers that are accepted. -/
def InitsOk (v : Val) : Prop := v = .none ∨ ∃ xs, ItemsOf v xs ∧ ∀ x ∈ xs, (∃ c, x = .column c) ∨ Literal x

/-- What is wrong with the name of a function. -/
inductive FunctionNameFault [PyShow] [PyText] [PyUnicode] : Val → Str → Prop
  | type {v : Val} : (∀ s, v ≠ .str s) → FunctionNameFault v (c!"function '" ++ v.text ++ c!"' must be a string")
  | empty : FunctionNameFault (.str []) c!"function cannot be empty"
  | text {s : Str} : s ≠ [] → ¬ OptNewline FunctionName s →
      FunctionNameFault (.str s) (c!"function '" ++ s ++ c!"' contains invalid characters")

/-- What is wrong with the initializers of the function `n`. -/
inductive InitsFault (n : Str) : Val → Str → Prop
  | type {v} : v ≠ .none → (∀ xs, ¬ ItemsOf v xs) → InitsFault n v (c!"initializers of function " ++ n ++ c!" must be a Sequence")
  | item {v xs x} : ItemsOf v xs → x ∈ xs → (∀ c, x ≠ .column c) → ¬ Literal x →
      InitsFault n v (c!"initializers to function " ++ n ++ c!" must be a scalar or column")

/-- What is wrong with the parameters of the function `n`: it is the first bad parameter that is named. -/
inductive ParamsFault [PyShow] [PyText] (n : Str) : Val → Err → Str → Prop
  | type {v} : v ≠ .none → (∀ xs, ¬ ItemsOf v xs) →
      ParamsFault n v .invalidFunction (c!"parameters of function " ++ n ++ c!" must be a Sequence")
  | item {v : Val} {before after : List Val} {p : Val} : ItemsOf v (before ++ p :: after) → (∀ x ∈ before, Param x ∨ Scalar x) →
      ¬ Param p → ¬ Literal p → ¬ IsSeq p →
      ParamsFault n v .invalidFunction (c!"parameter '" ++ p.text ++ c!"' of function " ++ n ++ c!" is an invalid type")
  | inside {v : Val} {before after : List Val} {p : Val} : ItemsOf v (before ++ p :: after) → (∀ x ∈ before, Param x ∨ Scalar x) →
      BadSeq p → ParamsFault n v .invalidExpression c!"tuple/array must contain only scalar values"

/-- What is wrong with the arguments of a function. -/
inductive FunctionFault [PyShow] [PyText] [PyUnicode] (name inits params al : Val) : Err → Str → Prop
  | name {t} : FunctionNameFault name t → FunctionFault name inits params al .invalidFunction t
  | inits {n t} : name = .str n → OptNewline FunctionName n → InitsFault n inits t → FunctionFault name inits params al .invalidFunction t
  | alias_ {n t} : name = .str n → OptNewline FunctionName n → InitsOk inits → AliasFault (c!"function " ++ n) al t →
      FunctionFault name inits params al .invalidFunction t
  | params {n x t} : name = .str n → OptNewline FunctionName n → InitsOk inits → AliasGiven al → ParamsFault n params x t →
      FunctionFault name inits params al x t

/-- What is wrong with the conditions of a boolean condition: it is the first that is no condition that is named. -/
inductive ConditionsFault [PyShow] [PyText] : Val → Str → Prop
  | type {v} : (∀ k xs, ¬ SeqOf v k xs) → ConditionsFault v c!"invalid boolean: conditions must be a list of other conditions"
  | few {v k xs} : SeqOf v k xs → xs.length < 2 → ConditionsFault v c!"invalid boolean: must supply at least two conditions"
  | item {v : Val} {k : SeqKind} {before after : List Val} {c : Val} : SeqOf v k (before ++ c :: after) →
      2 ≤ (before ++ c :: after).length → (∀ x ∈ before, Cond x) → ¬ Cond c →
      ConditionsFault v (c!"invalid boolean: " ++ c.text ++ c!" is not a valid condition")

/-- What is wrong with the entity at an end of a relationship. -/
inductive EndFault [PyShow] [PyText] : Val → Str → Prop
  | type {v : Val} : (∀ e, v ≠ .entity e) → EndFault v (c!"'" ++ v.text ++ c!"' must be an Entity")
  | noAlias {e : EntityObj} : e.alias = none → EndFault (.entity e) ((Val.entity e).text ++ c!" must have a valid alias")

/-- An entity with an alias. -/
def EndOk (v : Val) : Prop := ∃ e a, v = .entity e ∧ e.alias = some a

/-- The first thing that is wrong with the arguments of a call, and the exception that tells it. -/
inductive Refusal [PyShow] [PyText] [PyUnicode] : BuildCall → Err → Str → Prop
  | columnType {n e : Val} : (∀ s, n ≠ .str s) →
      Refusal (.column n e) .invalidColumn (c!"column '" ++ n.text ++ c!"' must be a string")
  | columnName {s : Str} {e : Val} : ¬ OptNewline ColName s →
      Refusal (.column (.str s) e) .invalidColumn (c!"column '" ++ s ++ c!"' is empty or contains invalid characters")
  | columnEntity {s : Str} {e : Val} : OptNewline ColName s → e ≠ .none → (∀ x, e ≠ .entity x) →
      Refusal (.column (.str s) e) .invalidColumn (c!"column '" ++ s ++ c!"' expects an Entity")
  | columnAlias {s : Str} {x : EntityObj} : OptNewline ColName s → (x.alias = none ∨ x.alias = some []) →
      Refusal (.column (.str s) (.entity x)) .invalidColumn (c!"column '" ++ s ++ c!"' expects an Entity with an alias")
  | columnUnknown {s a : Str} {x : EntityObj} {d : DataModel} : OptNewline ColName s → x.alias = some a → a ≠ [] →
      x.dataModel = some d → (∀ m ∈ d.columns, m.name ≠ s) →
      Refusal (.column (.str s) (.entity x)) .invalidColumn (c!"'" ++ x.name ++ c!"' does not support the column '" ++ s ++ c!"'")
  | aliasedExp {x a : Val} : (∀ c, x ≠ .column c) →
      Refusal (.aliased x a) .invalidExpression c!"aliased expressions can only contain a Column"
  | aliasedAlias {c : ColumnObj} {a : Val} {t : Str} : AliasFault c!"expression" a t →
      Refusal (.aliased (.column c) a) .invalidExpression t
  | entityName {n a s m : Val} : ¬ Named EntityName n →
      Refusal (.entity n a s m) .invalidEntity (c!"'" ++ n.text ++ c!"' is not a valid entity name")
  | entitySample {n a s m : Val} {t : Str} : Named EntityName n → SampleFault s t → Refusal (.entity n a s m) .invalidEntity t
  | entityAlias {n a s m : Val} : Named EntityName n → SampleOk s → a ≠ .none → NoWord a →
      Refusal (.entity n a s m) .invalidEntity (c!"'" ++ a.text ++ c!"' is not a valid alias")
  | entityModel {n a s m : Val} : Named EntityName n → SampleOk s → NoneOrWord a → NoModel m →
      Refusal (.entity n a s m) .invalidEntity c!"data_model must be an instance of DataModel"
  | storageName {n s m : Val} : ¬ Named EntityName n →
      Refusal (.storage n s m) .invalidStorage (c!"'" ++ n.text ++ c!"' is not a valid storage name")
  | storageSample {n s m : Val} {t : Str} : Named EntityName n → SampleFault s t → Refusal (.storage n s m) .invalidStorage t
  | storageModel {n s m : Val} : Named EntityName n → SampleOk s → NoModel m →
      Refusal (.storage n s m) .invalidStorage c!"data_model must be an instance of DataModel"
  | curried {n i p a : Val} {x t} : FunctionFault n i p a x t → Refusal (.curried n i p a) x t
  | function {n p a : Val} {x t} : FunctionFault n .none p a x t → Refusal (.function n p a) x t
  | identifier {n : Val} : ¬ Named IdentName n →
      Refusal (.identifier n) .invalidLambda (c!"`" ++ n.text ++ c!"` is not a valid identifier")
  | lambdaType {i b : Val} : (∀ k xs, ¬ SeqOf i k xs) → Refusal (.lambda i b) .invalidLambda c!"identifiers must be a sequence"
  | lambdaItem {i b x : Val} {k : SeqKind} {before after : List Val} : SeqOf i k (before ++ x :: after) →
      (∀ y ∈ before, Named IdentName y) → ¬ Named IdentName x →
      Refusal (.lambda i b) .invalidLambda (x.text ++ c!" is not a valid identifier")
  | lambdaBody {i b : Val} {k : SeqKind} {xs : List Val} : SeqOf i k xs → (∀ y ∈ xs, Named IdentName y) →
      (∀ f n ik is pk ps a, b ≠ .curried f n ik is pk ps a) →
      Refusal (.lambda i b) .invalidLambda c!"transformation must be a function"
  | conditionLeft {l o r : Val} : ¬ ColOrFn l →
      Refusal (.condition l o r) .invalidCondition
        (c!"invalid condition: LHS of a condition must be a Column, CurriedFunction or Function, not " ++ l.classText)
  | conditionOp {l o r : Val} : ColOrFn l → (∀ x, o ≠ .op x) →
      Refusal (.condition l o r) .invalidCondition c!"invalid condition: operator of a condition must be an Op"
  | conditionUnary {l r : Val} {o : Op} : ColOrFn l → (o = .isNull ∨ o = .isNotNull) → r ≠ .none →
      Refusal (.condition l (.op o) r) .invalidCondition c!"invalid condition: unary operators don't have rhs conditions"
  | conditionRight {l r : Val} {o : Op} : ColOrFn l → o ≠ .isNull → o ≠ .isNotNull → ¬ ColOrFn r → ¬ Literal r → ¬ IsSeq r →
      Refusal (.condition l (.op o) r) .invalidCondition
        (c!"invalid condition: RHS of a condition must be a Column, CurriedFunction, Function or Scalar not " ++ r.classText)
  | conditionInside {l r : Val} {o : Op} : ColOrFn l → o ≠ .isNull → o ≠ .isNotNull → BadSeq r →
      Refusal (.condition l (.op o) r) .invalidExpression c!"tuple/array must contain only scalar values"
  | booleanOp {o c : Val} : (∀ x, o ≠ .boolOp x) →
      Refusal (.boolean o c) .invalidCondition c!"invalid boolean: operator of a boolean must be a BooleanOp"
  | boolean {o : BooleanOp} {c : Val} {t : Str} : ConditionsFault c t → Refusal (.boolean (.boolOp o) c) .invalidCondition t
  | and {c : Val} {t : Str} : ConditionsFault c t → Refusal (.and c) .invalidCondition t
  | or {c : Val} {t : Str} : ConditionsFault c t → Refusal (.or c) .invalidCondition t
  | orderbyExp {x d : Val} : ¬ ColOrFn x →
      Refusal (.orderby x d) .invalidExpression c!"OrderBy expression must be a Column, CurriedFunction or Function"
  | orderbyDirection {x d : Val} : ColOrFn x → (∀ y, d ≠ .direction y) →
      Refusal (.orderby x d) .invalidExpression c!"OrderBy direction must be a Direction"
  | limitbyType {c n : Val} : (∀ xs, ¬ ItemsOf c xs) →
      Refusal (.limitby c n) .invalidExpression
        (c!"LimitBy columns: '" ++ c.text ++ c!"' must be a sequence of <class 'snuba_sdk.column.Column'>")
  | limitbyEmpty {c n : Val} : ItemsOf c [] →
      Refusal (.limitby c n) .invalidExpression (c!"LimitBy columns: '" ++ c.text ++ c!"' must be contain at least 1 elements")
  | limitbyItem {c n x : Val} {before after : List Val} : ItemsOf c (before ++ x :: after) → (∀ y ∈ before, ∃ k, y = .column k) →
      (∀ k, x ≠ .column k) →
      Refusal (.limitby c n) .invalidExpression (c!"LimitBy columns: Invalid element '" ++ x.text ++
        c!"' which must be a list composed entirely of <class 'snuba_sdk.column.Column'>")
  | limitbyCount {c n : Val} {xs : List Val} : ItemsOf c xs → xs ≠ [] → (∀ y ∈ xs, ∃ k, y = .column k) →
      (∀ i, IntLike n i → i.toInt < 1 ∨ 10000 < i.toInt) →
      Refusal (.limitby c n) .invalidExpression c!"LimitBy count must be a positive integer (max 10,000)"
  | limitType {v : Val} : (∀ i, ¬ IntLike v i) → Refusal (.limit v) .invalidExpression (c!"limit '" ++ v.text ++ c!"' must be an integer")
  | limitLow {v : Val} {i : PyInt} : IntLike v i → i.toInt < 1 →
      Refusal (.limit v) .invalidExpression (c!"limit '" ++ v.text ++ c!"' must be at least 1")
  | limitHigh {v : Val} {i : PyInt} : IntLike v i → 10000 < i.toInt →
      Refusal (.limit v) .invalidExpression (c!"limit '" ++ v.text ++ c!"' is capped at 10,000")
  | offsetType {v : Val} : (∀ i, ¬ IntLike v i) →
      Refusal (.offset v) .invalidExpression (c!"offset '" ++ v.text ++ c!"' must be an integer")
  | offsetLow {v : Val} {i : PyInt} : IntLike v i → i.toInt < 0 →
      Refusal (.offset v) .invalidExpression (c!"offset '" ++ v.text ++ c!"' must be at least 0")
  | granularityType {v : Val} : (∀ i, ¬ IntLike v i) →
      Refusal (.granularity v) .invalidExpression (c!"granularity '" ++ v.text ++ c!"' must be an integer")
  | granularityLow {v : Val} {i : PyInt} : IntLike v i → i.toInt < 1 →
      Refusal (.granularity v) .invalidExpression (c!"granularity '" ++ v.text ++ c!"' must be at least 1")
  | totals {v : Val} : (∀ b, v ≠ .bool b) → Refusal (.totals v) .invalidExpression c!"totals must be a boolean"
  | extrapolate {v : Val} : (∀ b, v ≠ .bool b) → Refusal (.extrapolate v) .invalidExpression c!"extrapolate must be a boolean"
  | relationshipLeft {l n r : Val} {t : Str} : EndFault l t → Refusal (.relationship l n r) .invalidExpression t
  | relationshipRight {l n r : Val} {t : Str} : EndOk l → EndFault r t → Refusal (.relationship l n r) .invalidExpression t
  | relationshipName {l n r : Val} : EndOk l → EndOk r → NoWord n →
      Refusal (.relationship l n r) .invalidExpression (c!"'" ++ n.text ++ c!"' is not a valid relationship name")

end Verif.Spec
