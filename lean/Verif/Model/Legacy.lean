import Verif.Model.Request
import Verif.Py.Strptime

/-!
# snuba_sdk/legacy.py

A legacy body is a dictionary of plain Python values. Simplifications: a dictionary occurs under the key `tenant_ids` only; `set`
values (legacy.py:77) do not occur; two places of a body do not share one list object (they may in
`Model/LegacyShared.lean`). A list in the body may be changed by the
conversion (legacy.py:326), so that `jsonToSnql` returns the body afterwards beside its result.
-/

namespace Verif

variable [U : PyUnicode] [D : PyDecimal]

omit U D in
/-- One character under `str.upper` (legacy.py:31). Only the ASCII letters, `ı` and `ſ` become a character of an operator; the
other characters are left alone, which no comparison with the operators can tell (`ß`, `ﬁ`, `ﬆ` and the like become
several letters, `SS`, `FI`, `ST`, that occur in no operator). -/
def upperChar (c : Char) : Char :=
  if 'a' ≤ c && c ≤ 'z' then Char.ofNat (c.toNat - 32)
  else if c == 'ı' then 'I'
  else if c == 'ſ' then 'S'
  else c

omit U D in
/-- The members of `Op` (snuba_sdk/conditions.py:21-34). -/
def allOps : List Op :=
  [.gt, .lt, .gte, .lte, .eq, .neq, .in_, .notIn, .like, .notLike, .isNull, .isNotNull, .not]

omit U D in
/-- `CONDITION_OPERATORS` (snuba_sdk/legacy.py:15). -/
def CONDITION_OPERATORS : List Str := allOps.map Op.value

omit U D in
/-- `isinstance(x, (str, tuple, list))` (snuba_sdk/legacy.py:33). -/
def isTextOrSequence : Val → Bool
  | .str _ | .tuple _ | .list _ => true
  | _ => false

omit U D in
/-- `isinstance(x, str) and x.upper() in CONDITION_OPERATORS` (snuba_sdk/legacy.py:30-31). -/
def isOperatorText : Val → Bool
  | .str s => CONDITION_OPERATORS.contains (s.map upperChar)
  | _ => false

omit U D in
/-- `is_condition` on the items of its argument (snuba_sdk/legacy.py:18-34). -/
def isLegacyCondition : List Val → Bool
  | [a, b, _] => isOperatorText b && isTextOrSequence a
  | _ => false

/-- The loop over `date_styles` (snuba_sdk/legacy.py:55-62); `none` is the `ValueError`. -/
def parseDateStyles (s : Str) : Option Datetime :=
  (strptimeFraction s).or ((strptimeZone s).or (strptimePlain s))

omit D in
/-- `if "+" in date_str: …` (snuba_sdk/legacy.py:50-53). -/
def withoutZoneColons (s : Str) : Str :=
  match splitOnce '+' s with
  | none => s
  | some (first, tz) => first ++ '+' :: tz.filter (· != ':')

/-- `parse_datetime` of a string (snuba_sdk/legacy.py:37-62); `none` is the `ValueError`. -/
def parseDatetime (s : Str) : Option Datetime := parseDateStyles (withoutZoneColons s)

/-- A string in `parse_scalar` (snuba_sdk/legacy.py:80-88). -/
def parseScalarText (onlyStrings : Bool) (s : Str) : Val :=
  if onlyStrings then .str s
  else match parseDatetime s with
    | some t => .datetime t
    | none => .str s

mutual
/-- `parse_scalar` (snuba_sdk/legacy.py:69-90). -/
def parseScalar (onlyStrings : Bool) : Val → Val
  | .list xs => .tuple (parseScalars onlyStrings xs)
  | .tuple xs => .tuple (parseScalars onlyStrings xs)
  | .str s => parseScalarText onlyStrings s
  | v => v

/-- `tuple(map(partial(parse_scalar, …), value))` (snuba_sdk/legacy.py:78). -/
def parseScalars (onlyStrings : Bool) : List Val → List Val
  | [] => []
  | v :: vs => parseScalar onlyStrings v :: parseScalars onlyStrings vs
end

omit D in
/-- A string in `parse_exp` (snuba_sdk/legacy.py:101-109). -/
def parseExpText (s : Str) : Except Err Val :=
  if s.isEmpty then .ok (.str s)
  else if startsWith s c!"'" && endsWith s c!"'" then .ok (.str (slice1m1 s))
  else mkColumn (.str s) .none

omit U D in
/-- `subscriptable == "tags" or name == "release"` (snuba_sdk/legacy.py:177-178, 188-189). -/
def ColumnObj.keepsText (c : ColumnObj) : Bool := c.subscriptable == some c!"tags" || c.name == c!"release"

omit U D in
/-- `only_strings` for a left-hand side (snuba_sdk/legacy.py:176-191). -/
def onlyStringsFor : Val → Bool
  | .column c => c.keepsText
  | .curried true name _ _ _ (.column c :: _ :: _) _ => name == c!"ifNull" && c.keepsText
  | _ => false

omit U D in
/-- `Op(x)` (snuba_sdk/legacy.py:195, Python built-in `Enum`): the member itself, or the member with that value. -/
def opOf : Val → Except Err Op
  | .op o => .ok o
  | .str s => match allOps.find? fun o => o.value == s with
    | some o => .ok o
    | none => .error .valueError
  | _ => .error .valueError

omit U D in
/-- `cond[1] not in ["IS NULL", "IS NOT NULL"]`, negated (snuba_sdk/legacy.py:175). -/
def isNullText : Val → Bool
  | .str s => s == c!"IS NULL" || s == c!"IS NOT NULL"
  | _ => false

omit U in
/-- The right-hand side of a condition whose first two items are consumed (snuba_sdk/legacy.py:173-193). -/
def conditionRhs (lhs op : Val) (rest : List Val) : Except Err Val :=
  if isNullText op then .ok .none
  else match rest with
    | [] => .error .indexError
    | c :: _ => .ok (parseScalar (onlyStringsFor lhs) c)

omit U in
/-- `_parse_condition_parts` from the converted first item on (snuba_sdk/legacy.py:166-195). -/
def conditionParts (lhs : Except Err Val) (op : Val) (rest : List Val) : Except Err (Val × Op × Val) := do
  let l ← lhs
  let r ← conditionRhs l op rest
  let o ← opOf op
  .ok (l, o, r)

omit U D in
/-- `OPERATOR_TO_FUNCTION[op].value` (snuba_sdk/conditions.py:37-65). -/
def opFunction : Op → Except Err Str
  | .gt => .ok c!"greater"
  | .lt => .ok c!"less"
  | .gte => .ok c!"greaterOrEquals"
  | .lte => .ok c!"lessOrEquals"
  | .eq => .ok c!"equals"
  | .neq => .ok c!"notEquals"
  | .in_ => .ok c!"in"
  | .notIn => .ok c!"notIn"
  | .isNull => .ok c!"isNull"
  | .isNotNull => .ok c!"isNotNull"
  | .like => .ok c!"like"
  | .notLike => .ok c!"notLike"
  | .not => .error .keyError

/-- `parse_condition_to_function` from the converted first item on (snuba_sdk/legacy.py:210-212). -/
def conditionFunction (lhs : Except Err Val) (op : Val) (rest : List Val) : Except Err Val := do
  let (l, o, r) ← conditionParts lhs op rest
  let f ← opFunction o
  mkFunction (.str f) (.tuple [l, r]) .none

omit U D in
/-- A method of `str` on a value that should be a string (Python built-in): `bytes` has the methods but takes no `str`. -/
def textMethod : Val → Except Err Str
  | .str s => .ok s
  | .bytes _ => .error .typeError
  | _ => .error .attributeError

omit U D in
/-- `alias and alias.startswith("`") and alias.endswith("`")` (snuba_sdk/legacy.py:116-118). -/
def stripAlias (a : Val) : Except Err Val :=
  if a.truthy then do
    let s ← textMethod a
    .ok (.str (if startsWith s c!"`" && endsWith s c!"`" then slice1m1 s else s))
  else .ok a

omit U D in
/-- `value[2] if len(value) > 2 else None` and the removal of backquotes (snuba_sdk/legacy.py:116-118). -/
def legacyAlias : List Val → Except Err Val
  | [] => .ok .none
  | a :: _ => stripAlias a

omit D in
/-- The construction of a function from its name, its raw arguments and its converted arguments
(snuba_sdk/legacy.py:120-132). -/
def legacyCall (name args : Val) (alias : Val) (children : Except Err Val) : Except Err Val := do
  let f ← textMethod name
  if endsWith f c!"()" && !args.truthy then mkFunction (.str (stripP (fun c => c == '(' || c == ')') f)) (.list []) alias
  else if !endsWith f c!")" && !args.truthy then mkFunction (.str f) (.list []) alias
  else do
    let ch ← children
    mkFunction (.str f) ch alias

omit U D in
/-- `[parse_exp(value[1])]` (snuba_sdk/legacy.py:130). -/
def oneChild (x : Except Err Val) : Except Err Val := x.map fun v => .list [v]

/-- `parse_exp` of a list with at least two items, given the conversions of the first item and of the arguments
(snuba_sdk/legacy.py:113-132). -/
def legacyList (a b : Val) (rest : List Val) (lhs children : Except Err Val) : Except Err Val :=
  if isLegacyCondition (a :: b :: rest) then conditionFunction lhs b rest
  else do
    let alias ← legacyAlias rest
    legacyCall a b alias children

mutual
/-- `parse_exp` (snuba_sdk/legacy.py:93-132). A list of one item fails at `value[1]` if its item is a string, and at
`value[0].endswith` otherwise. -/
def parseExp : Val → Except Err Val
  | .str s => parseExpText s
  | .list [] => .error .indexError
  | .list [a] => (textMethod a).bind fun _ => .error .indexError
  | .list (a :: .list ys :: rest) => legacyList a (.list ys) rest (parseExp a) ((parseExps ys).map .list)
  | .list (a :: b :: rest) =>
    legacyList a b rest (parseExp a) (if b.truthy then oneChild (parseExp b) else .ok .none)
  | v => .ok (parseScalar false v)

/-- `list(map(parse_exp, …))` (snuba_sdk/legacy.py:128, 246). -/
def parseExps : List Val → Except Err (List Val)
  | [] => .ok []
  | v :: vs => do
    let x ← parseExp v
    let xs ← parseExps vs
    .ok (x :: xs)
end

omit U in
/-- `parse_extension_condition` with the column as an object (snuba_sdk/legacy.py:152-163). -/
def extensionCondition (column values : Val) (alwaysIn : Bool) : Except Err (List Val) :=
  match values.asInt? with
  | some _ =>
    if alwaysIn then (mkCondition column (.op .in_) (.tuple (parseScalars false [values]))).map fun c => [c]
    else (mkCondition column (.op .eq) values).map fun c => [c]
  | none => match values.listOrTuple? with
    | some (_, xs) => (mkCondition column (.op .in_) (.tuple (parseScalars false xs))).map fun c => [c]
    | none => .ok []

/-- `if body.get(key): cond = parse_extension_condition(col, body[key], …); if cond: conditions.append(cond)`
(snuba_sdk/legacy.py:266-269, 282-285); a condition object is true. -/
def extension (col : Str) (values : Val) (alwaysIn : Bool) : Except Err (List Val) :=
  if values.truthy then do
    let c ← mkColumn (.str col) .none
    extensionCondition c values alwaysIn
  else .ok []

/-- `parse_condition` on the items of a condition (snuba_sdk/legacy.py:198-207): `IndexError` if there are too few. -/
def parseConditionItems : List Val → Except Err Val
  | [] => .error .indexError
  | [a] => (parseExp a).bind fun _ => .error .indexError
  | a :: b :: rest => do
    let (l, o, r) ← conditionParts (parseExp a) b rest
    mkCondition l (.op o) r

/-- `parse_condition` (snuba_sdk/legacy.py:198-207); indexing a value that is no sequence is a `TypeError`. -/
def parseCondition (v : Val) : Except Err Val := do
  let xs ← v.iter
  parseConditionItems xs

/-- `for or_cond in cond: or_conditions.append(parse_condition(or_cond))` (snuba_sdk/legacy.py:289-291, 305-307). -/
def parseConditions : List Val → Except Err (List Val)
  | [] => .ok []
  | v :: vs => do
    let c ← parseCondition v
    let cs ← parseConditions vs
    .ok (c :: cs)

omit U D in
/-- The conditions that a group contributes to `WHERE` (snuba_sdk/legacy.py:293-296). -/
def whereGroup (cs : List Val) : Except Err (List Val) :=
  if 1 < cs.length then (mkOr (.list cs)).map fun c => [c] else .ok cs

omit U D in
/-- The condition that a group contributes to `HAVING` (snuba_sdk/legacy.py:309). -/
def havingGroup (cs : List Val) : Except Err (List Val) := (mkOr (.list cs)).map fun c => [c]

/-- One entry of `conditions` or of `having` (snuba_sdk/legacy.py:287-298, 303-311). `len` of a value without a length is a
`TypeError`. -/
def legacyEntry (group : List Val → Except Err (List Val)) (v : Val) : Except Err (List Val) := do
  let xs ← v.iter
  if isLegacyCondition xs then (parseConditionItems xs).map fun c => [c]
  else do
    let cs ← parseConditions xs
    group cs

/-- The loop over the entries of `conditions` or of `having` (snuba_sdk/legacy.py:287-298, 303-311). -/
def legacyEntries (group : List Val → Except Err (List Val)) : List Val → Except Err (List Val)
  | [] => .ok []
  | v :: vs => do
    let c ← legacyEntry group v
    let cs ← legacyEntries group vs
    .ok (c ++ cs)

omit U D in
/-- `"+" in date_str` (snuba_sdk/legacy.py:50) is true for a list or tuple that holds it; then `split` fails. -/
def holdsPlus (xs : List Val) : Bool := xs.any fun x => pyEq x (.str c!"+")

/-- `parse_datetime` of a value of the body (snuba_sdk/legacy.py:37-62). -/
def parseDate : Val → Except Err Val
  | .str s => match parseDatetime s with
    | some t => .ok (.datetime t)
    | none => .error .valueError
  | .list xs => if holdsPlus xs then .error .attributeError else .error .typeError
  | .tuple xs => if holdsPlus xs then .error .attributeError else .error .typeError
  | _ => .error .typeError

/-- One of the two conditions on the time column (snuba_sdk/legacy.py:275-280). -/
def timeCondition (column : Str) (op : Op) (v : Val) : Except Err (List Val) :=
  if v.truthy then do
    let c ← mkColumn (.str column) .none
    let t ← parseDate v
    let x ← mkCondition c (.op op) t
    .ok [x]
  else .ok []

omit U D in
/-- The text readings of `float(…)` and `int(…)` for `str` and `bytes` (Python built-ins; snuba_sdk/legacy.py:232, 343). Parameter;
nothing is assumed of it. `none` is `ValueError`. -/
class PyNumberText where
  float : Val → Option PyFloat
  int : Val → Option Int

omit U D in
/-- Reads no text as a number: shows that the class is inhabited; used in examples. -/
@[reducible] def noNumberText : PyNumberText where
  float _ := none
  int _ := none

/-- The legacy body (snuba_sdk/legacy.py:215): its entries, and the value under `tenant_ids` (`None` if there is none). -/
structure LegacyBody where
  entries : List (Str × Val)
  tenantIds : Data := .val .none

omit U D in
/-- `body.get(key, default)` (Python built-in). -/
def LegacyBody.getD (b : LegacyBody) (key : Str) (default : Val) : Val := (b.entries.lookup key).getD default

omit U D in
/-- `body.get(key)` (Python built-in). -/
def LegacyBody.get (b : LegacyBody) (key : Str) : Val := b.getD key .none

omit U D in
/-- The entries after the value under a key that is there has changed (modelling aid for snuba_sdk/legacy.py:326). -/
def updateEntry (key : Str) (v : Val) : List (Str × Val) → List (Str × Val)
  | [] => []
  | (k, w) :: rest => if k = key then (k, v) :: rest else (k, w) :: updateEntry key v rest

omit U D in
/-- `int` to `float` (Python built-in): `OverflowError` if it is too large. -/
def intToFloat (i : Int) : Except Err PyFloat :=
  match roundRat (decide (i < 0)) i.natAbs 1 with
  | .inf _ => .error .overflowError
  | f => .ok f

omit U D in
/-- `float(x)` (Python built-in; snuba_sdk/legacy.py:232). -/
def toFloat [N : PyNumberText] : Val → Except Err PyFloat
  | .float f => .ok f
  | .int i => intToFloat i
  | .bool b => intToFloat (if b then 1 else 0)
  | .str s => match N.float (.str s) with
    | some f => .ok f
    | none => .error .valueError
  | .bytes bs => match N.float (.bytes bs) with
    | some f => .ok f
    | none => .error .valueError
  | _ => .error .typeError

omit U D in
/-- The integer part of a finite float (Python built-in `int`). -/
def Dbl.trunc (d : Dbl) : Int :=
  let a : Int := ((d.ratio.1 / d.ratio.2 : Nat) : Int)
  if d.neg then -a else a

omit U D in
/-- `int(x)` (Python built-in; snuba_sdk/legacy.py:343). -/
def toInt [N : PyNumberText] : Val → Except Err Int
  | .int i => .ok i
  | .bool b => .ok (if b then 1 else 0)
  | .float (.fin d) => .ok d.trunc
  | .float .nan => .error .valueError
  | .float (.inf _) => .error .overflowError
  | .str s => match N.int (.str s) with
    | some i => .ok i
    | none => .error .valueError
  | .bytes bs => match N.int (.bytes bs) with
    | some i => .ok i
    | none => .error .valueError
  | _ => .error .typeError

omit U D in
/-- `sample = body.get("sample"); if sample is not None: sample = float(sample)` (snuba_sdk/legacy.py:230-232). -/
def legacySample [N : PyNumberText] : Val → Except Err Val
  | .none => .ok .none
  | v => (toFloat v).map .float

/-- `for a in body.get("aggregations", []): selected_columns.append(parse_exp(list(a)))` (snuba_sdk/legacy.py:236-237). -/
def parseAggregations : List Val → Except Err (List Val)
  | [] => .ok []
  | v :: vs => do
    let items ← v.iter
    let x ← parseExp (.list items)
    let xs ← parseAggregations vs
    .ok (x :: xs)

omit U D in
/-- A tuple as a list, other values as they are (snuba_sdk/legacy.py:241-244, 260-261). -/
def tupleAsList : Val → Val
  | .tuple xs => .list xs
  | v => v

/-- `selected_columns` (snuba_sdk/legacy.py:235-246). -/
def legacySelect (body : LegacyBody) : Except Err (List Val) := do
  let as ← (body.getD c!"aggregations" (.list [])).iter
  let xs ← parseAggregations as
  let ss ← (body.getD c!"selected_columns" (.list [])).iter
  let ys ← parseExps (ss.map tupleAsList)
  .ok (xs ++ ys)

omit D in
/-- `set_array_join([Column(arrayjoin)])` if there is one (snuba_sdk/legacy.py:248-250). -/
def legacyArrayJoin (q : Query) (v : Val) : Except Err Query :=
  if v.truthy then do
    let c ← mkColumn v .none
    q.setArrayJoin (.list [c])
  else .ok q

omit U D in
/-- `if x and not isinstance(x, list): x = [x]` (snuba_sdk/legacy.py:255-256, 317-318). -/
def wrapList (v : Val) : Val :=
  match v with
  | .list xs => .list xs
  | v => if v.truthy then .list [v] else v

/-- `parsed_groupby` (snuba_sdk/legacy.py:254-262). -/
def legacyGroupby (body : LegacyBody) : Except Err (List Val) := do
  let gs ← (wrapList (body.getD c!"groupby" (.list []))).iter
  parseExps (gs.map tupleAsList)

/-- The two conditions on the time column, if the entity has one (snuba_sdk/legacy.py:272-280). -/
def legacyTimes (body : LegacyBody) (entity : Str) : Except Err (List Val) :=
  match getRequiredTimeColumn entity with
  | none => .ok []
  | some column => do
    let a ← timeCondition column .gte (body.get c!"from_date")
    let b ← timeCondition column .lt (body.get c!"to_date")
    .ok (a ++ b)

/-- The list of conditions for `WHERE` (snuba_sdk/legacy.py:265-298). -/
def legacyWhere (body : LegacyBody) (entity : Str) : Except Err (List Val) := do
  let org ← extension c!"org_id" (body.get c!"organization") false
  let times ← legacyTimes body entity
  let proj ← extension c!"project_id" (body.get c!"project") true
  let cs ← (body.getD c!"conditions" (.list [])).iter
  let rest ← legacyEntries whereGroup cs
  .ok (org ++ times ++ proj ++ rest)

/-- The list of conditions for `HAVING` (snuba_sdk/legacy.py:302-311). -/
def legacyHaving (body : LegacyBody) : Except Err (List Val) := do
  let cs ← (body.getD c!"having" (.list [])).iter
  legacyEntries havingGroup cs

/-- One item of `orderby` (snuba_sdk/legacy.py:322-334): the expression and the direction, and the item afterwards. For an item
that is neither a list nor a string, `part` is what the iteration before left there. -/
def orderStep (part : Option Val) : Val → Except Err (Val × Direction) × Val
  | .list [] => (.error .indexError, .list [])
  | .list (.str s :: rest) =>
    if startsWith s c!"-" then
      ((parseExp (.list (.str (lstripP (· == '-') s) :: rest))).map fun p => (p, .desc),
        .list (.str (lstripP (· == '-') s) :: rest))
    else ((parseExp (.list (.str s :: rest))).map fun p => (p, .asc), .list (.str s :: rest))
  | .list xs => ((parseExp (.list xs)).map fun p => (p, .asc), .list xs)
  | .str s =>
    if startsWith s c!"-" then ((parseExp (.str (lstripP (· == '-') s))).map fun p => (p, .desc), .str s)
    else ((parseExp (.str s)).map fun p => (p, .asc), .str s)
  | o => match part with
    | none => (.error .unboundLocalError, o)
    | some p => (.ok (p, .asc), o)

/-- The loop over `order_by` (snuba_sdk/legacy.py:320-336): the `OrderBy` objects, and the items afterwards. -/
def orderLoop (part : Option Val) : List Val → Except Err (List Val) × List Val
  | [] => (.ok [], [])
  | o :: os => match orderStep part o with
    | (.error e, o') => (.error e, o' :: os)
    | (.ok (p, d), o') => match mkOrderBy p (.direction d) with
      | .error e => (.error e, o' :: os)
      | .ok x => ((orderLoop (some p) os).1.map (x :: ·), o' :: (orderLoop (some p) os).2)

/-- The objects for `set_orderby`, and the value under `orderby` afterwards (snuba_sdk/legacy.py:317-336). -/
def legacyOrder : Val → Except Err (List Val) × Val
  | .list os => ((orderLoop none os).1, .list (orderLoop none os).2)
  | o => ((orderLoop none [o]).1, o)

omit U D in
/-- `limit, name = limitby` (Python built-in; snuba_sdk/legacy.py:342). -/
def unpackTwo (v : Val) : Except Err (Val × Val) := do
  let xs ← v.iter
  match xs with
  | [a, b] => .ok (a, b)
  | _ => .error .valueError

omit D in
/-- `limitby` (snuba_sdk/legacy.py:340-343). -/
def legacyLimitby [N : PyNumberText] (q : Query) (v : Val) : Except Err Query :=
  if v.truthy then do
    let (limit, name) ← unpackTwo v
    let c ← mkColumn name .none
    let n ← toInt limit
    let l ← mkLimitBy (.list [c]) (.int n)
    q.setLimitby l
  else .ok q

omit U D in
/-- `if body.get(extra) is not None: query = query.set_extra(…)` (snuba_sdk/legacy.py:351-353). -/
def legacyExtra (set : Query → Val → Except Err Query) (q : Query) (v : Val) : Except Err Query :=
  match v with
  | .none => .ok q
  | v => set q v

omit D in
/-- The query extras, in order (snuba_sdk/legacy.py:345-353). -/
def legacyExtras (body : LegacyBody) (q : Query) : Except Err Query := do
  let q ← legacyExtra Query.setLimit q (body.get c!"limit")
  let q ← legacyExtra Query.setOffset q (body.get c!"offset")
  let q ← legacyExtra Query.setGranularity q (body.get c!"granularity")
  legacyExtra Query.setTotals q (body.get c!"totals")

omit U D in
/-- `x if x else None` for a flag: a flag that is not found keeps its default `None` (snuba_sdk/legacy.py:361-363). -/
def foundFlag (v : Val) : Val := if v.truthy then v else .none

omit U D in
/-- `Flags(**found)` (snuba_sdk/legacy.py:355-363). -/
def legacyFlags (body : LegacyBody) : FlagsObj :=
  { consistent := foundFlag (body.get c!"consistent"), turbo := foundFlag (body.get c!"turbo"),
    debug := foundFlag (body.get c!"debug"), dryRun := foundFlag (body.get c!"dry_run"), legacy := .bool true }

omit U D in
/-- `x or default` (Python built-in; snuba_sdk/legacy.py:365-366). -/
def orElse (v default : Val) : Val := if v.truthy then v else default

omit U D in
/-- `body.get("tenant_ids") or {"legacy": "legacy"}` (snuba_sdk/legacy.py:367). -/
def legacyTenants : Data → Data
  | .val v => if v.truthy then .val v else .dict [(c!"legacy", .val (.str c!"legacy"))]
  | .list [] => .dict [(c!"legacy", .val (.str c!"legacy"))]
  | .dict [] => .dict [(c!"legacy", .val (.str c!"legacy"))]
  | d => d

omit U D in
/-- The request (snuba_sdk/legacy.py:355-370). -/
def legacyRequest (body : LegacyBody) (entity : Str) (q : Query) : RequestObj :=
  { dataset := .val (orElse (body.get c!"dataset") (.str entity)), appId := .val (orElse (body.get c!"app_id") (.str c!"legacy")),
    query := .snql q, flags := some (legacyFlags body), tenantIds := legacyTenants body.tenantIds }

/-- `json_to_snql` up to the `orderby` (snuba_sdk/legacy.py:230-313). -/
def legacyStart [N : PyNumberText] (body : LegacyBody) (entity : Str) : Except Err Query := do
  let sample ← legacySample (body.get c!"sample")
  let e ← mkEntity (.str entity) .none sample .none
  let q ← mkQuery e {}
  let sel ← legacySelect body
  let q ← legacyArrayJoin q (body.get c!"arrayjoin")
  let q ← q.setSelect (.list sel)
  let gs ← legacyGroupby body
  let q ← q.setGroupby (.list gs)
  let ws ← legacyWhere body entity
  let q ← q.setWhere (.list ws)
  let hs ← legacyHaving body
  q.setHaving (.list hs)

omit D in
/-- `json_to_snql` after the `orderby` (snuba_sdk/legacy.py:340-370). -/
def legacyFinish [N : PyNumberText] (body : LegacyBody) (entity : Str) (q : Query) : Except Err RequestObj := do
  let q ← legacyLimitby q (body.get c!"limitby")
  let q ← legacyExtras body q
  .ok (legacyRequest body entity q)

/-- `json_to_snql` (snuba_sdk/legacy.py:215-370): the request, and the body afterwards. Simplification: `entity` is a string. -/
def jsonToSnql [N : PyNumberText] (body : LegacyBody) (entity : Str) : Except Err RequestObj × LegacyBody :=
  match legacyStart body entity with
  | .error e => (.error e, body)
  | .ok q =>
    if (body.get c!"orderby").truthy then
      ((legacyOrder (body.get c!"orderby")).1.bind fun obs =>
          (q.setOrderby (.list obs)).bind fun q => legacyFinish body entity q,
        { body with entries := updateEntry c!"orderby" (legacyOrder (body.get c!"orderby")).2 body.entries })
    else (legacyFinish body entity q, body)

end Verif
