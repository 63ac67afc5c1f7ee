import Verif.Model.Legacy
import Verif.Model.QueryMessages

/-!
# The conversion of legacy bodies with the messages of its exceptions

The functions below follow the functions of the same names in `Model/Legacy.lean`, and also give the message of the exception. Python's own
messages are left out. The body afterwards is left out: `Model/Legacy.lean` has it.
-/

namespace Verif

variable [PyShow] [PyText] [U : PyUnicode] [D : PyDecimal]

omit D in
/-- A string in `parse_exp` (snuba_sdk/legacy.py:101-109). -/
def parseExpTextMsg (s : Str) : Except Raised Val :=
  if s.isEmpty then .ok (.str s)
  else if startsWith s c!"'" && endsWith s c!"'" then .ok (.str (slice1m1 s))
  else mkColumnMsg (.str s) .none

omit [PyShow] [PyText] U in
/-- `_parse_condition_parts` from the converted first item on (snuba_sdk/legacy.py:166-195). -/
def conditionPartsMsg (lhs : Except Raised Val) (op : Val) (rest : List Val) : Except Raised (Val × Op × Val) := do
  let l ← lhs
  let r ← elsewhere (conditionRhs l op rest)
  let o ← elsewhere (opOf op)
  .ok (l, o, r)

/-- `parse_condition_to_function` from the converted first item on (snuba_sdk/legacy.py:210-212). -/
def conditionFunctionMsg (lhs : Except Raised Val) (op : Val) (rest : List Val) : Except Raised Val := do
  let (l, o, r) ← conditionPartsMsg lhs op rest
  let f ← elsewhere (opFunction o)
  mkFunctionMsg (.str f) (.tuple [l, r]) .none

omit D in
/-- The construction of a function from its name, its raw arguments and its converted arguments (snuba_sdk/legacy.py:120-132). -/
def legacyCallMsg (name args : Val) (alias : Val) (children : Except Raised Val) : Except Raised Val := do
  let f ← elsewhere (textMethod name)
  if endsWith f c!"()" && !args.truthy then mkFunctionMsg (.str (stripP (fun c => c == '(' || c == ')') f)) (.list []) alias
  else if !endsWith f c!")" && !args.truthy then mkFunctionMsg (.str f) (.list []) alias
  else do
    let ch ← children
    mkFunctionMsg (.str f) ch alias

/-- `parse_exp` of a list with at least two items, given the conversions of the first item and of the arguments
(snuba_sdk/legacy.py:113-132). -/
def legacyListMsg (a b : Val) (rest : List Val) (lhs children : Except Raised Val) : Except Raised Val :=
  if isLegacyCondition (a :: b :: rest) then conditionFunctionMsg lhs b rest
  else do
    let alias ← elsewhere (legacyAlias rest)
    legacyCallMsg a b alias children

mutual
/-- `parse_exp` (snuba_sdk/legacy.py:93-132), as in `parseExp`. -/
def parseExpMsg : Val → Except Raised Val
  | .str s => parseExpTextMsg s
  | .list [] => .error (.indexError, none)
  | .list [a] => (elsewhere (textMethod a)).bind fun _ => .error (.indexError, none)
  | .list (a :: .list ys :: rest) => legacyListMsg a (.list ys) rest (parseExpMsg a) ((parseExpsMsg ys).map .list)
  | .list (a :: b :: rest) =>
    legacyListMsg a b rest (parseExpMsg a) (if b.truthy then (parseExpMsg b).map (fun v => .list [v]) else .ok .none)
  | v => .ok (parseScalar false v)

/-- `list(map(parse_exp, …))` (snuba_sdk/legacy.py:128, 246). -/
def parseExpsMsg : List Val → Except Raised (List Val)
  | [] => .ok []
  | v :: vs => do
    let x ← parseExpMsg v
    let xs ← parseExpsMsg vs
    .ok (x :: xs)
end

omit U in
/-- `parse_extension_condition` with the column as an object (snuba_sdk/legacy.py:152-163). -/
def extensionConditionMsg (column values : Val) (alwaysIn : Bool) : Except Raised (List Val) :=
  match values.asInt? with
  | some _ =>
    if alwaysIn then (mkConditionMsg column (.op .in_) (.tuple (parseScalars false [values]))).map fun c => [c]
    else (mkConditionMsg column (.op .eq) values).map fun c => [c]
  | none => match values.listOrTuple? with
    | some (_, xs) => (mkConditionMsg column (.op .in_) (.tuple (parseScalars false xs))).map fun c => [c]
    | none => .ok []

/-- `parse_extension_condition` if there is a value (snuba_sdk/legacy.py:266-269, 282-285). -/
def extensionMsg (col : Str) (values : Val) (alwaysIn : Bool) : Except Raised (List Val) :=
  if values.truthy then do
    let c ← mkColumnMsg (.str col) .none
    extensionConditionMsg c values alwaysIn
  else .ok []

/-- `parse_condition` on the items of a condition (snuba_sdk/legacy.py:198-207). -/
def parseConditionItemsMsg : List Val → Except Raised Val
  | [] => .error (.indexError, none)
  | [a] => (parseExpMsg a).bind fun _ => .error (.indexError, none)
  | a :: b :: rest => do
    let (l, o, r) ← conditionPartsMsg (parseExpMsg a) b rest
    mkConditionMsg l (.op o) r

/-- `parse_condition` (snuba_sdk/legacy.py:198-207). -/
def parseConditionMsg (v : Val) : Except Raised Val := do
  let xs ← elsewhere v.iter
  parseConditionItemsMsg xs

/-- `for or_cond in cond: or_conditions.append(parse_condition(or_cond))` (snuba_sdk/legacy.py:289-291, 305-307). -/
def parseConditionsMsg : List Val → Except Raised (List Val)
  | [] => .ok []
  | v :: vs => do
    let c ← parseConditionMsg v
    let cs ← parseConditionsMsg vs
    .ok (c :: cs)

omit [PyShow] [PyText] U D in
/-- The conditions that a group contributes to `WHERE` (snuba_sdk/legacy.py:293-296). -/
def whereGroupMsg (cs : List Val) : Except Raised (List Val) :=
  if 1 < cs.length then (mkBoolMsg .or .or (.list cs)).map fun c => [c] else .ok cs

omit [PyShow] [PyText] U D in
/-- The condition that a group contributes to `HAVING` (snuba_sdk/legacy.py:309). -/
def havingGroupMsg (cs : List Val) : Except Raised (List Val) := (mkBoolMsg .or .or (.list cs)).map fun c => [c]

/-- One entry of `conditions` or of `having` (snuba_sdk/legacy.py:287-298, 303-311). -/
def legacyEntryMsg (group : List Val → Except Raised (List Val)) (v : Val) : Except Raised (List Val) := do
  let xs ← elsewhere v.iter
  if isLegacyCondition xs then (parseConditionItemsMsg xs).map fun c => [c]
  else do
    let cs ← parseConditionsMsg xs
    group cs

/-- The loop over the entries of `conditions` or of `having` (snuba_sdk/legacy.py:287-298, 303-311). -/
def legacyEntriesMsg (group : List Val → Except Raised (List Val)) : List Val → Except Raised (List Val)
  | [] => .ok []
  | v :: vs => do
    let c ← legacyEntryMsg group v
    let cs ← legacyEntriesMsg group vs
    .ok (c ++ cs)

omit [PyShow] [PyText] in
/-- `parse_datetime` of a value of the body (snuba_sdk/legacy.py:37-62). The text shown has lost the colons of its time zone. -/
def parseDateMsg : Val → Except Raised Val
  | .str s => match parseDatetime s with
    | some t => .ok (.datetime t)
    | none => raise .valueError (withoutZoneColons s ++ c!" is not a recognized datetime")
  | v => elsewhere (parseDate v)

/-- One of the two conditions on the time column (snuba_sdk/legacy.py:275-280). -/
def timeConditionMsg (column : Str) (op : Op) (v : Val) : Except Raised (List Val) :=
  if v.truthy then do
    let c ← mkColumnMsg (.str column) .none
    let t ← parseDateMsg v
    let x ← mkConditionMsg c (.op op) t
    .ok [x]
  else .ok []

/-- `for a in body.get("aggregations", []): …` (snuba_sdk/legacy.py:236-237). -/
def parseAggregationsMsg : List Val → Except Raised (List Val)
  | [] => .ok []
  | v :: vs => do
    let items ← elsewhere v.iter
    let x ← parseExpMsg (.list items)
    let xs ← parseAggregationsMsg vs
    .ok (x :: xs)

/-- `selected_columns` (snuba_sdk/legacy.py:235-246). -/
def legacySelectMsg (body : LegacyBody) : Except Raised (List Val) := do
  let as ← elsewhere (body.getD c!"aggregations" (.list [])).iter
  let xs ← parseAggregationsMsg as
  let ss ← elsewhere (body.getD c!"selected_columns" (.list [])).iter
  let ys ← parseExpsMsg (ss.map tupleAsList)
  .ok (xs ++ ys)

omit D in
/-- `set_array_join([Column(arrayjoin)])` if there is one (snuba_sdk/legacy.py:248-250). -/
def legacyArrayJoinMsg (σ : SetOrders) (q : Query) (v : Val) : Except Raised Query :=
  if v.truthy then do
    let c ← mkColumnMsg v .none
    q.setArrayJoinMsg σ (.list [c])
  else .ok q

/-- `parsed_groupby` (snuba_sdk/legacy.py:254-262). -/
def legacyGroupbyMsg (body : LegacyBody) : Except Raised (List Val) := do
  let gs ← elsewhere (wrapList (body.getD c!"groupby" (.list []))).iter
  parseExpsMsg (gs.map tupleAsList)

/-- The two conditions on the time column, if the entity has one (snuba_sdk/legacy.py:272-280). -/
def legacyTimesMsg (body : LegacyBody) (entity : Str) : Except Raised (List Val) :=
  match getRequiredTimeColumn entity with
  | none => .ok []
  | some column => do
    let a ← timeConditionMsg column .gte (body.get c!"from_date")
    let b ← timeConditionMsg column .lt (body.get c!"to_date")
    .ok (a ++ b)

/-- The list of conditions for `WHERE` (snuba_sdk/legacy.py:265-298). -/
def legacyWhereMsg (body : LegacyBody) (entity : Str) : Except Raised (List Val) := do
  let org ← extensionMsg c!"org_id" (body.get c!"organization") false
  let times ← legacyTimesMsg body entity
  let proj ← extensionMsg c!"project_id" (body.get c!"project") true
  let cs ← elsewhere (body.getD c!"conditions" (.list [])).iter
  let rest ← legacyEntriesMsg whereGroupMsg cs
  .ok (org ++ times ++ proj ++ rest)

/-- The list of conditions for `HAVING` (snuba_sdk/legacy.py:302-311). -/
def legacyHavingMsg (body : LegacyBody) : Except Raised (List Val) := do
  let cs ← elsewhere (body.getD c!"having" (.list [])).iter
  legacyEntriesMsg havingGroupMsg cs

/-- One item of `orderby` (snuba_sdk/legacy.py:322-334): the expression and the direction, as in `orderStep`. -/
def orderStepMsg (part : Option Val) : Val → Except Raised (Val × Direction)
  | .list [] => .error (.indexError, none)
  | .list (.str s :: rest) =>
    if startsWith s c!"-" then (parseExpMsg (.list (.str (lstripP (· == '-') s) :: rest))).map fun p => (p, .desc)
    else (parseExpMsg (.list (.str s :: rest))).map fun p => (p, .asc)
  | .list xs => (parseExpMsg (.list xs)).map fun p => (p, .asc)
  | .str s =>
    if startsWith s c!"-" then (parseExpMsg (.str (lstripP (· == '-') s))).map fun p => (p, .desc)
    else (parseExpMsg (.str s)).map fun p => (p, .asc)
  | _ => match part with
    | none => .error (.unboundLocalError, none)
    | some p => .ok (p, .asc)

/-- The loop over `order_by` (snuba_sdk/legacy.py:320-336): the `OrderBy` objects. -/
def orderLoopMsg (part : Option Val) : List Val → Except Raised (List Val)
  | [] => .ok []
  | o :: os => do
    let (p, d) ← orderStepMsg part o
    let x ← mkOrderByMsg p (.direction d)
    let xs ← orderLoopMsg (some p) os
    .ok (x :: xs)

/-- The objects for `set_orderby` (snuba_sdk/legacy.py:317-336). -/
def legacyOrderMsg : Val → Except Raised (List Val)
  | .list os => orderLoopMsg none os
  | o => orderLoopMsg none [o]

omit D in
/-- `limitby` (snuba_sdk/legacy.py:340-343). -/
def legacyLimitbyMsg [N : PyNumberText] (σ : SetOrders) (q : Query) (v : Val) : Except Raised Query :=
  if v.truthy then do
    let (limit, name) ← elsewhere (unpackTwo v)
    let c ← mkColumnMsg name .none
    let n ← elsewhere (toInt limit)
    let l ← mkLimitByMsg (.list [c]) (.int n)
    q.setLimitbyMsg σ l
  else .ok q

omit [PyShow] [PyText] U D in
/-- `if body.get(extra) is not None: query = query.set_extra(…)` (snuba_sdk/legacy.py:351-353). -/
def legacyExtraMsg (set : Query → Val → Except Raised Query) (q : Query) (v : Val) : Except Raised Query :=
  match v with
  | .none => .ok q
  | v => set q v

omit D in
/-- The query extras, in order (snuba_sdk/legacy.py:345-353). -/
def legacyExtrasMsg (σ : SetOrders) (body : LegacyBody) (q : Query) : Except Raised Query := do
  let q ← legacyExtraMsg (Query.setLimitMsg σ) q (body.get c!"limit")
  let q ← legacyExtraMsg (Query.setOffsetMsg σ) q (body.get c!"offset")
  let q ← legacyExtraMsg (Query.setGranularityMsg σ) q (body.get c!"granularity")
  legacyExtraMsg (Query.setTotalsMsg σ) q (body.get c!"totals")

/-- `json_to_snql` up to the `orderby` (snuba_sdk/legacy.py:230-313). -/
def legacyStartMsg [N : PyNumberText] (σ : SetOrders) (body : LegacyBody) (entity : Str) : Except Raised Query := do
  let sample ← elsewhere (legacySample (body.get c!"sample"))
  let e ← mkEntityMsg (.str entity) .none sample .none
  let q ← mkQueryMsg e {}
  let sel ← legacySelectMsg body
  let q ← legacyArrayJoinMsg σ q (body.get c!"arrayjoin")
  let q ← q.setSelectMsg σ (.list sel)
  let gs ← legacyGroupbyMsg body
  let q ← q.setGroupbyMsg σ (.list gs)
  let ws ← legacyWhereMsg body entity
  let q ← q.setWhereMsg σ (.list ws)
  let hs ← legacyHavingMsg body
  q.setHavingMsg σ (.list hs)

omit D in
/-- `json_to_snql` after the `orderby` (snuba_sdk/legacy.py:340-370). -/
def legacyFinishMsg [N : PyNumberText] (σ : SetOrders) (body : LegacyBody) (entity : Str) (q : Query) : Except Raised RequestObj := do
  let q ← legacyLimitbyMsg σ q (body.get c!"limitby")
  let q ← legacyExtrasMsg σ body q
  .ok (legacyRequest body entity q)

/-- `json_to_snql` (snuba_sdk/legacy.py:215-370). -/
def jsonToSnqlMsg [N : PyNumberText] (σ : SetOrders) (body : LegacyBody) (entity : Str) : Except Raised RequestObj := do
  let q ← legacyStartMsg σ body entity
  if (body.get c!"orderby").truthy then do
    let obs ← legacyOrderMsg (body.get c!"orderby")
    let q ← q.setOrderbyMsg σ (.list obs)
    legacyFinishMsg σ body entity q
  else legacyFinishMsg σ body entity q

end Verif
