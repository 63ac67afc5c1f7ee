import Verif.Model.Finder
import Verif.Model.OrOptimizer

/-!
# snuba_sdk/query.py, query_visitors.py and query_validation.py

A `Query` may be built with arbitrary values in its clauses (the constructor checks only the match),
so the clauses are `Val`s.  Simplification: a clause does not contain another `Query` object.
-/

namespace Verif

variable [U : PyUnicode]

/-- The clauses of a `Query` other than `match` (snuba_sdk/query.py:67-77). -/
structure Body where
  select : Val := .none
  groupby : Val := .none
  arrayJoin : Val := .none
  where_ : Val := .none
  having : Val := .none
  orderby : Val := .none
  limitby : Val := .none
  limit : Val := .none
  offset : Val := .none
  granularity : Val := .none
  totals : Val := .none

/-- `Query` (snuba_sdk/query.py:55-77): over an entity, storage or join, or over another query. -/
inductive Query where
  | base (m : Val) (b : Body)
  | nested (q : Query) (b : Body)

omit U in
/-- The clauses of the outermost level. -/
def Query.body : Query → Body
  | .base _ b => b
  | .nested _ b => b

omit U in
/-- The items of `for v in values` (Python built-in): `TypeError` if the value is not iterable. -/
def Val.iter (v : Val) : Except Err (List Val) :=
  match v.seq? with
  | some (_, xs) => .ok xs
  | Option.none => .error .typeError

/-- `for v in values: v.validate()` (snuba_sdk/query_visitors.py:310-311). -/
def validateAll : List Val → Except Err Unit
  | [] => .ok ()
  | v :: vs => do
    v.validate
    validateAll vs

/-- `__list_validate` (snuba_sdk/query_visitors.py:308-311). -/
def listValidate (v : Val) : Except Err Unit :=
  match v with
  | .none => .ok ()
  | v => do
    let xs ← v.iter
    validateAll xs

/-- `x.validate() if x is not None else None` (snuba_sdk/query_visitors.py:335-348). -/
def optValidate (v : Val) : Except Err Unit :=
  match v with
  | .none => .ok ()
  | v => v.validate

omit U in
/-- `ExpressionSearcher.__aggregate` (snuba_sdk/query_visitors.py:244-249). -/
def searchTerms (v : Val) : Except Err (List ColumnObj) :=
  if v.truthy then do
    let xs ← v.iter
    findInAll xs
  else .ok []

omit U in
/-- `self.expression_finder.visit(x) if x else set()` (snuba_sdk/query_visitors.py:275-288). -/
def searchOne (v : Val) : Except Err (List ColumnObj) :=
  if v.truthy then findColumns v else .ok []

omit U in
/-- `ExpressionSearcher(Column).visit` on the clauses (snuba_sdk/query_visitors.py:227-288 with
`QueryVisitor.visit`, lines 68-74). `_visit_match` (239-242) never finds a column. -/
def searchBody (b : Body) : Except Err (List ColumnObj) := do
  let c1 ← searchTerms b.select
  let c2 ← searchTerms b.groupby
  let c3 ← searchTerms b.arrayJoin
  let c4 ← searchTerms b.where_
  let c5 ← searchTerms b.having
  let c6 ← searchTerms b.orderby
  let c7 ← searchOne b.limitby
  let c8 ← searchOne b.limit
  let c9 ← searchOne b.offset
  let c10 ← searchOne b.granularity
  let c11 ← searchOne b.totals
  .ok (c1 ++ c2 ++ c3 ++ c4 ++ c5 ++ c6 ++ c7 ++ c8 ++ c9 ++ c10 ++ c11)

omit U in
/-- The names collected by `_validate_subquery` (snuba_sdk/query_validation.py:59-65); a function
without alias contributes `None`. -/
def innerNames : List Val → List (Option Str)
  | [] => []
  | .curried _ _ _ _ _ _ alias :: rest => alias :: innerNames rest
  | .column c :: rest => some c.name :: innerNames rest
  | _ :: rest => innerNames rest

omit U in
/-- `_validate_subquery` (snuba_sdk/query_validation.py:49-71). -/
def validateSubquery (inner : Body) (cols : List ColumnObj) : Except Err Unit :=
  match inner.select with
  | .none => .error .assertion
  | sel => do
    let xs ← sel.iter
    ensure (cols.all fun c => (innerNames xs).contains (some c.name)) .invalidMatch

omit U in
/-- `_validate_join` (snuba_sdk/query_validation.py:74-95). `entity_aliases` is a dictionary built from the
alias mappings (a later entry replaces an earlier one). -/
def validateJoin (rels : List RelObj) (cols : List ColumnObj) : Except Err Unit :=
  let m := (aliasMappings rels).reverse
  ensure (cols.all fun c =>
    match c.entity with
    | none => false
    | some e => match e.alias with
      | none => false
      | some a => match m.lookup a with
        | none => false
        | some n => n == e.name) .invalidMatch

omit U in
/-- The loop of `_validate_storage` / `_validate_entity` (snuba_sdk/query_validation.py:98-123). -/
def validateModel (dm : Option DataModel) : List ColumnObj → Except Err Unit
  | [] => .ok ()
  | c :: cs => do
    c.validateDataModel dm
    validateModel dm cs

omit U in
/-- `validate_match` (snuba_sdk/query_validation.py:28-46) for a query over a non-query match. The last
branch is for match values that `Query.__post_init__` rejects. -/
def validateMatchBase (m : Val) (b : Body) : Except Err Unit := do
  let cols ← searchBody b
  match m with
  | .join _ rels => validateJoin rels cols
  | .storage s => validateModel s.dataModel cols
  | .entity e => validateModel e.dataModel cols
  | _ => .error .attributeError

/-- The clause validations of `QueryVisitor.visit` for the `Validator`, in field order
(snuba_sdk/query_visitors.py:313-348). -/
def validateClauses (b : Body) : Except Err Unit := do
  listValidate b.select
  listValidate b.groupby
  listValidate b.arrayJoin
  listValidate b.where_
  listValidate b.having
  listValidate b.orderby
  optValidate b.limitby
  optValidate b.limit
  optValidate b.offset
  optValidate b.granularity
  optValidate b.totals

omit U in
/-- `query.select is None or len(query.select) == 0` (snuba_sdk/query_visitors.py:299). -/
def selectMissing (v : Val) : Except Err Bool :=
  match v with
  | .none => .ok true
  | v => do
    let xs ← v.iter
    .ok xs.isEmpty

omit U in
/-- `query.totals and query.totals.totals` (snuba_sdk/query_visitors.py:302). -/
def totalsSet (v : Val) : Except Err Bool :=
  match v with
  | .none => .ok false
  | .totals b => .ok b
  | v => if v.truthy then .error .attributeError else .ok false

omit U in
/-- The end of `Validator._combine` (snuba_sdk/query_visitors.py:299-303). -/
def combineChecks (b : Body) : Except Err Unit := do
  let missing ← selectMissing b.select
  ensure (!missing) .invalidQuery
  let t ← totalsSet b.totals
  ensure (!(t && !b.groupby.truthy)) .invalidQuery

/-- `Query.validate` = `VALIDATOR.visit` (snuba_sdk/query.py:167-168, query_visitors.py:291-348). -/
def Query.validate : Query → Except Err Unit
  | .base m b => do
    m.validate
    validateClauses b
    validateMatchBase m b
    combineChecks b
  | .nested q b => do
    q.validate
    validateClauses b
    let cols ← searchBody b
    validateSubquery q.body cols
    combineChecks b

omit U in
/-- `isinstance(match, (Entity, Storage, Join))`. -/
def Val.isMatch : Val → Bool
  | .entity _ | .storage _ | .join .. => true
  | _ => false

omit U in
/-- `Query(match, …)` with a match that is not a query (snuba_sdk/query.py:79-90). -/
def mkQuery (m : Val) (b : Body) : Except Err Query :=
  if m.isMatch then .ok (.base m b) else .error .invalidQuery

/-- `Query(match=<Query>, …)`: the inner query is validated and any failure becomes
`InvalidQueryError` (snuba_sdk/query.py:92-96). -/
def mkNested (q : Query) (b : Body) : Except Err Query :=
  match q.validate with
  | .ok _ => .ok (.nested q b)
  | .error _ => .error .invalidQuery

/-- `replace(self, …)` of a clause: re-runs `__post_init__` (snuba_sdk/query.py:79-100). -/
def Query.withBody (q : Query) (b : Body) : Except Err Query :=
  match q with
  | .base m _ => mkQuery m b
  | .nested i _ => mkNested i b

omit U in
/-- `isinstance(x, SelectableExpressionType)` (snuba_sdk/query.py:24-29). -/
def Val.isSelectable : Val → Bool
  | .aliased .. | .column _ | .curried .. => true
  | _ => false

omit U in
/-- `isinstance(x, OrderBy)`. -/
def Val.isOrderBy : Val → Bool
  | .orderby .. => true
  | _ => false

/-- `set_match` with a non-query (snuba_sdk/query.py:102-113). `Storage` is not in the accepted
classes of line 103. -/
def Query.setMatch (q : Query) (m : Val) : Except Err Query :=
  match m with
  | .entity _ | .join .. => mkQuery m q.body
  | _ => .error .invalidQuery

/-- `set_match` with a query (snuba_sdk/query.py:107-113). -/
def Query.setMatchQuery (q : Query) (inner : Query) : Except Err Query :=
  match inner.validate with
  | .ok _ => mkNested inner q.body
  | .error _ => .error .invalidQuery

/-- `set_select` (snuba_sdk/query.py:115-120). -/
def Query.setSelect (q : Query) (v : Val) : Except Err Query :=
  if !listType v Val.isSelectable || !v.truthy then .error .invalidQuery
  else q.withBody { q.body with select := v }

/-- `set_groupby` (snuba_sdk/query.py:122-127). -/
def Query.setGroupby (q : Query) (v : Val) : Except Err Query :=
  if !listType v Val.isSelectable then .error .invalidQuery
  else q.withBody { q.body with groupby := v }

/-- `set_array_join` (snuba_sdk/query.py:129-133). -/
def Query.setArrayJoin (q : Query) (v : Val) : Except Err Query :=
  if !listType v Val.isColumn || !v.truthy then .error .invalidQuery
  else q.withBody { q.body with arrayJoin := v }

/-- `set_where` (snuba_sdk/query.py:135-138). -/
def Query.setWhere (q : Query) (v : Val) : Except Err Query :=
  if !listType v Val.isCondition then .error .invalidQuery
  else q.withBody { q.body with where_ := v }

/-- `set_having` (snuba_sdk/query.py:140-143). -/
def Query.setHaving (q : Query) (v : Val) : Except Err Query :=
  if !listType v Val.isCondition then .error .invalidQuery
  else q.withBody { q.body with having := v }

/-- `set_orderby` (snuba_sdk/query.py:145-148). -/
def Query.setOrderby (q : Query) (v : Val) : Except Err Query :=
  if !listType v Val.isOrderBy then .error .invalidQuery
  else q.withBody { q.body with orderby := v }

/-- `set_limitby` (snuba_sdk/query.py:150-153). -/
def Query.setLimitby (q : Query) (v : Val) : Except Err Query :=
  match v with
  | .limitby .. => q.withBody { q.body with limitby := v }
  | _ => .error .invalidQuery

/-- `set_limit` (snuba_sdk/query.py:155-156). -/
def Query.setLimit (q : Query) (v : Val) : Except Err Query := do
  let l ← mkLimit v
  q.withBody { q.body with limit := l }

/-- `set_offset` (snuba_sdk/query.py:158-159). -/
def Query.setOffset (q : Query) (v : Val) : Except Err Query := do
  let l ← mkOffset v
  q.withBody { q.body with offset := l }

/-- `set_granularity` (snuba_sdk/query.py:161-162). -/
def Query.setGranularity (q : Query) (v : Val) : Except Err Query := do
  let l ← mkGranularity v
  q.withBody { q.body with granularity := l }

/-- `set_totals` (snuba_sdk/query.py:164-165). -/
def Query.setTotals (q : Query) (v : Val) : Except Err Query := do
  let l ← mkTotals v
  q.withBody { q.body with totals := l }

end Verif
