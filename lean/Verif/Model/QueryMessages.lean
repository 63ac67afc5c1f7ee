import Verif.Model.BuildMessages

/-!
# snuba_sdk/query.py and query_visitors.py with the messages of their exceptions

As in `Model/Messages.lean`, `none` stands for a message that is not followed here.
-/

namespace Verif

/-- The entity part of `Column.validate` (snuba_sdk/column.py:49-57) on a column that has been made: `subscriptable` may be set. -/
def ColumnObj.checkEntityMsg (c : ColumnObj) : Except Raised Unit :=
  match c.entity with
  | none => .ok ()
  | some e =>
    match e.alias with
    | none => raise .invalidColumn (c!"column '" ++ c.name ++ c!"' expects an Entity with an alias")
    | some [] => raise .invalidColumn (c!"column '" ++ c.name ++ c!"' expects an Entity with an alias")
    | some (_ :: _) => c.validateDataModelMsg e.name e.dataModel

section
variable [PyUnicode]

/-- `Column.validate` on a column that has been made (snuba_sdk/column.py:41-57). -/
def ColumnObj.validateMsg (c : ColumnObj) : Except Raised Unit :=
  if columnNameRe.matches c.name then c.checkEntityMsg
  else raise .invalidColumn (c!"column '" ++ c.name ++ c!"' is empty or contains invalid characters")

/-- `v.validate()` on an item of a clause (snuba_sdk/query_visitors.py:308-348). Simplification: the messages are followed for columns
only; the other objects do not raise when they are validated again as they were built (C13). -/
def Val.validateMsg : Val → Except Raised Unit
  | .column c => c.validateMsg
  | v => elsewhere v.validate

/-- `for v in values: v.validate()` (snuba_sdk/query_visitors.py:310-311). -/
def validateAllMsg : List Val → Except Raised Unit
  | [] => .ok ()
  | v :: vs => do
    v.validateMsg
    validateAllMsg vs

/-- `__list_validate` (snuba_sdk/query_visitors.py:308-311). -/
def listValidateMsg (v : Val) : Except Raised Unit :=
  match v with
  | .none => .ok ()
  | v => do
    let xs ← elsewhere v.iter
    validateAllMsg xs

/-- `x.validate() if x is not None else None` (snuba_sdk/query_visitors.py:335-348). -/
def optValidateMsg (v : Val) : Except Raised Unit :=
  match v with
  | .none => .ok ()
  | v => v.validateMsg

/-- The clause validations of the `Validator`, in field order (snuba_sdk/query_visitors.py:313-348). -/
def validateClausesMsg (b : Body) : Except Raised Unit := do
  listValidateMsg b.select
  listValidateMsg b.groupby
  listValidateMsg b.arrayJoin
  listValidateMsg b.where_
  listValidateMsg b.having
  listValidateMsg b.orderby
  optValidateMsg b.limitby
  optValidateMsg b.limit
  optValidateMsg b.offset
  optValidateMsg b.granularity
  optValidateMsg b.totals

/-- `match.validate()` (snuba_sdk/query_visitors.py:305-306) on a match that is no query: the messages of `Join.validate`
(relationships.py:84-97) are followed, those of entities and storages are not. -/
def validateMatchClauseMsg (σ : SetOrders) : Val → Except Raised Unit
  | .join _ rels => checkJoinMsg σ rels
  | m => elsewhere m.validate

/-- The end of `Validator._combine` (snuba_sdk/query_visitors.py:299-303). -/
def combineChecksMsg (b : Body) : Except Raised Unit := do
  let missing ← elsewhere (selectMissing b.select)
  if missing then raise .invalidQuery c!"query must have at least one expression in select"
  else do
    let t ← elsewhere (totalsSet b.totals)
    if t && !b.groupby.truthy then raise .invalidQuery c!"totals is only valid with a groupby" else .ok ()

/-- `Query.validate` (snuba_sdk/query.py:167-168, query_visitors.py:291-348). -/
def Query.validateMsg (σ : SetOrders) : Query → Except Raised Unit
  | .base m b => do
    validateMatchClauseMsg σ m
    validateClausesMsg b
    validateMatchMsg σ (.base m b)
    combineChecksMsg b
  | .nested q b => do
    q.validateMsg σ
    validateClausesMsg b
    validateMatchMsg σ (.nested q b)
    combineChecksMsg b

omit [PyUnicode] in
/-- `Query(match, …)` with a match that is no query (snuba_sdk/query.py:79-90). -/
def mkQueryMsg (m : Val) (b : Body) : Except Raised Query :=
  if m.isMatch then .ok (.base m b) else raise .invalidQuery c!"queries must have a valid Entity, Storage, Join or Query"

/-- `InvalidQueryError(f"inner query is invalid: {e}")` (snuba_sdk/query.py:96, 111). -/
def innerInvalid (r : Raised) : Raised := (.invalidQuery, r.2.map fun t => c!"inner query is invalid: " ++ t)

/-- `Query(match=<Query>, …)` (snuba_sdk/query.py:92-96). -/
def mkNestedMsg (σ : SetOrders) (q : Query) (b : Body) : Except Raised Query :=
  match q.validateMsg σ with
  | .ok _ => .ok (.nested q b)
  | .error r => .error (innerInvalid r)

/-- `replace(self, …)` of a clause (snuba_sdk/query.py:79-100). -/
def Query.withBodyMsg (σ : SetOrders) (q : Query) (b : Body) : Except Raised Query :=
  match q with
  | .base m _ => mkQueryMsg m b
  | .nested i _ => mkNestedMsg σ i b

/-- `set_match` with a query (snuba_sdk/query.py:107-113). -/
def Query.setMatchQueryMsg (σ : SetOrders) (q inner : Query) : Except Raised Query :=
  match inner.validateMsg σ with
  | .ok _ => mkNestedMsg σ inner q.body
  | .error r => .error (innerInvalid r)

/-- `set_select` (snuba_sdk/query.py:115-120). -/
def Query.setSelectMsg (σ : SetOrders) (q : Query) (v : Val) : Except Raised Query :=
  if !listType v Val.isSelectable || !v.truthy then
    raise .invalidQuery c!"select clause must be a non-empty list of SelectableExpression"
  else q.withBodyMsg σ { q.body with select := v }

/-- `set_groupby` (snuba_sdk/query.py:122-127). -/
def Query.setGroupbyMsg (σ : SetOrders) (q : Query) (v : Val) : Except Raised Query :=
  if !listType v Val.isSelectable then raise .invalidQuery c!"groupby clause must be a list of SelectableExpression"
  else q.withBodyMsg σ { q.body with groupby := v }

/-- `set_array_join` (snuba_sdk/query.py:129-133). -/
def Query.setArrayJoinMsg (σ : SetOrders) (q : Query) (v : Val) : Except Raised Query :=
  if !listType v Val.isColumn || !v.truthy then raise .invalidQuery c!"array join must be a non-empty list of Column"
  else q.withBodyMsg σ { q.body with arrayJoin := v }

/-- `set_where` (snuba_sdk/query.py:135-138). -/
def Query.setWhereMsg (σ : SetOrders) (q : Query) (v : Val) : Except Raised Query :=
  if !listType v Val.isCondition then raise .invalidQuery c!"where clause must be a list of conditions"
  else q.withBodyMsg σ { q.body with where_ := v }

/-- `set_having` (snuba_sdk/query.py:140-143). -/
def Query.setHavingMsg (σ : SetOrders) (q : Query) (v : Val) : Except Raised Query :=
  if !listType v Val.isCondition then raise .invalidQuery c!"having clause must be a list of conditions"
  else q.withBodyMsg σ { q.body with having := v }

/-- `set_orderby` (snuba_sdk/query.py:145-148). -/
def Query.setOrderbyMsg (σ : SetOrders) (q : Query) (v : Val) : Except Raised Query :=
  if !listType v Val.isOrderBy then raise .invalidQuery c!"orderby clause must be a list of OrderBy"
  else q.withBodyMsg σ { q.body with orderby := v }

/-- `set_limitby` (snuba_sdk/query.py:150-153). -/
def Query.setLimitbyMsg (σ : SetOrders) (q : Query) (v : Val) : Except Raised Query :=
  match v with
  | .limitby .. => q.withBodyMsg σ { q.body with limitby := v }
  | _ => raise .invalidQuery c!"limitby clause must be a LimitBy"

/-- `set_totals` (snuba_sdk/query.py:164-165). -/
def Query.setTotalsMsg (σ : SetOrders) (q : Query) (v : Val) : Except Raised Query := do
  let l ← mkTotalsMsg v
  q.withBodyMsg σ { q.body with totals := l }

variable [PyShow] [PyText]

omit [PyUnicode] in
/-- `set_match` with a match that is no query (snuba_sdk/query.py:102-113). -/
def Query.setMatchMsg (q : Query) (m : Val) : Except Raised Query :=
  match m with
  | .entity _ | .join .. => mkQueryMsg m q.body
  | _ => raise .invalidQuery (m.text ++ c!" must be a valid Entity, Storage, Join or Query")

/-- `set_limit` (snuba_sdk/query.py:155-156). -/
def Query.setLimitMsg (σ : SetOrders) (q : Query) (v : Val) : Except Raised Query := do
  let l ← mkLimitMsg v
  q.withBodyMsg σ { q.body with limit := l }

/-- `set_offset` (snuba_sdk/query.py:158-159). -/
def Query.setOffsetMsg (σ : SetOrders) (q : Query) (v : Val) : Except Raised Query := do
  let l ← mkOffsetMsg v
  q.withBodyMsg σ { q.body with offset := l }

/-- `set_granularity` (snuba_sdk/query.py:161-162). -/
def Query.setGranularityMsg (σ : SetOrders) (q : Query) (v : Val) : Except Raised Query := do
  let l ← mkGranularityMsg v
  q.withBodyMsg σ { q.body with granularity := l }

end

end Verif
