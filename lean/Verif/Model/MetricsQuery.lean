import Verif.Model.MqlVisitor
import Verif.Model.OrOptimizer
import Verif.Model.Validate

/-!
# snuba_sdk/metrics_query.py, snuba_sdk/metrics_query_visitors.py, snuba_sdk/mql_visitor.py, snuba_sdk/mql_context.py

A `MetricsQuery` holds its fields as they were given. It is a mutable object: `serialize` may replace the field `query`,
so it returns the object afterwards beside its result. Simplification: the caller changes fields through the `set_*`
methods only.
-/

namespace Verif

/-- `MetricsQuery` (snuba_sdk/metrics_query.py:31-39). -/
structure MetricsQueryObj where
  query : MVal := .val .none
  start : MVal := .val .none
  end_ : MVal := .val .none
  rollup : MVal := .val .none
  scope : MVal := .val .none
  limit : MVal := .val .none
  offset : MVal := .val .none
  extrapolate : MVal := .val .none
  indexerMappings : MVal := .val .none
  deriving Inhabited

/-- `MetricsQuery.set_query` (snuba_sdk/metrics_query.py:45-50). -/
def MetricsQueryObj.setQuery (q : MetricsQueryObj) (v : MVal) : Except Err MetricsQueryObj :=
  match v with
  | .formula .. | .ts _ | .val (.str _) => .ok { q with query := v }
  | _ => .error .invalidQuery

/-- `MetricsQuery.set_start` (snuba_sdk/metrics_query.py:52-55). -/
def MetricsQueryObj.setStart (q : MetricsQueryObj) (v : MVal) : Except Err MetricsQueryObj :=
  match v with
  | .val (.datetime _) => .ok { q with start := v }
  | _ => .error .invalidQuery

/-- `MetricsQuery.set_end` (snuba_sdk/metrics_query.py:57-60). -/
def MetricsQueryObj.setEnd (q : MetricsQueryObj) (v : MVal) : Except Err MetricsQueryObj :=
  match v with
  | .val (.datetime _) => .ok { q with end_ := v }
  | _ => .error .invalidQuery

/-- `MetricsQuery.set_rollup` (snuba_sdk/metrics_query.py:62-65). -/
def MetricsQueryObj.setRollup (q : MetricsQueryObj) (v : MVal) : Except Err MetricsQueryObj :=
  match v with
  | .rollup _ => .ok { q with rollup := v }
  | _ => .error .invalidQuery

/-- `MetricsQuery.set_scope` (snuba_sdk/metrics_query.py:67-70). -/
def MetricsQueryObj.setScope (q : MetricsQueryObj) (v : MVal) : Except Err MetricsQueryObj :=
  match v with
  | .scope _ => .ok { q with scope := v }
  | _ => .error .invalidQuery

/-- `MetricsQuery.set_limit` (snuba_sdk/metrics_query.py:72-73). -/
def MetricsQueryObj.setLimit (q : MetricsQueryObj) (v : Val) : Except Err MetricsQueryObj := do
  let l ← mkLimit v
  .ok { q with limit := .val l }

/-- `MetricsQuery.set_offset` (snuba_sdk/metrics_query.py:75-76). -/
def MetricsQueryObj.setOffset (q : MetricsQueryObj) (v : Val) : Except Err MetricsQueryObj := do
  let l ← mkOffset v
  .ok { q with offset := .val l }

/-- `MetricsQuery.set_extrapolate` (snuba_sdk/metrics_query.py:78-79). -/
def MetricsQueryObj.setExtrapolate (q : MetricsQueryObj) (v : Val) : Except Err MetricsQueryObj := do
  let l ← mkExtrapolate v
  .ok { q with extrapolate := .val l }

/-- `MetricsQuery.set_indexer_mappings` (snuba_sdk/metrics_query.py:81-84). -/
def MetricsQueryObj.setIndexerMappings (q : MetricsQueryObj) (v : MVal) : MetricsQueryObj := { q with indexerMappings := v }

/-! ### Validation -/

/-- `query.validate()` of a timeseries or formula (snuba_sdk/metrics_query_visitors.py:106; timeseries.py:91-127,
formula.py:47-95). -/
def MVal.validateQuery : MVal → Except Err Unit
  | .ts t => t.validate
  | .formula n p _ _ g => validateFormula n p g
  | _ => .error .attributeError

section
variable [U : PyUnicode] [S : RegexSpace]

/-- The parsing of a string query inside `try` (snuba_sdk/metrics_query_visitors.py:99-104): every exception becomes
`InvalidMetricsQueryError`. -/
def parseChecked (s : Str) : Except Err MVal :=
  match parseMql s with
  | .ok q => .ok q
  | .error _ => .error .invalidMetricsQuery

/-- `Validator._visit_query` (snuba_sdk/metrics_query_visitors.py:89-107). -/
def checkQuery : MVal → Except Err Unit
  | .val (.str s) => do
    let q ← parseChecked s
    q.validateQuery
  | .ts t => (MVal.ts t).validateQuery
  | .formula n p a f g => (MVal.formula n p a f g).validateQuery
  | _ => .error .invalidMetricsQuery

omit U S in
/-- `Validator._visit_start` and `_visit_end` (snuba_sdk/metrics_query_visitors.py:109-119). -/
def checkTime : MVal → Except Err Unit
  | .val (.datetime _) => .ok ()
  | _ => .error .invalidMetricsQuery

omit U S in
/-- `Validator._visit_rollup` (snuba_sdk/metrics_query_visitors.py:121-133). -/
def checkRollup : MVal → Except Err Unit
  | .rollup r => do
    ensure r.granularity.given .invalidMetricsQuery
    r.validate
  | _ => .error .invalidMetricsQuery

omit U S in
/-- `Validator._visit_scope` (snuba_sdk/metrics_query_visitors.py:135-140). -/
def checkScope : MVal → Except Err Unit
  | .scope s => s.validate
  | _ => .error .invalidMetricsQuery

omit S in
/-- `Validator._visit_limit` (snuba_sdk/metrics_query_visitors.py:142-148). -/
def checkLimit : MVal → Except Err Unit
  | .val .none => .ok ()
  | .val (.limit n) => (Val.limit n).validate
  | _ => .error .invalidMetricsQuery

omit S in
/-- `Validator._visit_offset` (snuba_sdk/metrics_query_visitors.py:150-156). -/
def checkOffset : MVal → Except Err Unit
  | .val .none => .ok ()
  | .val (.offset n) => (Val.offset n).validate
  | _ => .error .invalidMetricsQuery

omit S in
/-- `Validator._visit_extrapolate` (snuba_sdk/metrics_query_visitors.py:158-164). -/
def checkExtrapolate : MVal → Except Err Unit
  | .val .none => .ok ()
  | .val (.extrapolate b) => (Val.extrapolate b).validate
  | _ => .error .invalidMetricsQuery

omit U S in
/-- `Validator._visit_indexer_mappings` (snuba_sdk/metrics_query_visitors.py:166-172). -/
def checkMappings : MVal → Except Err Unit
  | .val .none => .ok ()
  | .data (.dict _) => .ok ()
  | _ => .error .invalidMetricsQuery

/-- `MetricsQuery.validate` (snuba_sdk/metrics_query.py:86-87): the fields are visited in their order
(snuba_sdk/metrics_query_visitors.py:23-30). -/
def MetricsQueryObj.validate (q : MetricsQueryObj) : Except Err Unit := do
  checkQuery q.query
  checkTime q.start
  checkTime q.end_
  checkRollup q.rollup
  checkScope q.scope
  checkLimit q.limit
  checkOffset q.offset
  checkExtrapolate q.extrapolate
  checkMappings q.indexerMappings

/-! ### The printer -/

omit U S in
/-- `start.isoformat()` (snuba_sdk/mql_visitor.py:119-129). -/
def timeMql : MVal → Except Err Data
  | .val .none => .error .invalidMetricsQuery
  | .val (.datetime d) => .ok (.val (.str d.iso))
  | .val (.date d) => .ok (.val (.str d.iso))
  | _ => .error .attributeError

/-- `rollup.orderby.value if rollup.orderby else None` (snuba_sdk/metrics_visitors.py:227). -/
def orderbyValue : Val → Except Err Data
  | .direction d => .ok (.val (.str d.value))
  | v => if v.truthy then .error .attributeError else .ok (.val .none)

section
variable [R : PyRepr]

/-- `str(rollup.totals) if rollup.totals is not None else None` (snuba_sdk/metrics_visitors.py:230). -/
def totalsText (v : Val) : Data := if v.given then .val (.str (pyStr (.val v))) else .val .none

/-- `RollupMQLPrinter.visit` (snuba_sdk/metrics_visitors.py:224-231) behind `MQLPrinter._visit_rollup`
(snuba_sdk/mql_visitor.py:131-135). -/
def rollupMql : MVal → Except Err Data
  | .val .none => .error .invalidMetricsQuery
  | .rollup r => do
    let o ← orderbyValue r.orderby
    .ok (.dict [(c!"orderby", o), (c!"granularity", .val r.granularity), (c!"interval", .val r.interval),
      (c!"with_totals", totalsText r.totals)])
  | _ => .error .attributeError

omit R in
/-- `asdict(scope)` (snuba_sdk/metrics_visitors.py:240-242) behind `MQLPrinter._visit_scope` (snuba_sdk/mql_visitor.py:137-141). -/
def scopeMql : MVal → Except Err Data
  | .val .none => .error .invalidMetricsQuery
  | .scope s => .ok (.dict [(c!"org_ids", .val s.orgIds), (c!"project_ids", .val s.projectIds), (c!"use_case_id", .val s.useCaseId)])
  | _ => .error .typeError

/-- The value of a number (Python's int or bool). -/
def PyInt.val : PyInt → Val
  | .int i => .int i
  | .bool b => .bool b

omit R in
/-- `limit.limit if limit is not None else None` (snuba_sdk/mql_visitor.py:143-144). -/
def limitMql : MVal → Except Err Data
  | .val .none => .ok (.val .none)
  | .val (.limit n) => .ok (.val n.val)
  | _ => .error .attributeError

omit R in
/-- `offset.offset if offset is not None else None` (snuba_sdk/mql_visitor.py:146-147). -/
def offsetMql : MVal → Except Err Data
  | .val .none => .ok (.val .none)
  | .val (.offset n) => .ok (.val n.val)
  | _ => .error .attributeError

omit R in
/-- `extrapolate.extrapolate if extrapolate is not None else None` (snuba_sdk/mql_visitor.py:149-150). -/
def extrapolateMql : MVal → Except Err Data
  | .val .none => .ok (.val .none)
  | .val (.extrapolate b) => .ok (.val (.bool b))
  | _ => .error .attributeError

omit R in
/-- `MQLPrinter._visit_indexer_mappings` (snuba_sdk/mql_visitor.py:152-159). The value is passed on as it is; values that
are not dictionaries do not pass validation and are not followed further (simplification). -/
def mappingsMql : MVal → Except Err Data
  | .val .none => .error .invalidMetricsQuery
  | .data d => .ok d
  | .val v => .ok (.val v)
  | _ => .error .typeError

/-- `MQLPrinter._visit_query` (snuba_sdk/mql_visitor.py:108-117); the result of the parser is never a string. Values of
other classes do not pass validation: `parse_mql` calls `strip` on them, which they do not have. -/
def queryMql : MVal → Except Err Str
  | .val .none => .error .invalidMetricsQuery
  | .formula n p a f g => paramMql (.formula n p a f g)
  | .ts t => timeseriesMql t
  | .val (.str s) => do
    let q ← parseMql s
    paramMql q
  | _ => .error .attributeError

omit U S R in
/-- A dictionary whose entries are in the given order (Python built-in). -/
def contextDict (start end_ rollup scope mappings limit offset extrapolate : Data) : Data :=
  .dict [(c!"start", start), (c!"end", end_), (c!"rollup", rollup), (c!"scope", scope), (c!"indexer_mappings", mappings),
    (c!"limit", limit), (c!"offset", offset), (c!"extrapolate", extrapolate)]

/-- `MQLPrinter.visit` and `_combine` (snuba_sdk/mql_visitor.py:25-31, 88-106): the fields in their order, then the context
(snuba_sdk/mql_context.py:11-42), whose required entries are never `None` here, and `asdict`. -/
def MetricsQueryObj.print (q : MetricsQueryObj) : Except Err Data := do
  let text ← queryMql q.query
  let start ← timeMql q.start
  let end_ ← timeMql q.end_
  let rollup ← rollupMql q.rollup
  let scope ← scopeMql q.scope
  let limit ← limitMql q.limit
  let offset ← offsetMql q.offset
  let extrapolate ← extrapolateMql q.extrapolate
  let mappings ← mappingsMql q.indexerMappings
  .ok (.dict [(c!"mql", .val (.str text)), (c!"mql_context", contextDict start end_ rollup scope mappings limit offset extrapolate)])

omit U S R in
/-- `OrOptimizer().optimize(filters)` and the new list of filters, if there is one (snuba_sdk/metrics_query.py:109-110). -/
def optimizeFilters (filters : Val) : Except Err (Option Val) :=
  if filters.given then do
    let xs ← iterItems filters
    let r ← optimize xs
    .ok (r.map .list)
  else .ok none

omit U S R in
/-- `replace(self.query, filters=new_filters)` for timeseries, if there are new filters (snuba_sdk/metrics_query.py:110-111);
the constructor runs again. -/
def TimeseriesObj.replaceFilters (t : TimeseriesObj) : Option Val → Except Err TimeseriesObj
  | none => .ok t
  | some f => mkTimeseries (.metric t.metric) t.aggregate t.aggregateParams f t.groupby

omit U S R in
/-- `MetricsQuery._optimize` (snuba_sdk/metrics_query.py:104-111) on the field `query`. -/
def optimizeQuery : MVal → Except Err MVal
  | .ts t => do
    let r ← optimizeFilters t.filters
    let t ← t.replaceFilters r
    .ok (.ts t)
  | .formula n p a f g => do
    let r ← optimizeFilters f
    .ok (.formula n p a (r.getD f) g)
  | v => .ok v

/-- `MetricsQuery.serialize` (snuba_sdk/metrics_query.py:98-102): the result, and the object afterwards. -/
def MetricsQueryObj.serialize (q : MetricsQueryObj) : Except Err Data × MetricsQueryObj :=
  match q.validate with
  | .error e => (.error e, q)
  | .ok _ =>
    match optimizeQuery q.query with
    | .error e => (.error e, q)
    | .ok v => (({ q with query := v } : MetricsQueryObj).print, { q with query := v })

/-- The data that `MetricsQuery.print` turns into JSON (snuba_sdk/metrics_query.py:93-96). -/
def MetricsQueryObj.printed (q : MetricsQueryObj) : Except Err Data := do
  q.validate
  MetricsQueryObj.print q

end
end

end Verif
