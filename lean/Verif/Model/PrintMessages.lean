import Verif.Model.MetricsMessages

/-!
# The printer of metrics queries with the messages of its exceptions

The functions below follow the functions of the same names in `Model/Translate.lean`, `Model/Metrics.lean` and
`Model/MetricsQuery.lean`, and also give the message of the exception. Messages of exceptions that are raised while a single value
is turned into a text, and Python's own messages, are left out.
-/

namespace Verif

/-- The right-hand side of `_visit_condition_mql` (snuba_sdk/visitors.py:295-305). -/
def rhsMqlMsg (cfg : Cfg) (o : Op) (r : Val) : Except Raised Str :=
  if isUnary o then .ok []
  else if r.isCurried then raise .invalidExpression c!"CurriedFunction and Function are not supported in conditions in MQL"
  else if r.isColumn then elsewhere (translate cfg r)
  else do
    let b ← elsewhere (isScalar r)
    if b then elsewhere (translate cfg r) else .error (.assertion, none)

mutual
/-- `_visit_condition_mql` (snuba_sdk/visitors.py:294-311) and `_visit_boolean_condition_mql` (lines 283-292), as in `condMql`. -/
def condMqlMsg (cfg : Cfg) : Val → Except Raised Str
  | .cond l o r => do
    let rs ← rhsMqlMsg cfg o r
    let ls ← elsewhere (translate cfg l)
    .ok (mqlNeg o ++ ls ++ [':'] ++ rs)
  | .boolCond _ op _ cs => do
    let ps ← condMqlAllMsg cfg cs
    .ok (['('] ++ joinWith ([' '] ++ op.value ++ [' ']) ps ++ [')'])
  | _ => .error (.assertion, none)

/-- The loops at snuba_sdk/visitors.py:285-289 and metrics_visitors.py:81-85. -/
def condMqlAllMsg (cfg : Cfg) : List Val → Except Raised (List Str)
  | [] => .ok []
  | v :: vs =>
    if v.isCondition then do
      let t ← condMqlMsg cfg v
      let ts ← condMqlAllMsg cfg vs
      .ok (t :: ts)
    else condMqlAllMsg cfg vs
end

/-- `_visit_mql_filters` (snuba_sdk/metrics_visitors.py:76-88). -/
def filtersMqlMsg (v : Val) : Except Raised Str :=
  if v.given then do
    let xs ← elsewhere (iterItems v)
    let ts ← condMqlAllMsg .mql xs
    .ok (['{'] ++ joinWith c!" AND " ts ++ ['}'])
  else .ok []

/-- `MetricMQLPrinter.visit` (snuba_sdk/metrics_visitors.py:205-215) and the `assert` at line 115. -/
def metricMqlMsg (m : MetricObj) : Except Raised Str :=
  match m.mri, m.publicName with
  | .str s, _ => .ok s
  | .none, .str s => .ok s
  | .none, .none => raise .invalidExpression c!"metric.mri or metric.public is required for serialization"
  | _, _ => .error (.assertion, none)

variable [R : PyRepr]

/-- `TimeseriesMQLPrinter` (snuba_sdk/metrics_visitors.py:24-40, 100-145). -/
def timeseriesMqlMsg (t : TimeseriesObj) : Except Raised Str := do
  let m ← metricMqlMsg t.metric
  let ps ← elsewhere (aggregateParamsMql t.aggregateParams)
  let f ← filtersMqlMsg t.filters
  let g ← elsewhere (groupbyMql t.groupby)
  let agg := pyStr (.val t.aggregate) ++ ps
  .ok ((if agg.isEmpty then m else agg ++ ['('] ++ m ++ [')']) ++ f ++ g)

mutual
/-- `FormulaMQLPrinter.visit` and `_visit_parameter` (snuba_sdk/metrics_visitors.py:152-158, 171-196). -/
def paramMqlMsg : MVal → Except Raised Str
  | .ts t => timeseriesMqlMsg t
  | .formula name params aggregateParams filters groupby => do
    let ps ← paramsMqlMsg params
    let h ← elsewhere (formulaHead name aggregateParams ps)
    let f ← filtersMqlMsg filters
    let g ← elsewhere (groupbyMql groupby)
    .ok (h ++ f ++ g)
  | v => .ok (pyStr v)

/-- `[self._visit_parameter(p) for p in formula.parameters]` (snuba_sdk/metrics_visitors.py:172-174), as in `paramsMql`. -/
def paramsMqlMsg : MVal → Except Raised (List Str)
  | .list xs => paramsMqlAllMsg xs
  | .tuple xs => paramsMqlAllMsg xs
  | .val .none => .error (.assertion, none)
  | .val v => do
    let xs ← elsewhere (iterItems v)
    .ok (xs.map fun x => pyStr (.val x))
  | _ => .error (.typeError, none)

/-- The texts of several parameters (snuba_sdk/metrics_visitors.py:174). -/
def paramsMqlAllMsg : List MVal → Except Raised (List Str)
  | [] => .ok []
  | x :: xs => do
    let t ← paramMqlMsg x
    let ts ← paramsMqlAllMsg xs
    .ok (t :: ts)
end

/-- A field of a metrics query that is `None` although it is required (snuba_sdk/mql_visitor.py:110, 121, 127, 133, 139, 156). -/
def missing {α : Type} (field : Str) : Except Raised α :=
  raise .invalidMetricsQuery (c!"MetricQuery." ++ field ++ c!" must not be None")

omit R in
/-- `MQLPrinter._visit_start` and `_visit_end` (snuba_sdk/mql_visitor.py:119-129). -/
def timeMqlMsg (field : Str) : MVal → Except Raised Data
  | .val .none => missing field
  | v => elsewhere (timeMql v)

/-- `MQLPrinter._visit_rollup` (snuba_sdk/mql_visitor.py:131-135). -/
def rollupMqlMsg : MVal → Except Raised Data
  | .val .none => missing c!"rollup"
  | v => elsewhere (rollupMql v)

omit R in
/-- `MQLPrinter._visit_scope` (snuba_sdk/mql_visitor.py:137-141). -/
def scopeMqlMsg : MVal → Except Raised Data
  | .val .none => missing c!"scope"
  | v => elsewhere (scopeMql v)

omit R in
/-- `MQLPrinter._visit_indexer_mappings` (snuba_sdk/mql_visitor.py:152-159). -/
def mappingsMqlMsg : MVal → Except Raised Data
  | .val .none => missing c!"indexer_mappings"
  | v => elsewhere (mappingsMql v)

variable [U : PyUnicode] [S : RegexSpace]

/-- `MQLPrinter._visit_query` (snuba_sdk/mql_visitor.py:108-117), as in `queryMql`. -/
def queryMqlMsg [PyShow] [PyText] : MVal → Except Raised Str
  | .val .none => missing c!"query"
  | .formula n p a f g => paramMqlMsg (.formula n p a f g)
  | .ts t => timeseriesMqlMsg t
  | .val (.str s) => do
    let q ← parseMqlMsg s
    paramMqlMsg q
  | _ => .error (.attributeError, none)

variable [PyShow] [PyText]

/-- `MQLPrinter.visit` and `_combine` (snuba_sdk/mql_visitor.py:25-31, 88-106). The demands of `MQLContext.validate`
(snuba_sdk/mql_context.py:37-42) are met by whatever the methods return: none of the five required entries is `None`. -/
def MetricsQueryObj.printMsg (q : MetricsQueryObj) : Except Raised Data := do
  let text ← queryMqlMsg q.query
  let start ← timeMqlMsg c!"start" q.start
  let end_ ← timeMqlMsg c!"end" q.end_
  let rollup ← rollupMqlMsg q.rollup
  let scope ← scopeMqlMsg q.scope
  let limit ← elsewhere (limitMql q.limit)
  let offset ← elsewhere (offsetMql q.offset)
  let extrapolate ← elsewhere (extrapolateMql q.extrapolate)
  let mappings ← mappingsMqlMsg q.indexerMappings
  .ok (.dict [(c!"mql", .val (.str text)), (c!"mql_context", contextDict start end_ rollup scope mappings limit offset extrapolate)])

/-- The data that `MetricsQuery.print` turns into JSON (snuba_sdk/metrics_query.py:93-96). -/
def MetricsQueryObj.printedMsg (q : MetricsQueryObj) : Except Raised Data := do
  q.validateMsg
  MetricsQueryObj.printMsg q

/-- The result of `MetricsQuery.serialize` (snuba_sdk/metrics_query.py:98-102). -/
def MetricsQueryObj.serializeMsg (q : MetricsQueryObj) : Except Raised Data := do
  q.validateMsg
  let v ← elsewhere (optimizeQuery q.query)
  MetricsQueryObj.printMsg { q with query := v }

end Verif
