import Verif.Model.BuildMessages
import Verif.Model.MetricsQuery
import Verif.Model.MqlMessages

/-!
# The metrics layer with the messages of its exceptions

The functions below follow the functions of the same names in `Model/Metrics.lean` and `Model/MetricsQuery.lean`, and also give the
message of the exception.
-/

namespace Verif

/-- `if not ok: raise cls(message)`, the form of the checks of the metrics layer (for example snuba_sdk/timeseries.py:41-42). -/
def demand (ok : Bool) (e : Err) (m : Str) : Except Raised Unit := if ok then .ok () else raise e m

/-- `f"{v}"` for objects of the metrics layer (Python built-in, used at snuba_sdk/formula.py:93). -/
def MVal.text [PyShow] [PyText] [R : PyRepr] : MVal → Str
  | .val v => v.text
  | x => R.str x

/-! ### snuba_sdk/timeseries.py -/

/-- `Metric.validate` (snuba_sdk/timeseries.py:40-51). -/
def MetricObj.validateMsg (m : MetricObj) : Except Raised Unit := do
  demand (!m.publicName.given || m.publicName.isStr) .invalidTimeseries c!"public_name must be a string"
  demand (!m.mri.given || m.mri.isStr) .invalidTimeseries c!"mri must be a string"
  demand (!m.id.given || m.id.isInt) .invalidTimeseries c!"id must be an integer"
  demand (m.publicName.given || m.mri.given) .invalidTimeseries c!"Metric must have at least one of public_name or mri"

/-- `Metric(public_name, mri, id)` (snuba_sdk/timeseries.py:22-34). -/
def mkMetricMsg (publicName mri id : Val) : Except Raised MetricObj := do
  let m : MetricObj := ⟨publicName, mri, id⟩
  m.validateMsg
  .ok m

/-- `Metric.set_mri` (snuba_sdk/timeseries.py:53-56). -/
def MetricObj.setMriMsg (m : MetricObj) (mri : Val) : Except Raised MetricObj := do
  demand mri.isStr .invalidExpression c!"mri must be an str"
  mkMetricMsg m.publicName mri m.id

/-- `Metric.set_public_name` (snuba_sdk/timeseries.py:58-61). -/
def MetricObj.setPublicNameMsg (m : MetricObj) (publicName : Val) : Except Raised MetricObj := do
  demand publicName.isStr .invalidExpression c!"public_name must be an str"
  mkMetricMsg publicName m.mri m.id

/-- `Metric.set_id` (snuba_sdk/timeseries.py:63-66). -/
def MetricObj.setIdMsg (m : MetricObj) (id : Val) : Except Raised MetricObj := do
  demand id.isInt .invalidExpression c!"id must be an int"
  mkMetricMsg m.publicName m.mri id

/-- The check of one optional list (snuba_sdk/timeseries.py:100-107, 111-116, 120-127): `m` is the message if there is no list, `m'`
the message if an item is not right. -/
def checkOptListMsg (p : Val → Bool) (v : Val) (m m' : Str) : Except Raised Unit :=
  match v with
  | .none => .ok ()
  | .list xs => demand (xs.all p) .invalidTimeseries m'
  | _ => raise .invalidTimeseries m

/-- `Timeseries.validate` (snuba_sdk/timeseries.py:91-127) after the class check of the metric. -/
def TimeseriesObj.validateMsg (t : TimeseriesObj) : Except Raised Unit := do
  t.metric.validateMsg
  demand t.aggregate.isStr .invalidTimeseries c!"aggregate must be a string"
  checkOptListMsg isLiteral t.aggregateParams c!"aggregate_params must be a list" c!"aggregate_params can only be literal types"
  checkOptListMsg Val.isCondition t.filters c!"filters must be a list" c!"filters must be a list of Conditions"
  checkOptListMsg Val.isGroupItem t.groupby c!"groupby must be a list" c!"groupby must be a list of Columns or AliasedExpression"

/-- `isinstance(v, Metric)` or raise (snuba_sdk/timeseries.py:92-93, 130-131). -/
def asMetricMsg (v : MVal) (message : Str) : Except Raised MetricObj :=
  match v with
  | .metric m => .ok m
  | _ => raise .invalidTimeseries message

/-- `Timeseries(metric, aggregate, aggregate_params, filters, groupby)` (snuba_sdk/timeseries.py:69-127). -/
def mkTimeseriesMsg (metric : MVal) (aggregate aggregateParams filters groupby : Val) : Except Raised TimeseriesObj := do
  let m ← asMetricMsg metric c!"metric must be an instance of a Metric"
  let t : TimeseriesObj := ⟨m, aggregate, aggregateParams, filters, groupby⟩
  t.validateMsg
  .ok t

/-- `Timeseries.set_metric` (snuba_sdk/timeseries.py:129-132). -/
def TimeseriesObj.setMetricMsg (t : TimeseriesObj) (metric : MVal) : Except Raised TimeseriesObj := do
  let m ← asMetricMsg metric c!"metric must be a Metric"
  mkTimeseriesMsg (.metric m) t.aggregate t.aggregateParams t.filters t.groupby

/-- `Timeseries.set_aggregate` (snuba_sdk/timeseries.py:134-141). -/
def TimeseriesObj.setAggregateMsg (t : TimeseriesObj) (aggregate aggregateParams : Val) : Except Raised TimeseriesObj := do
  demand aggregate.isStr .invalidTimeseries c!"aggregate must be a str"
  demand (!aggregateParams.given || aggregateParams.isList) .invalidTimeseries c!"aggregate_params must be a list"
  mkTimeseriesMsg (.metric t.metric) aggregate aggregateParams t.filters t.groupby

/-- `Timeseries.set_filters` (snuba_sdk/timeseries.py:143-148). -/
def TimeseriesObj.setFiltersMsg (t : TimeseriesObj) (filters : Val) : Except Raised TimeseriesObj := do
  demand (!filters.given || listType filters Val.isCondition) .invalidTimeseries c!"filters must be a list of Conditions"
  mkTimeseriesMsg (.metric t.metric) t.aggregate t.aggregateParams filters t.groupby

/-- `Timeseries.set_groupby` (snuba_sdk/timeseries.py:150-157). -/
def TimeseriesObj.setGroupbyMsg (t : TimeseriesObj) (groupby : Val) : Except Raised TimeseriesObj := do
  demand (!groupby.given || listType groupby Val.isGroupItem) .invalidTimeseries
    c!"groupby must be a list of Columns or AliasedExpression"
  mkTimeseriesMsg (.metric t.metric) t.aggregate t.aggregateParams t.filters groupby

/-- `MetricsScope.validate` (snuba_sdk/timeseries.py:236-244). -/
def ScopeObj.validateMsg (s : ScopeObj) : Except Raised Unit := do
  demand (listType s.orgIds Val.isInt) .invalidExpression c!"org_ids must be a list of integers"
  demand (listType s.projectIds Val.isInt) .invalidExpression c!"project_ids must be a list of integers"
  demand (!s.useCaseId.given || s.useCaseId.isStr) .invalidExpression c!"use_case_id must be an str"

/-- `MetricsScope(org_ids, project_ids, use_case_id)` (snuba_sdk/timeseries.py:217-234). -/
def mkScopeMsg (orgIds projectIds useCaseId : Val) : Except Raised ScopeObj := do
  let s : ScopeObj := ⟨orgIds, projectIds, useCaseId⟩
  s.validateMsg
  .ok s

/-- `MetricsScope.set_use_case_id` (snuba_sdk/timeseries.py:246-249). -/
def ScopeObj.setUseCaseIdMsg (s : ScopeObj) (useCaseId : Val) : Except Raised ScopeObj := do
  demand useCaseId.isStr .invalidExpression c!"use_case_id must be an str"
  mkScopeMsg s.orgIds s.projectIds useCaseId

/-! ### The setters of snuba_sdk/formula.py and snuba_sdk/metrics_query.py -/

/-- `Formula.set_parameters` (snuba_sdk/formula.py:101-108). -/
def setFormulaParametersMsg (f : MVal) (parameters : MVal) : Except Raised MVal :=
  match f with
  | .formula n _ a fs g => do
    demand (!parameters.given || isParamList parameters) .invalidFormula
      c!"parameters must be a list of either Timeseries, floats, or ints"
    .ok (.formula n parameters a fs g)
  | _ => .error (.attributeError, none)

/-- `Formula.set_filters` (snuba_sdk/formula.py:110-115). -/
def setFormulaFiltersMsg (f : MVal) (filters : Val) : Except Raised MVal :=
  match f with
  | .formula n p a _ g => do
    demand (!filters.given || listType filters Val.isCondition) .invalidFormula c!"filters must be a list of Conditions"
    .ok (.formula n p a filters g)
  | _ => .error (.attributeError, none)

/-- `Formula.set_groupby` (snuba_sdk/formula.py:117-120). -/
def setFormulaGroupbyMsg (f : MVal) (groupby : Val) : Except Raised MVal :=
  match f with
  | .formula n p a fs _ => do
    demand (!groupby.given || listType groupby Val.isGroupItem) .invalidFormula c!"groupby must be a list of Columns"
    .ok (.formula n p a fs groupby)
  | _ => .error (.attributeError, none)

/-- `MetricsQuery.set_query` (snuba_sdk/metrics_query.py:45-50). -/
def MetricsQueryObj.setQueryMsg (q : MetricsQueryObj) (v : MVal) : Except Raised MetricsQueryObj :=
  match v with
  | .formula .. | .ts _ | .val (.str _) => .ok { q with query := v }
  | _ => raise .invalidQuery c!"query must be a Formula or Timeseries or MQL string"

/-- `MetricsQuery.set_start` (snuba_sdk/metrics_query.py:52-55). -/
def MetricsQueryObj.setStartMsg (q : MetricsQueryObj) (v : MVal) : Except Raised MetricsQueryObj :=
  match v with
  | .val (.datetime _) => .ok { q with start := v }
  | _ => raise .invalidQuery c!"start must be a datetime"

/-- `MetricsQuery.set_end` (snuba_sdk/metrics_query.py:57-60). -/
def MetricsQueryObj.setEndMsg (q : MetricsQueryObj) (v : MVal) : Except Raised MetricsQueryObj :=
  match v with
  | .val (.datetime _) => .ok { q with end_ := v }
  | _ => raise .invalidQuery c!"end must be a datetime"

/-- `MetricsQuery.set_rollup` (snuba_sdk/metrics_query.py:62-65). -/
def MetricsQueryObj.setRollupMsg (q : MetricsQueryObj) (v : MVal) : Except Raised MetricsQueryObj :=
  match v with
  | .rollup _ => .ok { q with rollup := v }
  | _ => raise .invalidQuery c!"rollup must be a Rollup"

/-- `MetricsQuery.set_scope` (snuba_sdk/metrics_query.py:67-70). -/
def MetricsQueryObj.setScopeMsg (q : MetricsQueryObj) (v : MVal) : Except Raised MetricsQueryObj :=
  match v with
  | .scope _ => .ok { q with scope := v }
  | _ => raise .invalidQuery c!"scope must be a MetricsScope"

section
variable [PyShow] [PyText]

/-- The interval checks of `Rollup.validate` (snuba_sdk/timeseries.py:189-196). -/
def checkIntervalMsg (interval granularity : Val) : Except Raised Unit :=
  if interval.given then do
    let i ← validateIntLiteralMsg c!"interval" interval (some 10) none
    if granularity.given then do
      let less ← elsewhere (intLess i.toInt granularity)
      demand (!less) .invalidExpression c!"interval must be greater than or equal to granularity"
    else .ok ()
  else .ok ()

/-- `Rollup.validate` (snuba_sdk/timeseries.py:181-214). -/
def RollupObj.validateMsg (r : RollupObj) : Except Raised Unit := do
  demand (!r.granularity.truthy || allowedGranularities.any fun g => pyEq r.granularity (.int g)) .invalidExpression
    (c!"granularity must be an integer and one of " ++ (Val.tuple (allowedGranularities.map .int)).text)
  checkIntervalMsg r.interval r.granularity
  demand (!r.totals.given || r.totals.isBool) .invalidExpression c!"totals must be a boolean"
  demand (r.interval.given || r.totals.given) .invalidExpression c!"Rollup must have at least one of interval or totals"
  demand (!r.orderby.given || r.orderby.isDirection) .invalidExpression c!"orderby must be a Direction object"
  demand (!(r.interval.given && r.orderby.given)) .invalidExpression c!"Timeseries queries can't be ordered when using interval"

/-- `Rollup(interval, totals, orderby, granularity)` (snuba_sdk/timeseries.py:163-179). -/
def mkRollupMsg (interval totals orderby granularity : Val) : Except Raised RollupObj := do
  let r : RollupObj := ⟨interval, totals, orderby, granularity⟩
  r.validateMsg
  .ok r

/-- `MetricsQuery.set_limit` (snuba_sdk/metrics_query.py:72-73). -/
def MetricsQueryObj.setLimitMsg (q : MetricsQueryObj) (v : Val) : Except Raised MetricsQueryObj := do
  let l ← mkLimitMsg v
  .ok { q with limit := .val l }

/-- `MetricsQuery.set_offset` (snuba_sdk/metrics_query.py:75-76). -/
def MetricsQueryObj.setOffsetMsg (q : MetricsQueryObj) (v : Val) : Except Raised MetricsQueryObj := do
  let l ← mkOffsetMsg v
  .ok { q with offset := .val l }

omit [PyShow] [PyText] in
/-- `MetricsQuery.set_extrapolate` (snuba_sdk/metrics_query.py:78-79). -/
def MetricsQueryObj.setExtrapolateMsg (q : MetricsQueryObj) (v : Val) : Except Raised MetricsQueryObj := do
  let l ← mkExtrapolateMsg v
  .ok { q with extrapolate := .val l }

/-! ### snuba_sdk/formula.py -/

variable [R : PyRepr]

/-- The loop over the parameters in `Formula.validate` (snuba_sdk/formula.py:90-94). -/
def checkFormulaParamsMsg (name : Val) : List MVal → Except Raised Unit
  | [] => .ok ()
  | p :: ps =>
    if p.isFormulaParam then checkFormulaParamsMsg name ps
    else raise .invalidFormula (c!"parameter '" ++ p.text ++ c!"' of formula " ++ name.text ++ c!" is an invalid type")

/-- `Formula.validate` (snuba_sdk/formula.py:47-95) on the fields of a formula. -/
def validateFormulaMsg (name : Val) (params : MVal) (groupby : Val) : Except Raised Unit := do
  demand name.isStr .invalidFormula (c!"formula '" ++ name.text ++ c!"' must be a str")
  demand params.given .invalidFormula c!"Formula must have parameters"
  match params.seq? with
  | none => raise .invalidFormula (c!"parameters of formula " ++ name.text ++ c!" must be a Sequence")
  | some ps => do
    checkFormulaParamsMsg name ps
    let g ← elsewhere (optGroupKey groupby)
    let (gs, t) ← elsewhere (scanParams params)
    demand t .invalidFormula c!"Formulas must operate on at least one Timeseries"
    demand ((keySet (g ++ gs)).length ≤ 1) .invalidFormula c!"Formula parameters must group by the same columns"

/-! ### snuba_sdk/metrics_query_visitors.py -/

/-- `query.validate()` of a timeseries or formula (snuba_sdk/metrics_query_visitors.py:106). -/
def MVal.validateQueryMsg : MVal → Except Raised Unit
  | .ts t => t.validateMsg
  | .formula n p _ _ g => validateFormulaMsg n p g
  | _ => .error (.attributeError, none)

variable [U : PyUnicode] [S : RegexSpace]

/-- `Validator._visit_query` (snuba_sdk/metrics_query_visitors.py:89-107). -/
def checkQueryMsg : MVal → Except Raised Unit
  | .val .none => raise .invalidMetricsQuery c!"query is required for a metrics query"
  | .val (.str s) => do
    let q ← parseCheckedMsg s
    q.validateQueryMsg
  | .ts t => (MVal.ts t).validateQueryMsg
  | .formula n p a f g => (MVal.formula n p a f g).validateQueryMsg
  | _ => raise .invalidMetricsQuery c!"query must be a Timeseries or Formula or MQL string"

omit [PyShow] [PyText] R U S in
/-- `Validator._visit_start` and `_visit_end` (snuba_sdk/metrics_query_visitors.py:109-119). -/
def checkTimeMsg (which : Str) : MVal → Except Raised Unit
  | .val .none => raise .invalidMetricsQuery (which ++ c!" is required for a metrics query")
  | .val (.datetime _) => .ok ()
  | _ => raise .invalidMetricsQuery (which ++ c!" must be a datetime")

omit R U S in
/-- `Validator._visit_rollup` (snuba_sdk/metrics_query_visitors.py:121-133). -/
def checkRollupMsg : MVal → Except Raised Unit
  | .val .none => raise .invalidMetricsQuery c!"rollup is required for a metrics query"
  | .rollup r => do
    demand r.granularity.given .invalidMetricsQuery c!"granularity must be set on the rollup"
    r.validateMsg
  | _ => raise .invalidMetricsQuery c!"rollup must be a Rollup object"

omit [PyShow] [PyText] R U S in
/-- `Validator._visit_scope` (snuba_sdk/metrics_query_visitors.py:135-140). -/
def checkScopeMsg : MVal → Except Raised Unit
  | .val .none => raise .invalidMetricsQuery c!"scope is required for a metrics query"
  | .scope s => s.validateMsg
  | _ => raise .invalidMetricsQuery c!"scope must be a MetricsScope object"

omit R U S in
/-- `Validator._visit_limit` (snuba_sdk/metrics_query_visitors.py:142-148). -/
def checkLimitMsg : MVal → Except Raised Unit
  | .val .none => .ok ()
  | .val (.limit n) => do
    let _ ← validateIntLiteralMsg c!"limit" n.val (some 1) (some 10000)
    .ok ()
  | _ => raise .invalidMetricsQuery c!"limit must be a Limit object"

omit R U S in
/-- `Validator._visit_offset` (snuba_sdk/metrics_query_visitors.py:150-156). -/
def checkOffsetMsg : MVal → Except Raised Unit
  | .val .none => .ok ()
  | .val (.offset n) => do
    let _ ← validateIntLiteralMsg c!"offset" n.val (some 0) none
    .ok ()
  | _ => raise .invalidMetricsQuery c!"offset must be a Offset object"

omit [PyShow] [PyText] R U S in
/-- `Validator._visit_extrapolate` (snuba_sdk/metrics_query_visitors.py:158-164); the value of an `Extrapolate` is always a bool here. -/
def checkExtrapolateMsg : MVal → Except Raised Unit
  | .val .none => .ok ()
  | .val (.extrapolate _) => .ok ()
  | _ => raise .invalidMetricsQuery c!"extrapolate must be a Extrapolate object"

omit [PyShow] [PyText] R U S in
/-- `Validator._visit_indexer_mappings` (snuba_sdk/metrics_query_visitors.py:166-172). -/
def checkMappingsMsg : MVal → Except Raised Unit
  | .val .none => .ok ()
  | .data (.dict _) => .ok ()
  | _ => raise .invalidMetricsQuery c!"indexer_mappings must be a dictionary"

/-- `MetricsQuery.validate` (snuba_sdk/metrics_query.py:86-87; the order of the fields at metrics_query_visitors.py:23-30). -/
def MetricsQueryObj.validateMsg (q : MetricsQueryObj) : Except Raised Unit := do
  checkQueryMsg q.query
  checkTimeMsg c!"start" q.start
  checkTimeMsg c!"end" q.end_
  checkRollupMsg q.rollup
  checkScopeMsg q.scope
  checkLimitMsg q.limit
  checkOffsetMsg q.offset
  checkExtrapolateMsg q.extrapolate
  checkMappingsMsg q.indexerMappings

end

end Verif
