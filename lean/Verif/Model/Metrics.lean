import Verif.Model.Translate
import Verif.Model.PyEq

/-!
# snuba_sdk/timeseries.py, snuba_sdk/formula.py and snuba_sdk/metrics_visitors.py

The objects hold their fields as they were given, and `validate` checks them, as in the code.
Simplification: fields are changed through the `set_*` methods only, never by assignment.
-/

namespace Verif

/-- A nested Python structure that may be part of a request payload: `val` is any value, `dict` a dictionary with
string keys in insertion order (simplification: no other keys). -/
inductive Data where
  | val (v : Val)
  | list (xs : List Data)
  | dict (kvs : List (Str × Data))
  deriving Inhabited

/-- `Metric` (snuba_sdk/timeseries.py:22-31). -/
structure MetricObj where
  publicName : Val := .none
  mri : Val := .none
  id : Val := .none
  deriving Inhabited

/-- `Timeseries` (snuba_sdk/timeseries.py:69-82). -/
structure TimeseriesObj where
  metric : MetricObj
  aggregate : Val
  aggregateParams : Val := .none
  filters : Val := .none
  groupby : Val := .none
  deriving Inhabited

/-- `Rollup` (snuba_sdk/timeseries.py:163-176). -/
structure RollupObj where
  interval : Val := .none
  totals : Val := .none
  orderby : Val := .none
  granularity : Val := .none
  deriving Inhabited

/-- `MetricsScope` (snuba_sdk/timeseries.py:217-231). -/
structure ScopeObj where
  orgIds : Val
  projectIds : Val
  useCaseId : Val := .none
  deriving Inhabited

/-- Python objects of the metrics layer: any value of the expression layer, the metrics classes, and
sequences that hold them. `formula` is `Formula` (snuba_sdk/formula.py:39-45), whose fields are not checked on
construction; `data` is a dictionary. -/
inductive MVal where
  | val (v : Val)
  | metric (m : MetricObj)
  | ts (t : TimeseriesObj)
  | formula (name : Val) (params : MVal) (aggregateParams filters groupby : Val)
  | rollup (r : RollupObj)
  | scope (s : ScopeObj)
  | list (xs : List MVal)
  | tuple (xs : List MVal)
  | data (d : Data)
  deriving Inhabited

/-- `str(x)` of objects other than `None`, bools, ints, floats and strings (Python built-in): the text is not
specified, and nothing is assumed of it. -/
class PyRepr where
  str : MVal → Str

/-- `v is not None`. -/
def Val.given : Val → Bool
  | .none => false
  | _ => true

/-- `isinstance(v, str)`. -/
def Val.isStr : Val → Bool
  | .str _ => true
  | _ => false

/-- `isinstance(v, int)`. -/
def Val.isInt (v : Val) : Bool := v.asInt?.isSome

/-- `isinstance(v, (Column, AliasedExpression))`. -/
def Val.isGroupItem : Val → Bool
  | .column _ | .aliased .. => true
  | _ => false

/-- `v is None or isinstance(v, list) and all(test)`, the pattern of snuba_sdk/timeseries.py:100-107, 111-116, 120-127. -/
def optListOf (p : Val → Bool) : Val → Bool
  | .none => true
  | .list xs => xs.all p
  | _ => false

/-- `Metric.validate` (snuba_sdk/timeseries.py:40-51). -/
def MetricObj.validate (m : MetricObj) : Except Err Unit := do
  ensure (!m.publicName.given || m.publicName.isStr) .invalidTimeseries
  ensure (!m.mri.given || m.mri.isStr) .invalidTimeseries
  ensure (!m.id.given || m.id.isInt) .invalidTimeseries
  ensure (m.publicName.given || m.mri.given) .invalidTimeseries

/-- `Metric(public_name, mri, id)` (snuba_sdk/timeseries.py:22-34). -/
def mkMetric (publicName mri id : Val) : Except Err MetricObj := do
  let m : MetricObj := ⟨publicName, mri, id⟩
  m.validate
  .ok m

/-- `Metric.set_mri` (snuba_sdk/timeseries.py:53-56); `replace` calls the constructor. -/
def MetricObj.setMri (m : MetricObj) (mri : Val) : Except Err MetricObj := do
  ensure mri.isStr .invalidExpression
  mkMetric m.publicName mri m.id

/-- `Metric.set_public_name` (snuba_sdk/timeseries.py:58-61). -/
def MetricObj.setPublicName (m : MetricObj) (publicName : Val) : Except Err MetricObj := do
  ensure publicName.isStr .invalidExpression
  mkMetric publicName m.mri m.id

/-- `Metric.set_id` (snuba_sdk/timeseries.py:63-66). -/
def MetricObj.setId (m : MetricObj) (id : Val) : Except Err MetricObj := do
  ensure id.isInt .invalidExpression
  mkMetric m.publicName m.mri id

/-- `Timeseries.validate` (snuba_sdk/timeseries.py:91-127) after the class check of the metric. -/
def TimeseriesObj.validate (t : TimeseriesObj) : Except Err Unit := do
  t.metric.validate
  ensure t.aggregate.isStr .invalidTimeseries
  ensure (optListOf isLiteral t.aggregateParams) .invalidTimeseries
  ensure (optListOf Val.isCondition t.filters) .invalidTimeseries
  ensure (optListOf Val.isGroupItem t.groupby) .invalidTimeseries

/-- `isinstance(v, Metric)` or raise (snuba_sdk/timeseries.py:92-93, 130-131). -/
def asMetric : MVal → Except Err MetricObj
  | .metric m => .ok m
  | _ => .error .invalidTimeseries

/-- `Timeseries(metric, aggregate, aggregate_params, filters, groupby)` (snuba_sdk/timeseries.py:69-127). -/
def mkTimeseries (metric : MVal) (aggregate aggregateParams filters groupby : Val) : Except Err TimeseriesObj := do
  let m ← asMetric metric
  let t : TimeseriesObj := ⟨m, aggregate, aggregateParams, filters, groupby⟩
  t.validate
  .ok t

/-- `Timeseries.set_metric` (snuba_sdk/timeseries.py:129-132). -/
def TimeseriesObj.setMetric (t : TimeseriesObj) (metric : MVal) : Except Err TimeseriesObj := do
  let m ← asMetric metric
  mkTimeseries (.metric m) t.aggregate t.aggregateParams t.filters t.groupby

/-- `isinstance(v, list)`. -/
def Val.isList : Val → Bool
  | .list _ => true
  | _ => false

/-- `Timeseries.set_aggregate` (snuba_sdk/timeseries.py:134-141). -/
def TimeseriesObj.setAggregate (t : TimeseriesObj) (aggregate aggregateParams : Val) : Except Err TimeseriesObj := do
  ensure aggregate.isStr .invalidTimeseries
  ensure (!aggregateParams.given || aggregateParams.isList) .invalidTimeseries
  mkTimeseries (.metric t.metric) aggregate aggregateParams t.filters t.groupby

/-- `Timeseries.set_filters` (snuba_sdk/timeseries.py:143-148). -/
def TimeseriesObj.setFilters (t : TimeseriesObj) (filters : Val) : Except Err TimeseriesObj := do
  ensure (!filters.given || listType filters Val.isCondition) .invalidTimeseries
  mkTimeseries (.metric t.metric) t.aggregate t.aggregateParams filters t.groupby

/-- `Timeseries.set_groupby` (snuba_sdk/timeseries.py:150-157). -/
def TimeseriesObj.setGroupby (t : TimeseriesObj) (groupby : Val) : Except Err TimeseriesObj := do
  ensure (!groupby.given || listType groupby Val.isGroupItem) .invalidTimeseries
  mkTimeseries (.metric t.metric) t.aggregate t.aggregateParams t.filters groupby

/-- `ALLOWED_GRANULARITIES` (snuba_sdk/timeseries.py:160). -/
def allowedGranularities : List Int := [10, 60, 3600, 86400]

/-- `i < v` (Python built-in): comparing an int with something that is not a number raises `TypeError`. -/
def intLess (i : Int) : Val → Except Err Bool
  | .int j => .ok (decide (i < j))
  | .bool b => .ok (decide (i < if b then 1 else 0))
  | .float f => .ok (f.intLt i)
  | _ => .error .typeError

/-- The interval checks of `Rollup.validate` (snuba_sdk/timeseries.py:189-196). -/
def checkInterval (interval granularity : Val) : Except Err Unit :=
  if interval.given then do
    let i ← validateIntLiteral interval (some 10) none
    if granularity.given then do
      let less ← intLess i.toInt granularity
      ensure (!less) .invalidExpression
    else .ok ()
  else .ok ()

/-- `isinstance(v, bool)`. -/
def Val.isBool : Val → Bool
  | .bool _ => true
  | _ => false

/-- `isinstance(v, Direction)`. -/
def Val.isDirection : Val → Bool
  | .direction _ => true
  | _ => false

/-- `Rollup.validate` (snuba_sdk/timeseries.py:181-214). -/
def RollupObj.validate (r : RollupObj) : Except Err Unit := do
  ensure (!r.granularity.truthy || allowedGranularities.any fun g => pyEq r.granularity (.int g)) .invalidExpression
  checkInterval r.interval r.granularity
  ensure (!r.totals.given || r.totals.isBool) .invalidExpression
  ensure (r.interval.given || r.totals.given) .invalidExpression
  ensure (!r.orderby.given || r.orderby.isDirection) .invalidExpression
  ensure (!(r.interval.given && r.orderby.given)) .invalidExpression

/-- `Rollup(interval, totals, orderby, granularity)` (snuba_sdk/timeseries.py:163-179). -/
def mkRollup (interval totals orderby granularity : Val) : Except Err RollupObj := do
  let r : RollupObj := ⟨interval, totals, orderby, granularity⟩
  r.validate
  .ok r

/-- `MetricsScope.validate` (snuba_sdk/timeseries.py:236-244). -/
def ScopeObj.validate (s : ScopeObj) : Except Err Unit := do
  ensure (listType s.orgIds Val.isInt) .invalidExpression
  ensure (listType s.projectIds Val.isInt) .invalidExpression
  ensure (!s.useCaseId.given || s.useCaseId.isStr) .invalidExpression

/-- `MetricsScope(org_ids, project_ids, use_case_id)` (snuba_sdk/timeseries.py:217-234). -/
def mkScope (orgIds projectIds useCaseId : Val) : Except Err ScopeObj := do
  let s : ScopeObj := ⟨orgIds, projectIds, useCaseId⟩
  s.validate
  .ok s

/-- `MetricsScope.set_use_case_id` (snuba_sdk/timeseries.py:246-249). -/
def ScopeObj.setUseCaseId (s : ScopeObj) (useCaseId : Val) : Except Err ScopeObj := do
  ensure useCaseId.isStr .invalidExpression
  mkScope s.orgIds s.projectIds useCaseId

mutual
/-- Whether `hash(v)` succeeds (Python built-in): lists, and objects that hold lists, cannot be hashed.
Frozen dataclasses hash their fields (`Entity` leaves out its data model, snuba_sdk/entity.py:20).
Simplification: foreign objects can be hashed. -/
def hashable : Val → Bool
  | .list _ => false
  | .tuple xs => allHashable xs
  | .curried _ _ ik inits pk params _ => ik != .list && allHashable inits && pk != .list && allHashable params
  | .lam k _ body => k != .list && hashable body
  | .cond l _ r => hashable l && hashable r
  | .boolCond _ _ k cs => k != .list && allHashable cs
  | .orderby e _ => hashable e
  | .limitby k _ _ => k != .list
  | .join k _ => k != .list
  | .dataModel _ => false
  | _ => true

/-- Whether all items can be hashed. -/
def allHashable : List Val → Bool
  | [] => true
  | v :: vs => hashable v && allHashable vs
end

/-- `tuple(groupby)` and adding it to a set (snuba_sdk/formula.py:62, 69): the items, or `TypeError` if the value
cannot be iterated or an item cannot be hashed. Simplification: foreign objects cannot be iterated. -/
def groupKey (v : Val) : Except Err (List Val) :=
  match v.seq? with
  | none => .error .typeError
  | some (_, xs) => if allHashable xs then .ok xs else .error .typeError

/-- The key of a `groupby` if it is given (snuba_sdk/formula.py:61-62, 68-69). -/
def optGroupKey (v : Val) : Except Err (List (List Val)) :=
  if v.given then do
    let k ← groupKey v
    .ok [k]
  else .ok []

/-- Items of a value when `isinstance(v, collections.abc.Sequence)`, else `none`. -/
def MVal.seq? : MVal → Option (List MVal)
  | .list xs => some xs
  | .tuple xs => some xs
  | .val v => v.seq?.map fun s => s.2.map .val
  | _ => none

mutual
/-- The loop of `Formula.__validate_consistency` (snuba_sdk/formula.py:57-69) from one element of the stack: the
`groupby` keys met and whether a `Timeseries` was met. Simplification: a recursion takes the place of the stack; the
order of the visits cannot be observed, because all errors inside the loop are `TypeError`s. -/
def scanFormula : MVal → Except Err (List (List Val) × Bool)
  | .formula _ params _ _ groupby => do
    let g ← optGroupKey groupby
    let (gs, t) ← scanParams params
    .ok (g ++ gs, t)
  | .ts t => do
    let g ← optGroupKey t.groupby
    .ok (g, true)
  | _ => .ok ([], false)

/-- `if param.parameters: stack.extend(param.parameters)` (snuba_sdk/formula.py:64-65) and the visits this leads to. A
string has only strings as items, which the loop ignores. Simplification: a dictionary in the place of the parameters
is taken not to be iterable. -/
def scanParams : MVal → Except Err (List (List Val) × Bool)
  | .list xs => scanAll xs
  | .tuple xs => scanAll xs
  | .val v => if v.truthy && v.seq?.isNone then .error .typeError else .ok ([], false)
  | _ => .error .typeError

/-- The visits of several elements. -/
def scanAll : List MVal → Except Err (List (List Val) × Bool)
  | [] => .ok ([], false)
  | x :: xs => do
    let (g, t) ← scanFormula x
    let (gs, ts) ← scanAll xs
    .ok (g ++ gs, t || ts)
end

/-- The set of the keys (snuba_sdk/formula.py:54, 62, 69): one of several equal keys is kept. Simplification: equal keys
are taken to have equal hashes. -/
def keySet : List (List Val) → List (List Val)
  | [] => []
  | k :: ks => k :: (keySet ks).filter fun k' => !pyEqList k k'

/-- `isinstance(param, tuple(FormulaParameter))` (snuba_sdk/formula.py:91, 124). -/
def MVal.isFormulaParam : MVal → Bool
  | .formula .. | .ts _ => true
  | .val (.int _) | .val (.bool _) | .val (.float _) => true
  | _ => false

/-- `Formula.validate` (snuba_sdk/formula.py:47-95) on the fields of a formula. -/
def validateFormula (name : Val) (params : MVal) (groupby : Val) : Except Err Unit := do
  ensure name.isStr .invalidFormula
  match params.seq? with
  | none => .error .invalidFormula
  | some ps => do
    ensure (ps.all MVal.isFormulaParam) .invalidFormula
    let g ← optGroupKey groupby
    let (gs, t) ← scanParams params
    ensure t .invalidFormula
    ensure ((keySet (g ++ gs)).length ≤ 1) .invalidFormula

/-- `list_type(parameters, (Formula, Timeseries, float, int))` (snuba_sdk/formula.py:102-104). -/
def isParamList : MVal → Bool
  | .list xs => xs.all MVal.isFormulaParam
  | .val (.list xs) => xs.all fun x => (MVal.val x).isFormulaParam
  | _ => false

/-- `v is not None`. -/
def MVal.given : MVal → Bool
  | .val v => v.given
  | _ => true

/-- `Formula.set_parameters` (snuba_sdk/formula.py:101-108); no validation follows. -/
def setFormulaParameters (f : MVal) (parameters : MVal) : Except Err MVal :=
  match f with
  | .formula n _ a fs g => do
    ensure (!parameters.given || isParamList parameters) .invalidFormula
    .ok (.formula n parameters a fs g)
  | _ => .error .attributeError

/-- `Formula.set_filters` (snuba_sdk/formula.py:110-115). -/
def setFormulaFilters (f : MVal) (filters : Val) : Except Err MVal :=
  match f with
  | .formula n p a _ g => do
    ensure (!filters.given || listType filters Val.isCondition) .invalidFormula
    .ok (.formula n p a filters g)
  | _ => .error .attributeError

/-- `Formula.set_groupby` (snuba_sdk/formula.py:117-120). -/
def setFormulaGroupby (f : MVal) (groupby : Val) : Except Err MVal :=
  match f with
  | .formula n p a fs _ => do
    ensure (!groupby.given || listType groupby Val.isGroupItem) .invalidFormula
    .ok (.formula n p a fs groupby)
  | _ => .error .attributeError

/-- Items when iterating a value (Python built-in); foreign objects cannot be iterated (simplification). -/
def iterItems (v : Val) : Except Err (List Val) :=
  match v.seq? with
  | none => .error .typeError
  | some (_, xs) => .ok xs

/-- `_visit_mql_filters` (snuba_sdk/metrics_visitors.py:76-88). -/
def filtersMql (v : Val) : Except Err Str :=
  if v.given then do
    let xs ← iterItems v
    let ts ← condMqlAll .mql xs
    .ok (['{'] ++ joinWith c!" AND " ts ++ ['}'])
  else .ok []

/-- `_visit_mql_groupby` (snuba_sdk/metrics_visitors.py:91-96). -/
def groupbyMql (v : Val) : Except Err Str :=
  if v.given then do
    let xs ← iterItems v
    let ts ← translateAll .mql xs
    .ok (c!" by (" ++ joinWith c!", " ts ++ [')'])
  else .ok []

/-- `MetricMQLPrinter.visit` (snuba_sdk/metrics_visitors.py:205-215) and the `assert` at line 115. -/
def metricMql (m : MetricObj) : Except Err Str :=
  match m.mri, m.publicName with
  | .str s, _ => .ok s
  | .none, .str s => .ok s
  | .none, .none => .error .invalidExpression
  | _, _ => .error .assertion

variable [R : PyRepr]

/-- `str(v)` (Python built-in). -/
def pyStr : MVal → Str
  | .val .none => c!"None"
  | .val (.bool b) => boolStr b
  | .val (.int i) => intStr i
  | .val (.float f) => f.repr
  | .val (.str s) => s
  | v => R.str v

omit R in
/-- `if aggregate_params: …` of `_visit_aggregate` (snuba_sdk/metrics_visitors.py:132-138). -/
def aggregateParamsMql (v : Val) : Except Err Str :=
  if v.truthy then do
    let xs ← iterItems v
    let ts ← translateAll .mql xs
    .ok (['('] ++ joinWith c!", " ts ++ [')'])
  else .ok []

/-- `TimeseriesMQLPrinter` (snuba_sdk/metrics_visitors.py:24-40, 100-145). -/
def timeseriesMql (t : TimeseriesObj) : Except Err Str := do
  let m ← metricMql t.metric
  let ps ← aggregateParamsMql t.aggregateParams
  let f ← filtersMql t.filters
  let g ← groupbyMql t.groupby
  let agg := pyStr (.val t.aggregate) ++ ps
  .ok ((if agg.isEmpty then m else agg ++ ['('] ++ m ++ [')']) ++ f ++ g)

omit R in
/-- `PREFIX_TO_INFIX` (snuba_sdk/formula.py:29-34). -/
def infixOf (name : Str) : Option Str :=
  if name = c!"plus" then some c!"+"
  else if name = c!"minus" then some c!"-"
  else if name = c!"multiply" then some c!"*"
  else if name = c!"divide" then some c!"/"
  else none

/-- `PREFIX_ALIASES.get(name) or name` (snuba_sdk/formula.py:36, metrics_visitors.py:189). -/
def prefixName (name : Val) : Str :=
  match name with
  | .str s => if s = c!"negate" then c!"-" else s
  | v => pyStr (.val v)

/-- `FormulaMQLPrinter._visit_aggregate_params` (snuba_sdk/metrics_visitors.py:160-163). -/
def formulaParamsMql (v : Val) : Except Err Str :=
  if v.truthy then do
    let xs ← iterItems v
    .ok (['('] ++ joinWith c!", " (xs.map fun x => pyStr (.val x)) ++ [')'])
  else .ok []

/-- The body of `FormulaMQLPrinter.visit` without the filters and the groupby (snuba_sdk/metrics_visitors.py:184-191);
`formula.function_name in PREFIX_TO_INFIX` raises if the name cannot be hashed. -/
def formulaHead (name aggregateParams : Val) (params : List Str) : Except Err Str :=
  match name with
  | .str s =>
    match infixOf s with
    | some o => .ok (['('] ++ joinWith ([' '] ++ o ++ [' ']) params ++ [')'])
    | none => do
      let a ← formulaParamsMql aggregateParams
      .ok (prefixName name ++ a ++ ['('] ++ joinWith c!", " params ++ [')'])
  | v => do
    ensure (hashable v) .typeError
    let a ← formulaParamsMql aggregateParams
    .ok (prefixName v ++ a ++ ['('] ++ joinWith c!", " params ++ [')'])

mutual
/-- `FormulaMQLPrinter.visit` and `_visit_parameter` (snuba_sdk/metrics_visitors.py:152-158, 171-196). -/
def paramMql : MVal → Except Err Str
  | .ts t => timeseriesMql t
  | .formula name params aggregateParams filters groupby => do
    let ps ← paramsMql params
    let h ← formulaHead name aggregateParams ps
    let f ← filtersMql filters
    let g ← groupbyMql groupby
    .ok (h ++ f ++ g)
  | v => .ok (pyStr v)

/-- `[self._visit_parameter(p) for p in formula.parameters]` (snuba_sdk/metrics_visitors.py:172-174): `None` fails
the assertion, other values that cannot be iterated raise `TypeError`. Simplification: a dictionary is taken not to
be iterable. -/
def paramsMql : MVal → Except Err (List Str)
  | .list xs => paramsMqlAll xs
  | .tuple xs => paramsMqlAll xs
  | .val .none => .error .assertion
  | .val v => do
    let xs ← iterItems v
    .ok (xs.map fun x => pyStr (.val x))
  | _ => .error .typeError

/-- The texts of several parameters. -/
def paramsMqlAll : List MVal → Except Err (List Str)
  | [] => .ok []
  | x :: xs => do
    let t ← paramMql x
    let ts ← paramsMqlAll xs
    .ok (t :: ts)
end

end Verif
