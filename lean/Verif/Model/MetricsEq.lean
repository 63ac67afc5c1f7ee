import Verif.Model.Hash
import Verif.Model.Request
import Verif.Model.QueryEq

/-!
# `==` and `hash` of metrics queries and requests

Simplification: Python takes identical fields for equal, which only matters for NaN; and a list that could be represented in more than
one way (as a value and as a list of values) is taken to be represented in the same way on both sides.
-/

namespace Verif

/-- `Metric.__eq__` (dataclass-generated, snuba_sdk/timeseries.py:22-31). -/
def MetricObj.pyEq (a b : MetricObj) : Bool :=
  Verif.pyEq a.publicName b.publicName && Verif.pyEq a.mri b.mri && Verif.pyEq a.id b.id

/-- `Timeseries.__eq__` (dataclass-generated, snuba_sdk/timeseries.py:69-82). -/
def TimeseriesObj.pyEq (a b : TimeseriesObj) : Bool :=
  a.metric.pyEq b.metric && Verif.pyEq a.aggregate b.aggregate && Verif.pyEq a.aggregateParams b.aggregateParams &&
  Verif.pyEq a.filters b.filters && Verif.pyEq a.groupby b.groupby

/-- `Rollup.__eq__` (dataclass-generated, snuba_sdk/timeseries.py:163-176). -/
def RollupObj.pyEq (a b : RollupObj) : Bool :=
  Verif.pyEq a.interval b.interval && Verif.pyEq a.totals b.totals && Verif.pyEq a.orderby b.orderby && Verif.pyEq a.granularity b.granularity

/-- `MetricsScope.__eq__` (dataclass-generated, snuba_sdk/timeseries.py:217-231). -/
def ScopeObj.pyEq (a b : ScopeObj) : Bool :=
  Verif.pyEq a.orgIds b.orgIds && Verif.pyEq a.projectIds b.projectIds && Verif.pyEq a.useCaseId b.useCaseId

mutual
/-- `==` of nested structures (Python built-in; used for the fields at snuba_sdk/metrics_query.py:39, request.py:48-53 and
delete_query.py:29-30): dictionaries are equal if they have as many entries and the values under all keys are equal, in
whatever order. -/
def Data.pyEq : Data → Data → Bool
  | .val v, .val w => Verif.pyEq v w
  | .list xs, .list ys => dataEqAll xs ys
  | .dict kvs, .dict kvs' => kvs.length == kvs'.length && dictWithin kvs kvs'
  | _, _ => false

/-- `==` of two lists (Python built-in). -/
def dataEqAll : List Data → List Data → Bool
  | [], [] => true
  | x :: xs, y :: ys => x.pyEq y && dataEqAll xs ys
  | _, _ => false

/-- All entries of one dictionary are in another (Python built-in). -/
def dictWithin : List (Str × Data) → List (Str × Data) → Bool
  | [], _ => true
  | (k, x) :: kvs, kvs' => (match kvs'.lookup k with | some y => x.pyEq y | none => false) && dictWithin kvs kvs'
end

mutual
/-- `==` of the objects of the metrics layer; `Formula.__eq__` is dataclass-generated (snuba_sdk/formula.py:39-45). -/
def MVal.pyEq : MVal → MVal → Bool
  | .val v, .val w => Verif.pyEq v w
  | .metric a, .metric b => a.pyEq b
  | .ts a, .ts b => a.pyEq b
  | .formula n p a f g, .formula n' p' a' f' g' =>
    Verif.pyEq n n' && p.pyEq p' && Verif.pyEq a a' && Verif.pyEq f f' && Verif.pyEq g g'
  | .rollup a, .rollup b => a.pyEq b
  | .scope a, .scope b => a.pyEq b
  | .list xs, .list ys => mvalEqAll xs ys
  | .tuple xs, .tuple ys => mvalEqAll xs ys
  | .data d, .data d' => d.pyEq d'
  | _, _ => false

/-- `==` of two lists or tuples. -/
def mvalEqAll : List MVal → List MVal → Bool
  | [], [] => true
  | x :: xs, y :: ys => x.pyEq y && mvalEqAll xs ys
  | _, _ => false
end

/-- `MetricsQuery.__eq__` (dataclass-generated, snuba_sdk/metrics_query.py:18, 31-39): the fields one by one. -/
def MetricsQueryObj.pyEq (a b : MetricsQueryObj) : Bool :=
  a.query.pyEq b.query && a.start.pyEq b.start && a.end_.pyEq b.end_ && a.rollup.pyEq b.rollup && a.scope.pyEq b.scope &&
  a.limit.pyEq b.limit && a.offset.pyEq b.offset && a.extrapolate.pyEq b.extrapolate && a.indexerMappings.pyEq b.indexerMappings

/-! ### Hashes -/

/-- `Metric.__hash__` (dataclass-generated because of `frozen=True`, snuba_sdk/timeseries.py:22-31). -/
def MetricObj.hashTree (m : MetricObj) : Except Err HashTree := do
  let hs ← hashTrees [m.publicName, m.mri, m.id]
  .ok (.fields hs)

/-- `Rollup.__hash__` (dataclass-generated because of `frozen=True`, snuba_sdk/timeseries.py:163-176). -/
def RollupObj.hashTree (r : RollupObj) : Except Err HashTree := do
  let hs ← hashTrees [r.interval, r.totals, r.orderby, r.granularity]
  .ok (.fields hs)

mutual
/-- `hash(v)`: `Formula` is hashed as the tuple of its fields because of `frozen=True` (snuba_sdk/formula.py:39-45);
`Timeseries` and `MetricsScope` have an `__eq__` and are not frozen, so they have no hash (snuba_sdk/timeseries.py:69, 217), and
neither have lists and dictionaries (Python built-in). -/
def MVal.hashTree : MVal → Except Err HashTree
  | .val v => Verif.hashTree v
  | .metric m => m.hashTree
  | .rollup r => r.hashTree
  | .formula n p a f g => do
    let hn ← Verif.hashTree n
    let hp ← p.hashTree
    let hs ← hashTrees [a, f, g]
    .ok (.fields (hn :: hp :: hs))
  | .tuple xs => do
    let hs ← mvalHashes xs
    .ok (.seq .tuple hs)
  | .ts _ | .scope _ | .list _ | .data _ => .error .typeError

/-- `hash` of the items of a tuple, in order. -/
def mvalHashes : List MVal → Except Err (List HashTree)
  | [] => .ok []
  | x :: xs => do
    let h ← x.hashTree
    let hs ← mvalHashes xs
    .ok (h :: hs)
end

/-! ### Requests -/

/-- `DeleteQuery.__eq__` (dataclass-generated, snuba_sdk/delete_query.py:11-30). -/
def DeleteObj.pyEq (a b : DeleteObj) : Bool := a.storageName.pyEq b.storageName && a.columnConditions.pyEq b.columnConditions

/-- `Flags.__eq__` (dataclass-generated, snuba_sdk/request.py:21-28). -/
def FlagsObj.pyEq (a b : FlagsObj) : Bool :=
  Verif.pyEq a.totals b.totals && Verif.pyEq a.consistent b.consistent && Verif.pyEq a.turbo b.turbo && Verif.pyEq a.debug b.debug &&
  Verif.pyEq a.dryRun b.dryRun && Verif.pyEq a.legacy b.legacy

/-- `==` of queries; queries of different classes are not equal (dataclass-generated, snuba_sdk/query.py:55, metrics_query.py:18,
delete_query.py:11). -/
def AnyQuery.pyEq : AnyQuery → AnyQuery → Bool
  | .snql a, .snql b => a.pyEq b
  | .metrics a, .metrics b => a.pyEq b
  | .delete a, .delete b => a.pyEq b
  | _, _ => false

/-- `Request.__eq__` (dataclass-generated, snuba_sdk/request.py:46-53). -/
def RequestObj.pyEq (a b : RequestObj) : Bool :=
  a.dataset.pyEq b.dataset && a.appId.pyEq b.appId && a.query.pyEq b.query && optEq FlagsObj.pyEq a.flags b.flags &&
  a.parentApi.pyEq b.parentApi && a.tenantIds.pyEq b.tenantIds

end Verif
