import Verif.Model.Metrics
import Verif.Spec.Construct

/-!
# Specification: valid metrics objects

What the objects of the metrics layer may hold, said without reference to the checks in the code.
-/

namespace Verif.Spec

/-- The value is `None` or a string. -/
inductive OptStr : Val → Prop
  | none : OptStr .none
  | str (s : Str) : OptStr (.str s)

/-- The value is `None` or an int-like object. -/
inductive OptInt : Val → Prop
  | none : OptInt .none
  | int (v : Val) (n : PyInt) : IntLike v n → OptInt v

/-- The value is `None` or a list whose elements all satisfy `P`. -/
inductive OptList (P : Val → Prop) : Val → Prop
  | none : OptList P .none
  | list (xs : List Val) : (∀ x ∈ xs, P x) → OptList P (.list xs)

/-- A column or an aliased column. -/
inductive GroupItem : Val → Prop
  | column (c) : GroupItem (.column c)
  | aliased (c a) : GroupItem (.aliased c a)

/-- A metric: names are strings, the id is an int, and there is a name. -/
structure MetricOk (m : MetricObj) : Prop where
  publicName : OptStr m.publicName
  mri : OptStr m.mri
  id : OptInt m.id
  named : ∃ s, m.publicName = .str s ∨ m.mri = .str s

/-- A timeseries: a metric, a string aggregate with literal parameters, condition filters and column groupby. -/
structure TimeseriesOk (t : TimeseriesObj) : Prop where
  metric : MetricOk t.metric
  aggregate : ∃ s, t.aggregate = .str s
  aggregateParams : OptList Literal t.aggregateParams
  filters : OptList Cond t.filters
  groupby : OptList GroupItem t.groupby

/-- The value is a list of int-like objects. -/
def IntList (v : Val) : Prop := ∃ xs, v = .list xs ∧ ∀ x ∈ xs, ∃ n, IntLike x n

/-- A scope: two lists of ids, and a use case that is absent or a string. -/
structure ScopeOk (s : ScopeObj) : Prop where
  orgIds : IntList s.orgIds
  projectIds : IntList s.projectIds
  useCaseId : OptStr s.useCaseId

/-- Objects made by any sequence of constructor and setter calls. -/
inductive MadeMetric : MetricObj → Prop
  | new (p m i r) : mkMetric p m i = .ok r → MadeMetric r
  | setMri (x v r) : MadeMetric x → x.setMri v = .ok r → MadeMetric r
  | setPublicName (x v r) : MadeMetric x → x.setPublicName v = .ok r → MadeMetric r
  | setId (x v r) : MadeMetric x → x.setId v = .ok r → MadeMetric r

/-- Objects made by any sequence of constructor and setter calls. -/
inductive MadeTimeseries : TimeseriesObj → Prop
  | new (m a p f g r) : mkTimeseries m a p f g = .ok r → MadeTimeseries r
  | setMetric (x v r) : MadeTimeseries x → x.setMetric v = .ok r → MadeTimeseries r
  | setAggregate (x v w r) : MadeTimeseries x → x.setAggregate v w = .ok r → MadeTimeseries r
  | setFilters (x v r) : MadeTimeseries x → x.setFilters v = .ok r → MadeTimeseries r
  | setGroupby (x v r) : MadeTimeseries x → x.setGroupby v = .ok r → MadeTimeseries r

/-- Objects made by any sequence of constructor and setter calls. -/
inductive MadeScope : ScopeObj → Prop
  | new (o p u r) : mkScope o p u = .ok r → MadeScope r
  | setUseCaseId (x v r) : MadeScope x → x.setUseCaseId v = .ok r → MadeScope r

/-- The finite float has the value `n`. -/
def DblIs (d : Dbl) (n : Int) : Prop :=
  (if d.neg then -(d.m : Int) else d.m) * 2 ^ d.e.toNat = n * 2 ^ (-d.e).toNat

/-- The value is a number equal to `n`. -/
inductive NumIs : Val → Int → Prop
  | int (n) : NumIs (.int n) n
  | bool (b) : NumIs (.bool b) (if b then 1 else 0)
  | float (d n) : DblIs d n → NumIs (.float (.fin d)) n

/-- An empty string, bytes, list or tuple. -/
inductive Empty : Val → Prop
  | str : Empty (.str [])
  | bytes : Empty (.bytes [])
  | list : Empty (.list [])
  | tuple : Empty (.tuple [])

/-- A consistent rollup. -/
structure RollupOk (r : RollupObj) : Prop where
  /-- the granularity is absent, one of the allowed numbers, or empty in Python's sense -/
  granularity : r.granularity = .none ∨ Empty r.granularity ∨ ∃ n, n ∈ [0, 10, 60, 3600, 86400] ∧ NumIs r.granularity n
  /-- an interval is an int of at least 10 and not below the granularity -/
  interval : r.interval = .none ∨ ∃ i, IntLike r.interval i ∧ 10 ≤ i.toInt ∧
    (r.granularity = .none ∨ ∃ n, NumIs r.granularity n ∧ n ≤ i.toInt)
  totals : r.totals = .none ∨ ∃ b, r.totals = .bool b
  some : r.interval ≠ .none ∨ r.totals ≠ .none
  orderby : r.orderby = .none ∨ ∃ d, r.orderby = .direction d
  notBoth : r.interval = .none ∨ r.orderby = .none

end Verif.Spec
