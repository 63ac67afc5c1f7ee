import Verif.Model.MetricsEq
import Verif.Spec.MetricsQuery
import Verif.Spec.Equal
import Verif.Spec.Construct

/-!
# Specification: what matters for the equality of metrics queries and requests
-/

namespace Verif.Spec

/-- `e` is the structure `d`, or one of the structures and values in it, at any depth. -/
inductive InData : Data → Data → Prop
  | self (d) : InData d d
  | item (xs x e) : x ∈ xs → InData x e → InData (.list xs) e
  | entry (kvs k x e) : (k, x) ∈ kvs → InData x e → InData (.dict kvs) e

/-- The values and structures that an object of the metrics layer consists of. -/
inductive InObject : MVal → Data → Prop
  | val (v) : InObject (.val v) (.val v)
  | metric (m v) : v ∈ [m.publicName, m.mri, m.id] → InObject (.metric m) (.val v)
  | ts (t v) : v ∈ [t.metric.publicName, t.metric.mri, t.metric.id, t.aggregate, t.aggregateParams, t.filters, t.groupby] →
      InObject (.ts t) (.val v)
  | formula (n p a f g v) : v ∈ [n, a, f, g] → InObject (.formula n p a f g) (.val v)
  | params (n p a f g d) : InObject p d → InObject (.formula n p a f g) d
  | rollup (r v) : v ∈ [r.interval, r.totals, r.orderby, r.granularity] → InObject (.rollup r) (.val v)
  | scope (s v) : v ∈ [s.orgIds, s.projectIds, s.useCaseId] → InObject (.scope s) (.val v)
  | item (s xs x d) : MSeq s xs → x ∈ xs → InObject x d → InObject s d
  | data (d e) : InData d e → InObject (.data d) e

/-- A property of all values in nested structures. -/
def DataAll (P : Val → Prop) (d : Data) : Prop := ∀ v, InData d (.val v) → P v

/-- A property of all values that an object consists of. -/
def Entirely (P : Val → Prop) (x : MVal) : Prop := ∀ v, InObject x (.val v) → P v

/-- No dictionary in a structure has a key twice (Python has no other dictionaries). -/
def KeysOnce (d : Data) : Prop := ∀ kvs, InData d (.dict kvs) → (kvs.map Prod.fst).Nodup

/-- No dictionary in an object has a key twice. -/
def Keyed (x : MVal) : Prop := ∀ kvs, InObject x (.dict kvs) → (kvs.map Prod.fst).Nodup

/-- The fields of a metrics query. -/
def fieldsOf (q : MetricsQueryObj) : List MVal :=
  [q.query, q.start, q.end_, q.rollup, q.scope, q.limit, q.offset, q.extrapolate, q.indexerMappings]

/-- A property of all values that a metrics query consists of. -/
def Everywhere (P : Val → Prop) (q : MetricsQueryObj) : Prop := ∀ x ∈ fieldsOf q, Entirely P x

/-- `None`, an int, a float or a string, of which `str` shows everything. -/
inductive Showable : Val → Prop
  | none : Showable .none
  | int (i) : Showable (.int i)
  | float (f) : Showable (.float f)
  | str (s) : Showable (.str s)

/-- A timeseries, formula or value for which a formula writes nothing but the texts of showable values with `str`. -/
inductive Legible : MVal → Prop
  | val (v) : Showable v → Legible (.val v)
  | ts (t) : Showable t.aggregate → Legible (.ts t)
  | formula (n p a f g) : Showable n → (∀ v, p = .val v → Showable v) → (∀ xs, MSeq p xs → ∀ x ∈ xs, Legible x) →
      (∀ k xs, SeqOf a k xs → ∀ x ∈ xs, Showable x) → Legible (.formula n p a f g)

/-- `None` or a bool. -/
inductive Switch : Val → Prop
  | none : Switch .none
  | bool (b) : Switch (.bool b)

/-- A metrics query of which equality tells everything: no number in it is disguised as a number of another class, where it matters. -/
structure Ordinarily (q : MetricsQueryObj) : Prop where
  query : Entirely Ordinary q.query
  legible : Legible q.query
  rollup : ∀ r, q.rollup = .rollup r → Ordinary r.interval ∧ Ordinary r.granularity ∧ Switch r.totals
  scope : ∀ s, q.scope = .scope s → Ordinary s.orgIds ∧ Ordinary s.projectIds

/-- The moment in microseconds, in local time. -/
def IsoMoment.micros (m : IsoMoment) : Int :=
  (instant m.date.1 m.date.2.1 m.date.2.2 m.time.1 m.time.2.1 m.time.2.2.1 m.time.2.2.2 : Nat)

/-- Both moments are local times and the same, or both have an offset from UTC and are the same instant. -/
def SameMoment (a b : IsoMoment) : Prop :=
  (a.offset = none ∧ b.offset = none ∧ a.micros = b.micros) ∨
  ∃ x y, a.offset = some x ∧ b.offset = some y ∧ a.micros - x = b.micros - y

/-- Two contexts say the same. -/
structure SameContext (c d : Context) : Prop where
  start : SameMoment c.start d.start
  end_ : SameMoment c.end_ d.end_
  ascending : c.ascending = d.ascending
  granularity : pyEq c.granularity d.granularity = true
  interval : pyEq c.interval d.interval = true
  totals : c.totals = d.totals
  orgIds : pyEq c.orgIds d.orgIds = true
  projectIds : pyEq c.projectIds d.projectIds = true
  useCaseId : pyEq c.useCaseId d.useCaseId = true
  limit : pyEq c.limit d.limit = true
  offset : pyEq c.offset d.offset = true
  extrapolate : c.extrapolate = d.extrapolate
  mappings : c.mappings.pyEq d.mappings = true

/-- Two serialised metrics queries: the texts of the queries are the same, and the contexts say the same. -/
def SameSent (d e : Data) : Prop :=
  ∃ text x y c c', d = .dict [(c!"mql", .val (.str text)), (c!"mql_context", x)] ∧ e = .dict [(c!"mql", .val (.str text)), (c!"mql_context", y)] ∧
    readContext x = some c ∧ readContext y = some c' ∧ SameContext c c'

end Verif.Spec
