import Verif.Spec.Nearest
import Verif.Spec.Moment
import Verif.Model.Request

/-!
# Specification: which objects are equal
-/

namespace Verif.Spec

/-- A number on the extended line: a rational number, or one of the infinities (`neg` says which). -/
inductive Amount
  | fin (x : ℚ)
  | inf (neg : Bool)

/-- The number a float is, if it is one. -/
def floatAmount : PyFloat → Option Amount
  | .fin d => some (.fin (floatValue d))
  | .inf neg => some (.inf neg)
  | .nan => none

/-- The number that a value is, if it is one: `True` is 1 and `False` is 0. -/
def amountOf : Val → Option Amount
  | .bool b => some (.fin (if b then 1 else 0))
  | .int i => some (.fin i)
  | .float f => floatAmount f
  | _ => none

/-- The time on the clock in microseconds. -/
def clock (t : Datetime) : Int := (instant t.date.y t.date.m t.date.d t.h t.mi t.s t.us : Nat)

/-- Two datetimes show the same time and do not know their offset from UTC, or know it and are the same instant. -/
inductive EqualTime (a b : Datetime) : Prop
  | naive : (∀ x, a.tz ≠ some (some x)) → (∀ y, b.tz ≠ some (some y)) → clock a = clock b → EqualTime a b
  | aware (x y) : a.tz = some (some x) → b.tz = some (some y) → clock a - x = clock b - y → EqualTime a b

/-- Neither is given, or both are and are related. -/
inductive BothOr {α : Type} (R : α → α → Prop) : Option α → Option α → Prop
  | none : BothOr R none none
  | some (a b) : R a b → BothOr R (some a) (some b)

/-- Two lists are as long, and what is at the same place is related. -/
inductive Aligned {α : Type} (R : α → α → Prop) : List α → List α → Prop
  | nil : Aligned R [] []
  | cons (a b as bs) : R a b → Aligned R as bs → Aligned R (a :: as) (b :: bs)

/-- Sampling rates that are the same number. -/
def EqualRate (f g : PyFloat) : Prop := ∃ x, floatAmount f = some x ∧ floatAmount g = some x

/-- Data models with the same columns, in whatever order, and the same time column. -/
def EqualModel (a b : DataModel) : Prop := (∀ c, c ∈ a.columns ↔ c ∈ b.columns) ∧ a.timeColumn = b.timeColumn

/-- Entities with the same fields. -/
structure EqualEntity (a b : EntityObj) : Prop where
  name : a.name = b.name
  as : a.alias = b.alias
  sample : BothOr EqualRate a.sample b.sample
  model : BothOr EqualModel a.dataModel b.dataModel

/-- Storages with the same fields. -/
structure EqualStorage (a b : StorageObj) : Prop where
  name : a.name = b.name
  sample : BothOr EqualRate a.sample b.sample
  model : BothOr EqualModel a.dataModel b.dataModel

/-- Columns with the same fields. -/
structure EqualColumn (a b : ColumnObj) : Prop where
  name : a.name = b.name
  entity : BothOr EqualEntity a.entity b.entity
  subscriptable : a.subscriptable = b.subscriptable
  key : a.key = b.key

/-- Relationships with the same fields. -/
structure EqualRel (a b : RelObj) : Prop where
  lhs : EqualEntity a.lhs b.lhs
  name : a.name = b.name
  rhs : EqualEntity a.rhs b.rhs

mutual
/-- The same object: the same class and the same fields, but numbers of different classes may be the same number. The aliases
of two functions matter only if both are of the class `Function`. -/
inductive Equal : Val → Val → Prop
  | number (v w x) : amountOf v = some x → amountOf w = some x → Equal v w
  | none : Equal .none .none
  | str (s) : Equal (.str s) (.str s)
  | bytes (s) : Equal (.bytes s) (.bytes s)
  | date (d) : Equal (.date d) (.date d)
  | datetime (a b) : EqualTime a b → Equal (.datetime a) (.datetime b)
  | list (xs ys) : EqualAll xs ys → Equal (.list xs) (.list ys)
  | tuple (xs ys) : EqualAll xs ys → Equal (.tuple xs) (.tuple ys)
  | column (a b) : EqualColumn a b → Equal (.column a) (.column b)
  | curried (f g n ik is is' pk ps ps' x y) : EqualAll is is' → EqualAll ps ps' → (f = true → g = true → x = y) →
      Equal (.curried f n ik is pk ps x) (.curried g n ik is' pk ps' y)
  | ident (s) : Equal (.ident s) (.ident s)
  | lam (k is v w) : Equal v w → Equal (.lam k is v) (.lam k is w)
  | aliased (a b x) : EqualColumn a b → Equal (.aliased a x) (.aliased b x)
  | cond (l l' o r r') : Equal l l' → Equal r r' → Equal (.cond l o r) (.cond l' o r')
  | boolCond (c o k xs ys) : EqualAll xs ys → Equal (.boolCond c o k xs) (.boolCond c o k ys)
  | orderby (v w d) : Equal v w → Equal (.orderby v d) (.orderby w d)
  | limitby (k cs ds m n) : Aligned EqualColumn cs ds → m.toInt = n.toInt → Equal (.limitby k cs m) (.limitby k ds n)
  | limit (m n) : m.toInt = n.toInt → Equal (.limit m) (.limit n)
  | offset (m n) : m.toInt = n.toInt → Equal (.offset m) (.offset n)
  | granularity (m n) : m.toInt = n.toInt → Equal (.granularity m) (.granularity n)
  | totals (b) : Equal (.totals b) (.totals b)
  | extrapolate (b) : Equal (.extrapolate b) (.extrapolate b)
  | entity (a b) : EqualEntity a b → Equal (.entity a) (.entity b)
  | storage (a b) : EqualStorage a b → Equal (.storage a) (.storage b)
  | rel (a b) : EqualRel a b → Equal (.rel a) (.rel b)
  | join (k rs ss) : Aligned EqualRel rs ss → Equal (.join k rs) (.join k ss)
  | op (o) : Equal (.op o) (.op o)
  | boolOp (o) : Equal (.boolOp o) (.boolOp o)
  | direction (d) : Equal (.direction d) (.direction d)
  | dataModel (a b) : EqualModel a b → Equal (.dataModel a) (.dataModel b)
  | other (n) : Equal (.other n) (.other n)

/-- The same objects at the same places. -/
inductive EqualAll : List Val → List Val → Prop
  | nil : EqualAll [] []
  | cons (x y xs ys) : Equal x y → EqualAll xs ys → EqualAll (x :: xs) (y :: ys)
end

/-- Queries with the same match and the same clauses. -/
structure EqualBody (a b : Body) : Prop where
  select : Equal a.select b.select
  groupby : Equal a.groupby b.groupby
  arrayJoin : Equal a.arrayJoin b.arrayJoin
  where_ : Equal a.where_ b.where_
  having : Equal a.having b.having
  orderby : Equal a.orderby b.orderby
  limitby : Equal a.limitby b.limitby
  limit : Equal a.limit b.limit
  offset : Equal a.offset b.offset
  granularity : Equal a.granularity b.granularity
  totals : Equal a.totals b.totals

/-- Queries with the same clauses and the same match. -/
inductive EqualQuery : Query → Query → Prop
  | base (m m' b b') : Equal m m' → EqualBody b b' → EqualQuery (.base m b) (.base m' b')
  | nested (q q' b b') : EqualQuery q q' → EqualBody b b' → EqualQuery (.nested q b) (.nested q' b')

/-- Structures with the same values: the order of the entries of a dictionary does not matter. -/
inductive EqualData : Data → Data → Prop
  | val (v w) : Equal v w → EqualData (.val v) (.val w)
  | list (xs ys) : xs.length = ys.length → (∀ (i : Nat) (x y : Data), xs[i]? = some x → ys[i]? = some y → EqualData x y) →
      EqualData (.list xs) (.list ys)
  | dict (kvs kvs') : (∀ (k : Str), (∃ x, (k, x) ∈ kvs) ↔ ∃ y, (k, y) ∈ kvs') →
      (∀ (k : Str) (x y : Data), (k, x) ∈ kvs → (k, y) ∈ kvs' → EqualData x y) → EqualData (.dict kvs) (.dict kvs')

/-- Metrics with the same fields. -/
structure EqualMetric (a b : MetricObj) : Prop where
  publicName : Equal a.publicName b.publicName
  mri : Equal a.mri b.mri
  id : Equal a.id b.id

/-- The same object of the metrics layer: the same class and the same fields. -/
inductive EqualObject : MVal → MVal → Prop
  | val (v w) : Equal v w → EqualObject (.val v) (.val w)
  | metric (a b) : EqualMetric a b → EqualObject (.metric a) (.metric b)
  | ts (a b) : EqualMetric a.metric b.metric → Equal a.aggregate b.aggregate → Equal a.aggregateParams b.aggregateParams →
      Equal a.filters b.filters → Equal a.groupby b.groupby → EqualObject (.ts a) (.ts b)
  | formula (n n' p p' a a' f f' g g') : Equal n n' → EqualObject p p' → Equal a a' → Equal f f' → Equal g g' →
      EqualObject (.formula n p a f g) (.formula n' p' a' f' g')
  | rollup (a b) : Equal a.interval b.interval → Equal a.totals b.totals → Equal a.orderby b.orderby → Equal a.granularity b.granularity →
      EqualObject (.rollup a) (.rollup b)
  | scope (a b) : Equal a.orgIds b.orgIds → Equal a.projectIds b.projectIds → Equal a.useCaseId b.useCaseId → EqualObject (.scope a) (.scope b)
  | list (xs ys) : xs.length = ys.length → (∀ (i : Nat) (x y : MVal), xs[i]? = some x → ys[i]? = some y → EqualObject x y) →
      EqualObject (.list xs) (.list ys)
  | tuple (xs ys) : xs.length = ys.length → (∀ (i : Nat) (x y : MVal), xs[i]? = some x → ys[i]? = some y → EqualObject x y) →
      EqualObject (.tuple xs) (.tuple ys)
  | data (d e) : EqualData d e → EqualObject (.data d) (.data e)

/-- Metrics queries with the same fields. -/
structure EqualMetrics (a b : MetricsQueryObj) : Prop where
  query : EqualObject a.query b.query
  start : EqualObject a.start b.start
  end_ : EqualObject a.end_ b.end_
  rollup : EqualObject a.rollup b.rollup
  scope : EqualObject a.scope b.scope
  limit : EqualObject a.limit b.limit
  offset : EqualObject a.offset b.offset
  extrapolate : EqualObject a.extrapolate b.extrapolate
  indexerMappings : EqualObject a.indexerMappings b.indexerMappings

/-- Flags with the same values. -/
structure EqualFlags (a b : FlagsObj) : Prop where
  totals : Equal a.totals b.totals
  consistent : Equal a.consistent b.consistent
  turbo : Equal a.turbo b.turbo
  debug : Equal a.debug b.debug
  dryRun : Equal a.dryRun b.dryRun
  legacy : Equal a.legacy b.legacy

/-- Queries of the same class with the same fields. -/
inductive EqualAny : AnyQuery → AnyQuery → Prop
  | snql (q r) : EqualQuery q r → EqualAny (.snql q) (.snql r)
  | metrics (q r) : EqualMetrics q r → EqualAny (.metrics q) (.metrics r)
  | delete (q r) : EqualData q.storageName r.storageName → EqualData q.columnConditions r.columnConditions → EqualAny (.delete q) (.delete r)

/-- Requests with the same fields. -/
structure EqualRequest (a b : RequestObj) : Prop where
  dataset : EqualData a.dataset b.dataset
  appId : EqualData a.appId b.appId
  query : EqualAny a.query b.query
  flags : BothOr EqualFlags a.flags b.flags
  parentApi : EqualData a.parentApi b.parentApi
  tenantIds : EqualData a.tenantIds b.tenantIds

end Verif.Spec
