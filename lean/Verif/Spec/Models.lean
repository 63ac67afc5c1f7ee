import Verif.Spec.Columns
import Verif.Spec.Equal
import Verif.Spec.Query

/-!
# Specification: queries that differ in their data models only
-/

namespace Verif.Spec

/-- The entity with another data model. -/
def remodelEntity (f : Option DataModel → Option DataModel) (e : EntityObj) : EntityObj := { e with dataModel := f e.dataModel }

/-- The column with another data model of its entity. -/
def remodelColumn (f : Option DataModel → Option DataModel) (c : ColumnObj) : ColumnObj :=
  { c with entity := c.entity.map (remodelEntity f) }

/-- The relationship with other data models of its entities. -/
def remodelRel (f : Option DataModel → Option DataModel) (r : RelObj) : RelObj :=
  { r with lhs := remodelEntity f r.lhs, rhs := remodelEntity f r.rhs }

mutual
/-- The same value, with `f` applied to the data model of every entity and storage in it. -/
def remodel (f : Option DataModel → Option DataModel) : Val → Val
  | .list xs => .list (remodelAll f xs)
  | .tuple xs => .tuple (remodelAll f xs)
  | .column c => .column (remodelColumn f c)
  | .curried isFn n ik is pk ps a => .curried isFn n ik (remodelAll f is) pk (remodelAll f ps) a
  | .lam k ids b => .lam k ids (remodel f b)
  | .aliased c a => .aliased (remodelColumn f c) a
  | .cond l o r => .cond (remodel f l) o (remodel f r)
  | .boolCond cls o k cs => .boolCond cls o k (remodelAll f cs)
  | .orderby e d => .orderby (remodel f e) d
  | .limitby k cs n => .limitby k (cs.map (remodelColumn f)) n
  | .entity e => .entity (remodelEntity f e)
  | .storage s => .storage { s with dataModel := f s.dataModel }
  | .rel r => .rel (remodelRel f r)
  | .join k rs => .join k (rs.map (remodelRel f))
  | v => v

/-- The same for each of several values. -/
def remodelAll (f : Option DataModel → Option DataModel) : List Val → List Val
  | [] => []
  | x :: xs => remodel f x :: remodelAll f xs
end

/-- The same for all clauses. -/
def remodelBody (f : Option DataModel → Option DataModel) (b : Body) : Body where
  select := remodel f b.select
  groupby := remodel f b.groupby
  arrayJoin := remodel f b.arrayJoin
  where_ := remodel f b.where_
  having := remodel f b.having
  orderby := remodel f b.orderby
  limitby := remodel f b.limitby
  limit := remodel f b.limit
  offset := remodel f b.offset
  granularity := remodel f b.granularity
  totals := remodel f b.totals

/-- The same for a query and its subqueries. -/
def remodelQuery (f : Option DataModel → Option DataModel) : Query → Query
  | .base m b => .base (remodel f m) (remodelBody f b)
  | .nested q b => .nested (remodelQuery f q) (remodelBody f b)

/-- Nothing has a data model. -/
def noModel : Option DataModel → Option DataModel := fun _ => none

/-- No data model is invented, and a data model is dropped or replaced by one that has all of its columns. -/
structure Widens (f : Option DataModel → Option DataModel) : Prop where
  none : f none = none
  some : ∀ d d', f (some d) = some d' → ∀ x ∈ d.columns, ∃ y ∈ d'.columns, y.name = x.name

/-- The name under which a column is looked up in a data model: that of the mapping for a subscript. -/
def lookedUp (c : ColumnObj) : Str :=
  match c.subscriptable with
  | some (x :: s) => x :: s
  | _ => c.name

/-- The data model has the column. -/
def Knows (d : DataModel) (c : ColumnObj) : Prop := ∃ x ∈ d.columns, x.name = lookedUp c

/-- The data model of the value that is matched. -/
inductive ModelOf : Val → DataModel → Prop
  | entity (e : EntityObj) (d : DataModel) : e.dataModel = some d → ModelOf (.entity e) d
  | storage (s : StorageObj) (d : DataModel) : s.dataModel = some d → ModelOf (.storage s) d

/-- The columns that are listed in the clauses are in the data models of their own entities. -/
def OwnModels (b : Body) : Prop := ∀ c e d, HasItem b (.column c) → c.entity = some e → e.dataModel = some d → Knows d c

/-- The query and its subqueries use known columns only: each column in the clauses of a query on an entity or a storage is in its
data model, and the columns that are listed are in the data models of their own entities. -/
def Conforms : Query → Prop
  | .base m b => OwnModels b ∧ ∀ d c, ModelOf m d → OccursInBody c b → Knows d c
  | .nested q b => Conforms q ∧ OwnModels b

/-- The same columns and the same time column. -/
inductive SameModel : Option DataModel → Option DataModel → Prop
  | none : SameModel none none
  | some (d d' : DataModel) : (∀ x, x ∈ d.columns ↔ x ∈ d'.columns) → d.timeColumn = d'.timeColumn → SameModel (some d) (some d')

/-- `f` makes no two data models of the same entity, or of the same storage, equal or different in this value. -/
structure Distinguishes (f : Option DataModel → Option DataModel) (v : Val) : Prop where
  entities : ∀ x y e e', Part x v → Part y v → e ∈ ownEntities x → e' ∈ ownEntities y → e.name = e'.name → e.alias = e'.alias →
    (SameModel (f e.dataModel) (f e'.dataModel) ↔ SameModel e.dataModel e'.dataModel)
  storages : ∀ s s', Part (.storage s) v → Part (.storage s') v → s.name = s'.name →
    (SameModel (f s.dataModel) (f s'.dataModel) ↔ SameModel s.dataModel s'.dataModel)

/-- Each entity and each storage that is named in this value has one data model, or none. -/
structure OneModelEach (v : Val) : Prop where
  entities : ∀ x y e e', Part x v → Part y v → e ∈ ownEntities x → e' ∈ ownEntities y → e.name = e'.name → e.alias = e'.alias →
    e.dataModel = e'.dataModel
  storages : ∀ s s', Part (.storage s) v → Part (.storage s') v → s.name = s'.name → s.dataModel = s'.dataModel

end Verif.Spec
