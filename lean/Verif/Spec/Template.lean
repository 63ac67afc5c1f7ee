import Verif.Model.Printer
import Verif.Spec.Construct
import Verif.Spec.Built
import Verif.Model.Metrics

/-!
# Specification: other values in the same query, and templates
-/

namespace Verif.Spec

mutual
/-- The same value, with `f` applied to every literal in it. Names are no values and stay. -/
def revalue (f : Val → Val) : Val → Val
  | .none => f .none
  | .bool b => f (.bool b)
  | .int i => f (.int i)
  | .float x => f (.float x)
  | .str s => f (.str s)
  | .bytes bs => f (.bytes bs)
  | .date d => f (.date d)
  | .datetime d => f (.datetime d)
  | .list xs => .list (revalueAll f xs)
  | .tuple xs => .tuple (revalueAll f xs)
  | .curried isFn n ik is pk ps a => .curried isFn n ik (revalueAll f is) pk (revalueAll f ps) a
  | .lam k ids b => .lam k ids (revalue f b)
  | .cond l o r => .cond (revalue f l) o (revalue f r)
  | .boolCond cls o k cs => .boolCond cls o k (revalueAll f cs)
  | .orderby e d => .orderby (revalue f e) d
  | v => v

/-- The same for each of several values. -/
def revalueAll (f : Val → Val) : List Val → List Val
  | [] => []
  | x :: xs => revalue f x :: revalueAll f xs
end

/-- The same for the items of a clause. -/
def revalueClause (f : Val → Val) : Val → Val
  | .list xs => .list (revalueAll f xs)
  | .tuple xs => .tuple (revalueAll f xs)
  | v => v

/-- The same for the clauses that consist of items. The other clauses hold one number or columns. -/
def revalueBody (f : Val → Val) (b : Body) : Body :=
  { b with
    select := revalueClause f b.select
    groupby := revalueClause f b.groupby
    arrayJoin := revalueClause f b.arrayJoin
    where_ := revalueClause f b.where_
    having := revalueClause f b.having
    orderby := revalueClause f b.orderby }

/-- The same for a query and its subqueries. -/
def revalueQuery (f : Val → Val) : Query → Query
  | .base m b => .base m (revalueBody f b)
  | .nested q b => .nested (revalueQuery f q) (revalueBody f b)

/-- `f` replaces literals by literals, and `None` by itself and nothing else by it. -/
structure Replaces (f : Val → Val) : Prop where
  literal : ∀ v, Literal v → Literal (f v)
  none : ∀ v, Literal v → (f v = .none ↔ v = .none)

/-- A piece of a template: fixed text, or a slot for the value that takes the place of `v`. -/
inductive Piece where
  | fixed (t : Str)
  | slot (v : Val)

/-- The text of a template when the slot of `v` is filled with `text v`. -/
def fill (text : Val → Str) : List Piece → Str
  | [] => []
  | .fixed t :: ps => t ++ fill text ps
  | .slot v :: ps => text v ++ fill text ps

/-- `text v` is the literal of `f v`, in SnQL or in MQL, for all slots of a template. -/
def Literals (mql : Bool) (f : Val → Val) (text : Val → Str) (ps : List Piece) : Prop :=
  ∀ v, .slot v ∈ ps → translate ⟨false, mql⟩ (f v) = .ok (text v)

/-- The template `ps` stands for `t`, and for the texts `print f` of the same thing with other values, for the replacements
that `may` allows: all slots are for literals, filled with the literals of these it is `t`, and filled with the literals of
other values it is the text for these values. -/
structure Stands (mql : Bool) (t : Str) (may : (Val → Val) → Prop) (print : (Val → Val) → Except Err Str) (ps : List Piece) : Prop where
  slots : ∀ v, .slot v ∈ ps → Literal v
  own : ∃ text, Literals mql id text ps ∧ t = fill text ps
  others : ∀ f text, Replaces f → may f → Literals mql f text ps → print f = .ok (fill text ps)

section
variable [PyUnicode]

/-- The items of the clauses that consist of items were made by the constructors. -/
def ItemsBuilt (b : Body) : Prop :=
  ∀ v ∈ [b.select, b.groupby, b.arrayJoin, b.where_, b.having, b.orderby], ∀ k xs, SeqOf v k xs → ∀ x ∈ xs, Built x

/-- The same for a query and its subqueries. -/
def AllItemsBuilt : Query → Prop
  | .base _ b => ItemsBuilt b
  | .nested q b => AllItemsBuilt q ∧ ItemsBuilt b

end

/-- The replacement makes no two left-hand sides in one OR equal or unequal. -/
def KeepsSides (f : Val → Val) (group : List Val) : Prop :=
  ∀ cls k cs l r l' r', .boolCond cls .or k cs ∈ group → .cond l .eq r ∈ cs → .cond l' .eq r' ∈ cs →
    pyEq (revalue f l) (revalue f l') = pyEq l l'

/-- The replacement keeps apart and together the left-hand sides of the conditions of a query that may be merged. -/
def KeepsWhere (q : Query) (f : Val → Val) : Prop := ∀ k xs, SeqOf q.body.where_ k xs → KeepsSides f xs

/-! ### Metrics queries -/

mutual
/-- The same timeseries or formula, with `f` applied to the literals in the filters, at all depths, and in the parameters of
the aggregates of timeseries. -/
def revalueMetric (f : Val → Val) : MVal → MVal
  | .ts t => .ts { t with aggregateParams := revalueClause f t.aggregateParams, filters := revalueClause f t.filters }
  | .formula n p a fs g => .formula n (revalueMetric f p) a (revalueClause f fs) g
  | .list xs => .list (revalueMetrics f xs)
  | .tuple xs => .tuple (revalueMetrics f xs)
  | v => v

/-- The same for each of several parameters. -/
def revalueMetrics (f : Val → Val) : List MVal → List MVal
  | [] => []
  | x :: xs => revalueMetric f x :: revalueMetrics f xs
end

section
variable [PyUnicode]

/-- The items of a clause were made by the constructors. -/
def ClauseBuilt (v : Val) : Prop := ∀ k xs, SeqOf v k xs → ∀ x ∈ xs, Built x

/-- A timeseries or formula whose parameters are lists or tuples of such and of plain values, and whose filters and
parameters of aggregates were made by the constructors. -/
inductive FiltersBuilt : MVal → Prop
  | ts (t) : ClauseBuilt t.aggregateParams → ClauseBuilt t.filters → FiltersBuilt (.ts t)
  | list (n xs a fs g) : (∀ x ∈ xs, FiltersBuilt x) → ClauseBuilt fs → FiltersBuilt (.formula n (.list xs) a fs g)
  | tuple (n xs a fs g) : (∀ x ∈ xs, FiltersBuilt x) → ClauseBuilt fs → FiltersBuilt (.formula n (.tuple xs) a fs g)
  | val (v) : FiltersBuilt (.val v)

end

end Verif.Spec
