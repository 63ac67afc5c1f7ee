import Verif.Spec.Construct
import Verif.Model.Query

/-!
# Specification: columns occurring in an expression
-/

namespace Verif.Spec

/-- Column `c` occurs in a value, outside list and tuple values. (The right-hand side of a unary
condition is not part of the condition.) -/
inductive Occurs (c : ColumnObj) : Val → Prop
  | column : Occurs c (.column c)
  | aliased (a) : Occurs c (.aliased c a)
  | init (f n ik is pk ps a v) : v ∈ is → Occurs c v → Occurs c (.curried f n ik is pk ps a)
  | param (f n ik is pk ps a v) : v ∈ ps → Occurs c v → Occurs c (.curried f n ik is pk ps a)
  | lam (k is b) : Occurs c b → Occurs c (.lam k is b)
  | condL (l o r) : Occurs c l → Occurs c (.cond l o r)
  | condR (l o r) : o ≠ .isNull → o ≠ .isNotNull → Occurs c r → Occurs c (.cond l o r)
  | bool (cls o k cs v) : v ∈ cs → Occurs c v → Occurs c (.boolCond cls o k cs)
  | orderby (e d) : Occurs c e → Occurs c (.orderby e d)
  | limitby (k cs n) : c ∈ cs → Occurs c (.limitby k cs n)

/-- Column `c` occurs in a clause holding a list or tuple of expressions. -/
def OccursInList (c : ColumnObj) (v : Val) : Prop := ∃ k xs, SeqOf v k xs ∧ ∃ x ∈ xs, Occurs c x

/-- Column `c` occurs in one of the clauses of a query (not in its match). -/
def OccursInBody (c : ColumnObj) (b : Body) : Prop :=
  OccursInList c b.select ∨ OccursInList c b.groupby ∨ OccursInList c b.arrayJoin ∨
  OccursInList c b.where_ ∨ OccursInList c b.having ∨ OccursInList c b.orderby ∨
  Occurs c b.limitby ∨ Occurs c b.limit ∨ Occurs c b.offset ∨ Occurs c b.granularity ∨ Occurs c b.totals

end Verif.Spec
