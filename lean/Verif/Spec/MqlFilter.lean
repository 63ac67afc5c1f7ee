import Verif.Model.Val

/-!
# Specification: filters of metrics queries
-/

namespace Verif.Spec

/-- The operator is a negated comparison. -/
def Negated (o : Op) : Prop := o = .neq ∨ o = .notIn ∨ o = .notLike

/-- The two lists correspond item by item. -/
inductive Pairwise {α β : Type} (R : α → β → Prop) : List α → List β → Prop
  | nil : Pairwise R [] []
  | cons {a b as bs} : R a b → Pairwise R as bs → Pairwise R (a :: as) (b :: bs)

/-- The right-hand sides are the same string, or sequences of the same strings. -/
inductive SameRhs : Val → Val → Prop
  | str (s) : SameRhs (.str s) (.str s)
  | seq {v w xs} : (v = .list xs ∨ v = .tuple xs) → (w = .list xs ∨ w = .tuple xs) → SameRhs v w

/-- The same comparison: same column name, same operator, same right-hand side; or the same Boolean combination of the
same comparisons. -/
inductive SameComparison : Val → Val → Prop
  | cond {c d o r s} : c.name = d.name → SameRhs r s → SameComparison (.cond (.column c) o r) (.cond (.column d) o s)
  | bool {cls cls' op k l cs ds} : Pairwise SameComparison cs ds →
      SameComparison (.boolCond cls op k cs) (.boolCond cls' op l ds)

end Verif.Spec
