import Verif.Model.SetOrder
import Verif.Model.PyEq

/-!
# What is known of the order in which Python visits a set
-/

namespace Verif.Spec

/-- A loop over a set into which the items `xs` were put sees the items `ys`: nothing but items put in, and for
each item that was put in either the item or one that is equal to it under `==` (a set keeps one of
several equal items, and which one is not used here; nor is used that each is seen once). -/
def SeesSet {α : Type} (eq : α → α → Bool) (xs ys : List α) : Prop :=
  (∀ y ∈ ys, y ∈ xs) ∧ ∀ x ∈ xs, ∃ y ∈ ys, y = x ∨ eq y x = true

/-- Orders that Python can produce, whatever the hashes are. -/
structure PossibleOrders (σ : SetOrders) : Prop where
  columns : ∀ xs, SeesSet ColumnObj.pyEq xs (σ.columns xs)
  aliases : ∀ xs, SeesSet (fun _ _ => false) xs (σ.aliases xs)
  aliasDict : ∀ xs, SeesSet (fun _ _ => false) xs (σ.aliasDict xs)
  entities : ∀ xs, SeesSet EntityObj.pyEq xs (σ.entities xs)
  required : ∀ xs, SeesSet (fun _ _ => false) xs (σ.required xs)
  ops : ∀ xs, SeesSet (fun _ _ => false) xs (σ.ops xs)
  flags : ∀ xs, SeesSet (fun _ _ => false) xs (σ.flags xs)

end Verif.Spec
