import Verif.Model.Val

/-!
# Specification: plain scalar values
-/

namespace Verif.Spec

/-- Values made of literals and arbitrarily nested lists and tuples of them. -/
inductive Plain : Val → Prop
  | none : Plain .none
  | bool (b : Bool) : Plain (.bool b)
  | int (i : Int) : Plain (.int i)
  | float (f : PyFloat) : Plain (.float f)
  | str (s : Str) : Plain (.str s)
  | bytes (bs : List UInt8) : Plain (.bytes bs)
  | date (d : Date) : Plain (.date d)
  | datetime (d : Datetime) : Plain (.datetime d)
  | list (xs : List Val) : (∀ x ∈ xs, Plain x) → Plain (.list xs)
  | tuple (xs : List Val) : (∀ x ∈ xs, Plain x) → Plain (.tuple xs)

end Verif.Spec
