import Verif.Spec.Literal
import Verif.Spec.Moment

/-!
# Specification: the parts of a value
-/

namespace Verif.Spec

/-- `x` is the value `v` or a part of it at some depth. -/
inductive Part (x : Val) : Val → Prop
  | here : Part x x
  | list (xs y) : y ∈ xs → Part x y → Part x (.list xs)
  | tuple (xs y) : y ∈ xs → Part x y → Part x (.tuple xs)
  | init (f n ik is pk ps a y) : y ∈ is → Part x y → Part x (.curried f n ik is pk ps a)
  | param (f n ik is pk ps a y) : y ∈ ps → Part x y → Part x (.curried f n ik is pk ps a)
  | body (k ids b) : Part x b → Part x (.lam k ids b)
  | lhs (l o r) : Part x l → Part x (.cond l o r)
  | rhs (l o r) : Part x r → Part x (.cond l o r)
  | item (c o k cs y) : y ∈ cs → Part x y → Part x (.boolCond c o k cs)
  | ordered (e d) : Part x e → Part x (.orderby e d)

/-- The values that have no text: bytes that are not UTF-8, datetimes without UTC equivalent in the years 1 to
9999, and `Extrapolate` objects. -/
def Unprintable (x : Val) : Prop :=
  (∃ bs, x = .bytes bs ∧ ¬ ∃ s, IsUtf8 bs s) ∨
  (∃ t, x = .datetime t ∧ ¬ ∃ n, utcInstant t = some n ∧ Representable n) ∨
  (∃ b, x = .extrapolate b)

/-- No part of the value is unprintable. -/
def Clean (v : Val) : Prop := ∀ x, Part x v → ¬ Unprintable x

end Verif.Spec
