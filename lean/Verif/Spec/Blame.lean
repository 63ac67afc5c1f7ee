import Verif.Spec.Part
import Verif.Py.Err

/-!
# Specification: why a value has no text
-/

namespace Verif.Spec

/-- The exception that a value without text causes: bytes that are not UTF-8, datetimes whose UTC time is outside of the years 1 to
9999, datetimes with a time zone that does not know its offset, and `Extrapolate` objects. -/
inductive Blames : Err → Val → Prop
  | bytes (bs) : (¬ ∃ s, IsUtf8 bs s) → Blames .unicodeDecodeError (.bytes bs)
  | range (t) (n : Int) : utcInstant t = some n → ¬ Representable n → Blames .overflowError (.datetime t)
  | offset (t) : utcInstant t = none → Blames .assertion (.datetime t)
  | extrapolate (b) : Blames .assertion (.extrapolate b)

end Verif.Spec
