import Verif.Spec.Date
import Verif.Model.Val

/-!
# Specification: instants
-/

namespace Verif.Spec

/-- The instant a datetime denotes, in microseconds UTC (0000-12-31T00:00:00 being 0); a naive
datetime is taken as UTC. `none` if the tzinfo has no offset. -/
def utcInstant (t : Datetime) : Option Int :=
  match t.tz with
  | none => some (instant t.date.y t.date.m t.date.d t.h t.mi t.s t.us)
  | some none => none
  | some (some off) => some (instant t.date.y t.date.m t.date.d t.h t.mi t.s t.us - off)

/-- An instant that a naive datetime of the years 1 to 9999 can express. -/
def Representable (n : Int) : Prop := minInstant ≤ n ∧ n ≤ maxInstant

end Verif.Spec
