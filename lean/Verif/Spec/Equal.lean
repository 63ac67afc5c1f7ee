import Verif.Spec.Part

/-!
# Specification: what matters for the equality of values
-/

namespace Verif.Spec

/-- The entities that a value names itself (not through one of its parts). -/
def ownEntities : Val → List EntityObj
  | .column c => c.entity.toList
  | .aliased c _ => c.entity.toList
  | .limitby _ cs _ => cs.filterMap (·.entity)
  | .entity e => [e]
  | .rel r => [r.lhs, r.rhs]
  | .join _ rs => rs.flatMap fun r => [r.lhs, r.rhs]
  | _ => []

/-- The sampling rates that a value names itself. -/
def ownSamples : Val → List PyFloat
  | .storage s => s.sample.toList
  | v => (ownEntities v).filterMap (·.sample)

/-- No part of the value is NaN or is sampled at a rate of NaN. -/
def NoNans (v : Val) : Prop := ∀ x, Part x v → x ≠ .float .nan ∧ PyFloat.nan ∉ ownSamples x

/-- Every function in the value is a `Function` (not a `CurriedFunction`). -/
def OnlyFunctions (v : Val) : Prop := ∀ x, Part x v → ∀ isFn n ik is pk ps a, x = .curried isFn n ik is pk ps a → isFn = true

/-- No function in the value has an alias. -/
def NoAliases (v : Val) : Prop := ∀ x, Part x v → ∀ isFn n ik is pk ps a, x = .curried isFn n ik is pk ps a → a = none

/-- The number zero among the floats. -/
def IsZero (f : PyFloat) : Prop := ∃ d : Dbl, f = .fin d ∧ d.m = 0

/-- A value that is equal to a number of another class: a bool, a whole float, or a count that is a bool. -/
inductive Disguised : Val → Prop
  | bool (b) : Disguised (.bool b)
  | whole (d : Dbl) : 0 ≤ d.e → Disguised (.float (.fin d))
  | count (k cs b) : Disguised (.limitby k cs (.bool b))

/-- No part of the value is a number in disguise, has a sampling rate of zero, or is a datetime with a time zone that
does not know its offset. -/
def Ordinary (v : Val) : Prop :=
  ∀ x, Part x v → ¬ Disguised x ∧ (∀ f ∈ ownSamples x, ¬ IsZero f) ∧ ∀ t, x = .datetime t → t.tz ≠ some none

end Verif.Spec
