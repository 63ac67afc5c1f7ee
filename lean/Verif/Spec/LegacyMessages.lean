import Verif.Spec.LegacyErrors
import Verif.Spec.BuildMessages
import Verif.Spec.QueryMessages
import Verif.Spec.Legacy

/-!
# Specification: what the exceptions of the conversion of a legacy body say
-/

namespace Verif.Spec

/-- The text of a date as it is shown: after the first plus sign the colons are missing. -/
inductive ShownDate : Str → Str → Prop
  | plain {s : Str} : '+' ∉ s → ShownDate s s
  | zone {a z : Str} : '+' ∉ a → ShownDate (a ++ '+' :: z) (a ++ '+' :: z.filter (· ≠ ':'))

/-- The constructors that a conversion calls: the entity is the one asked for, and columns have no entity. -/
inductive LegacyMade (entity : Str) : BuildCall → Prop
  | entity (s) : LegacyMade entity (.entity (.str entity) .none s .none)
  | column (v) : LegacyMade entity (.column v .none)
  | function (s ps a) : LegacyMade entity (.function (.str s) ps a)
  | condition (l o r) : LegacyMade entity (.condition l (.op o) r)
  | or (cs) : LegacyMade entity (.or (.list cs))
  | orderby (x d) : LegacyMade entity (.orderby x (.direction d))
  | limitby (c n) : LegacyMade entity (.limitby (.list [c]) (.int n))

/-- The clauses of a body that can be refused by the setter of the query: what is selected or grouped by, and the extras. -/
inductive LegacySet (b : LegacyBody) : Field → Val → Prop
  | select (xs) : LegacySet b .select (.list xs)
  | groupby (xs) : LegacySet b .groupby (.list xs)
  | limit (v) : ValueAt b c!"limit" v → v ≠ .none → LegacySet b .limit v
  | offset (v) : ValueAt b c!"offset" v → v ≠ .none → LegacySet b .offset v
  | granularity (v) : ValueAt b c!"granularity" v → v ≠ .none → LegacySet b .granularity v
  | totals (v) : ValueAt b c!"totals" v → v ≠ .none → LegacySet b .totals v

/-- Exceptions of Python itself, whose words are not looked at. -/
def OfPython (e : Err) : Prop :=
  e ∈ [.valueError, .typeError, .attributeError, .indexError, .keyError, .overflowError, .unboundLocalError]

/-- What the exception of a conversion can be. -/
inductive LegacySaid [PyShow] [PyText] [PyUnicode] [PyDecimal] (b : LegacyBody) (entity : Str) : Raised → Prop
  | made {c x t} : LegacyMade entity c → Refusal c x t → LegacySaid b entity (x, some t)
  | set {f v r} : LegacySet b f v → FirstUnmet (fieldDemands f v) r → LegacySaid b entity r
  | date {key s u c} : TimeColumn entity c → key ∈ [c!"from_date", c!"to_date"] → Has b key (.str s) → s ≠ [] → (∀ t, ¬ LegacyDate s t) →
      ShownDate s u → LegacySaid b entity (.valueError, some (u ++ c!" is not a recognized datetime"))
  | python {e} : OfPython e → LegacySaid b entity (e, none)

end Verif.Spec
