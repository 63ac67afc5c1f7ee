import Verif.Py.Str

/-!
# Specification: calendar and the reading of date literals

Independent of CPython's closed formulas: days are counted year by year and month by month.
-/

namespace Verif.Spec

/-- Gregorian leap years. -/
def Leap (y : Nat) : Prop := 400 ∣ y ∨ (4 ∣ y ∧ ¬ 100 ∣ y)

instance (y : Nat) : Decidable (Leap y) := inferInstanceAs (Decidable (_ ∨ _))

/-- Number of days of a month. -/
def monthLength (y m : Nat) : Nat :=
  match m with
  | 4 | 6 | 9 | 11 => 30
  | 2 => if Leap y then 29 else 28
  | _ => 31

/-- Number of days of a year. -/
def yearLength (y : Nat) : Nat := if Leap y then 366 else 365

/-- Days of the years 1, …, y - 1. -/
def daysOfYearsBefore : Nat → Nat
  | 0 => 0
  | 1 => 0
  | y + 2 => daysOfYearsBefore (y + 1) + yearLength (y + 1)

/-- Days of the months 1, …, m - 1 of a year. -/
def daysOfMonthsBefore (y : Nat) : Nat → Nat
  | 0 => 0
  | 1 => 0
  | m + 2 => daysOfMonthsBefore y (m + 1) + monthLength y (m + 1)

/-- The number of a day, 0001-01-01 being day 1. -/
def dayNumber (y m d : Nat) : Nat := daysOfYearsBefore y + daysOfMonthsBefore y m + d

/-- Microseconds of a naive date and time (0000-12-31T00:00:00 being 0). -/
def instant (y m d h mi s us : Nat) : Nat :=
  (((dayNumber y m d * 24 + h) * 60 + mi) * 60 + s) * 1000000 + us

/-- The first and the last representable instant: 0001-01-01T00:00:00 and
9999-12-31T23:59:59.999999. -/
def minInstant : Nat := instant 1 1 1 0 0 0 0
/-- See `minInstant`. -/
def maxInstant : Nat := instant 9999 12 31 23 59 59 999999

/-! ### Reading -/

/-- Read exactly `w` decimal digits. -/
def readDigits : Nat → Nat → Str → Option (Nat × Str)
  | 0, acc, s => some (acc, s)
  | w + 1, acc, c :: s => if '0' ≤ c ∧ c ≤ '9' then readDigits w (acc * 10 + (c.toNat - 48)) s else none
  | _ + 1, _, [] => none

/-- Read a given text. -/
def readText : Str → Str → Option Str
  | [], s => some s
  | c :: cs, d :: s => if c = d then readText cs s else none
  | _ :: _, [] => none

/-- Read `YYYY-MM-DD`. -/
def readDate (s : Str) : Option ((Nat × Nat × Nat) × Str) := do
  let (y, s) ← readDigits 4 0 s
  let s ← readText c!"-" s
  let (m, s) ← readDigits 2 0 s
  let s ← readText c!"-" s
  let (d, s) ← readDigits 2 0 s
  some ((y, m, d), s)

/-- Read `HH:MM:SS` and an optional fraction of six digits; the number of microseconds. -/
def readTime (s : Str) : Option ((Nat × Nat × Nat × Nat) × Str) := do
  let (h, s) ← readDigits 2 0 s
  let s ← readText c!":" s
  let (mi, s) ← readDigits 2 0 s
  let s ← readText c!":" s
  let (sec, s) ← readDigits 2 0 s
  match s with
  | '.' :: s => do
    let (us, s) ← readDigits 6 0 s
    some ((h, mi, sec, us), s)
  | s => some ((h, mi, sec, 0), s)

/-- Read `toDateTime('…')` with a date and a time (nothing may follow); the instant in
microseconds, taking the fields as UTC. -/
def readDateTimeLit (s : Str) : Option Nat := do
  let s ← readText c!"toDateTime('" s
  let ((y, m, d), s) ← readDate s
  let s ← readText c!"T" s
  let ((h, mi, sec, us), s) ← readTime s
  if s = c!"')" then some (instant y m d h mi sec us) else none

/-- Read `toDateTime('…')` with a date only. -/
def readDateLit (s : Str) : Option (Nat × Nat × Nat) := do
  let s ← readText c!"toDateTime('" s
  let (ymd, s) ← readDate s
  if s = c!"')" then some ymd else none

end Verif.Spec
