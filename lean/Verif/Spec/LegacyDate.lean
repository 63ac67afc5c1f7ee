import Verif.Py.Strptime

/-!
# Specification: the accepted date texts of the legacy API

Which strings stand for which moments: `YYYY-MM-DDTHH:MM:SS`, possibly with a fraction of a second, or with an offset from UTC. The
numbers of the month, the day, the hour, the minute and the second may have one digit instead of two.
-/

namespace Verif.Spec

variable [D : PyDecimal]

/-- A text of decimal digits, and the number it denotes. -/
def Number (t : Str) (n : Nat) : Prop :=
  ∃ ds : List Nat, t.map D.value = ds.map some ∧ ds.foldl (fun a d => 10 * a + d) 0 = n

omit D in
/-- All characters are ASCII digits. -/
def AsciiDigits (t : Str) : Prop := ∀ c ∈ t, '0' ≤ c ∧ c ≤ '9'

omit D in
/-- The text begins with one of the given characters. -/
def BeginsWith (cs : List Char) (t : Str) : Prop := ∃ c r, t = c :: r ∧ c ∈ cs

omit D in
/-- One or two characters. -/
def Short (t : Str) : Prop := t.length = 1 ∨ t.length = 2

/-- A year: four digits. -/
def YearText (t : Str) (n : Nat) : Prop := t.length = 4 ∧ Number t n

/-- A month: one or two ASCII digits, from 1 to 12. -/
def MonthText (t : Str) (n : Nat) : Prop := Short t ∧ AsciiDigits t ∧ Number t n ∧ 1 ≤ n ∧ n ≤ 12

/-- A day: one or two digits, from 1 to 31; the second digit of 10, …, 29 need not be ASCII. A single digit may come after a
blank. -/
def DayText (t : Str) (n : Nat) : Prop :=
  (Short t ∧ (AsciiDigits t ∨ (t.length = 2 ∧ BeginsWith ['1', '2'] t)) ∧ Number t n ∧ 1 ≤ n ∧ n ≤ 31) ∨
  (∃ c, t = [' ', c] ∧ AsciiDigits [c] ∧ Number [c] n ∧ 1 ≤ n)

/-- An hour: one or two digits, up to 23; a single digit and the second digit of 00, …, 19 need not be ASCII. -/
def HourText (t : Str) (n : Nat) : Prop :=
  Short t ∧ (AsciiDigits t ∨ t.length = 1 ∨ BeginsWith ['0', '1'] t) ∧ Number t n ∧ n ≤ 23

/-- A minute or a second: one or two digits, up to 59; of two digits the first is ASCII. -/
def SixtyText (t : Str) (n : Nat) : Prop :=
  Short t ∧ (t.length = 1 ∨ BeginsWith ['0', '1', '2', '3', '4', '5'] t) ∧ Number t n ∧ n ≤ 59

/-- A date and a time of day. The mark between them may be a small `t`. -/
def MomentText (t : Str) (y m d h mi s : Nat) : Prop :=
  ∃ ty tm td mark th tmi ts, t = ty ++ '-' :: tm ++ '-' :: td ++ mark :: th ++ ':' :: tmi ++ ':' :: ts ∧
    YearText ty y ∧ MonthText tm m ∧ DayText td d ∧ (mark = 'T' ∨ mark = 't') ∧ HourText th h ∧ SixtyText tmi mi ∧ SixtyText ts s

/-- A fraction of a second: one to six digits; the microseconds. -/
def MicrosText (t : Str) (us : Nat) : Prop :=
  ∃ n, 1 ≤ t.length ∧ t.length ≤ 6 ∧ Number t n ∧ us = n * 10 ^ (6 - t.length)

/-- Two digits, the first one an ASCII digit up to 5. -/
def TwoDigitsText (t : Str) (n : Nat) : Prop := t.length = 2 ∧ BeginsWith ['0', '1', '2', '3', '4', '5'] t ∧ Number t n

/-- The size of an offset from UTC in microseconds: hours and minutes, possibly seconds, possibly a fraction; either all separated or
none. -/
inductive OffsetText (sep : Str) : Str → Nat → Prop
  | minutes {th tm : Str} {h m : Nat} : th.length = 2 → Number th h → TwoDigitsText tm m →
      OffsetText sep (th ++ sep ++ tm) ((h * 60 + m) * 60 * 1000000)
  | seconds {th tm ts : Str} {h m s : Nat} : th.length = 2 → Number th h → TwoDigitsText tm m → TwoDigitsText ts s →
      OffsetText sep (th ++ sep ++ tm ++ sep ++ ts) (((h * 60 + m) * 60 + s) * 1000000)
  | micros {th tm ts tf : Str} {h m s us : Nat} : th.length = 2 → Number th h → TwoDigitsText tm m → TwoDigitsText ts s →
      MicrosText tf us → OffsetText sep (th ++ sep ++ tm ++ sep ++ ts ++ '.' :: tf) (((h * 60 + m) * 60 + s) * 1000000 + us)

/-- An offset from UTC in microseconds. After a plus sign, colons are ignored wherever they are. -/
inductive ZoneText : Str → Int → Prop
  | utc : ZoneText ['Z'] 0
  | plus {t : Str} {n : Nat} : OffsetText [] (t.filter (· ≠ ':')) n → ZoneText ('+' :: t) n
  | minus {t : Str} {n : Nat} : OffsetText [] t n → ZoneText ('-' :: t) (-(n : Int))
  | minusColons {t : Str} {n : Nat} : OffsetText [':'] t n → ZoneText ('-' :: t) (-(n : Int))

/-- The datetime that a text stands for. (A `Datetime` is an existing day with an offset of less than a day.) -/
inductive LegacyDate : Str → Datetime → Prop
  | plain {s : Str} {t : Datetime} : MomentText s t.date.y t.date.m t.date.d t.h t.mi t.s → t.us = 0 → t.tz = none → LegacyDate s t
  | fraction {s f : Str} {t : Datetime} : MomentText s t.date.y t.date.m t.date.d t.h t.mi t.s → AsciiDigits f → MicrosText f t.us →
      t.tz = none → LegacyDate (s ++ '.' :: f) t
  | zone {s z : Str} {t : Datetime} {off : Int} : MomentText s t.date.y t.date.m t.date.d t.h t.mi t.s → t.us = 0 → ZoneText z off →
      t.tz = some (some off) → LegacyDate (s ++ z) t

end Verif.Spec
