import Verif.Py.Date

/-!
# `datetime.strptime` for the formats of snuba_sdk/legacy.py

Transcription of CPython 3.11 `_strptime.py` (the patterns of `TimeRE.__init__` and the code of `_strptime` and
`_strptime_datetime`) for the directives `%Y %m %d %H %M %S %f %z` in the three formats of snuba_sdk/legacy.py:55.
The compiled patterns are alternatives read from left to right. Between two directives there is always a character that is
no digit, so that a shorter alternative never succeeds after a longer one has failed later on; hence the
readers commit to the first alternative that matches. `ValueError` is `none`.
-/

namespace Verif

/-- The decimal digits that `\d` of Python's `re` (unicode mode) and `int` accept, with their values (`_strptime.py`,
`TimeRE`). The table depends on the Python version; it is only known on ASCII. -/
class PyDecimal where
  value : Char → Option Nat
  ascii : ∀ c : Char, c.toNat < 128 → value c = if isDigit c then some (c.toNat - 48) else none
  small : ∀ c n, value c = some n → n < 10

/-- The ASCII digits only: shows that the class is inhabited; used in examples. -/
@[reducible] def asciiDecimal : PyDecimal where
  value c := if isDigit c then some (c.toNat - 48) else none
  ascii _ _ := rfl
  small c n h := by
    split at h
    · rename_i hd
      simp only [isDigit, Bool.and_eq_true, decide_eq_true_eq] at hd
      have h1 : c.val.toNat ≤ 57 := hd.2
      have h2 : c.val.toNat - 48 = n := Option.some.inj h
      omega
    · cases h

variable [D : PyDecimal]

omit D in
/-- A class `[lo-hi]` of ASCII digits (`_strptime.py`, `TimeRE.__init__`), with the value of the digit. -/
def digitIn (lo hi : Nat) (c : Char) : Option Nat :=
  if isDigit c && decide (lo ≤ c.toNat - 48) && decide (c.toNat - 48 ≤ hi) then some (c.toNat - 48) else none

omit D in
/-- One character of a class; the number it stands for (`_strptime.py`). -/
def readOne (a : Char → Option Nat) : Str → Option (Nat × Str)
  | c :: s => match a c with
    | some n => some (n, s)
    | none => none
  | [] => none

omit D in
/-- Two characters, one of each class; the number they stand for (`_strptime.py`). -/
def readTwo (a b : Char → Option Nat) : Str → Option (Nat × Str)
  | c :: d :: s => match a c, b d with
    | some m, some n => some (10 * m + n, s)
    | _, _ => none
  | _ => none

/-- `%Y`: `\d\d\d\d`. -/
def readYear : Str → Option (Nat × Str)
  | a :: b :: c :: d :: s => match D.value a, D.value b, D.value c, D.value d with
    | some i, some j, some k, some l => some (1000 * i + 100 * j + 10 * k + l, s)
    | _, _, _, _ => none
  | _ => none

omit D in
/-- `%m`: `1[0-2]|0[1-9]|[1-9]`. -/
def readMonth (s : Str) : Option (Nat × Str) :=
  (readTwo (digitIn 1 1) (digitIn 0 2) s).or ((readTwo (digitIn 0 0) (digitIn 1 9) s).or (readOne (digitIn 1 9) s))

omit D in
/-- The last alternative of `%d`: ` [1-9]`. -/
def readBlankDay : Str → Option (Nat × Str)
  | ' ' :: s => readOne (digitIn 1 9) s
  | _ => none

/-- `%d`: `3[0-1]|[1-2]\d|0[1-9]|[1-9]| [1-9]`. -/
def readDay (s : Str) : Option (Nat × Str) :=
  (readTwo (digitIn 3 3) (digitIn 0 1) s).or ((readTwo (digitIn 1 2) D.value s).or
    ((readTwo (digitIn 0 0) (digitIn 1 9) s).or ((readOne (digitIn 1 9) s).or (readBlankDay s))))

/-- `%H`: `2[0-3]|[0-1]\d|\d`. -/
def readHour (s : Str) : Option (Nat × Str) :=
  (readTwo (digitIn 2 2) (digitIn 0 3) s).or ((readTwo (digitIn 0 1) D.value s).or (readOne D.value s))

/-- `%M`: `[0-5]\d|\d`. -/
def readMinute (s : Str) : Option (Nat × Str) := (readTwo (digitIn 0 5) D.value s).or (readOne D.value s)

/-- `%S`: `6[0-1]|[0-5]\d|\d`. -/
def readSecond (s : Str) : Option (Nat × Str) :=
  (readTwo (digitIn 6 6) (digitIn 0 1) s).or ((readTwo (digitIn 0 5) D.value s).or (readOne D.value s))

omit D in
/-- A character of the format. The pattern is compiled with `IGNORECASE` (`_strptime.py`, `TimeRE.compile`), which matters for
the `T` only. -/
def readMark (m : Char) : Str → Option Str
  | c :: s => if c == m || (m == 'T' && c == 't') then some s else none
  | [] => none

/-- The fields of `%Y-%m-%dT%H:%M:%S`. -/
structure Fields where
  y : Nat
  m : Nat
  d : Nat
  h : Nat
  mi : Nat
  s : Nat

/-- The common part `%Y-%m-%dT%H:%M:%S` of the formats (snuba_sdk/legacy.py:55). -/
def readFields (t : Str) : Option (Fields × Str) := do
  let (y, t) ← readYear t
  let t ← readMark '-' t
  let (m, t) ← readMonth t
  let t ← readMark '-' t
  let (d, t) ← readDay t
  let t ← readMark 'T' t
  let (h, t) ← readHour t
  let t ← readMark ':' t
  let (mi, t) ← readMinute t
  let t ← readMark ':' t
  let (s, t) ← readSecond t
  some (⟨y, m, d, h, mi, s⟩, t)

omit D in
/-- Digits of a class, at most `w` of them: the value of the digits padded with zeros on the right to `w` digits, and the
rest (`[0-9]{1,6}`, `\d{1,6}` and the padding in `_strptime`). -/
def readPadded (a : Char → Option Nat) : Nat → Str → Nat × Str
  | 0, s => (0, s)
  | _ + 1, [] => (0, [])
  | w + 1, c :: s => match a c with
    | some n => (n * 10 ^ w + (readPadded a w s).1, (readPadded a w s).2)
    | none => (0, c :: s)

omit D in
/-- `.%f`, and the fraction `\.\d{1,6}` of `%z`: a point and one to six digits; the microseconds (`_strptime.py`). -/
def readFraction (a : Char → Option Nat) : Str → Option (Nat × Str)
  | '.' :: c :: s => match a c with
    | some _ => some (readPadded a 6 (c :: s))
    | none => none
  | _ => none

omit D in
/-- `:?` : whether there is a colon, and the rest. -/
def readColon : Str → Bool × Str
  | ':' :: s => (true, s)
  | s => (false, s)

/-- The seconds and their fraction in `%z`: `(:?[0-5]\d(\.\d{1,6})?)?`, given whether the hours and minutes were separated by
a colon; the microseconds and the rest. A colon here and none there, or the other way round, is a `ValueError`
(`_strptime`: "Inconsistent use of :", and `int` of a text with a colon). -/
def readZoneSeconds (colon : Bool) (s : Str) : Option (Nat × Str) :=
  match readTwo (digitIn 0 5) D.value (readColon s).2 with
  | none => some (0, s)
  | some (sec, s') =>
    if (readColon s).1 = colon then
      match readFraction D.value s' with
      | some (us, s'') => some (sec * 1000000 + us, s'')
      | none => some (sec * 1000000, s')
    else none

/-- The magnitude of a numeric `%z`: `\d\d:?[0-5]\d(:?[0-5]\d(\.\d{1,6})?)?`, in microseconds. -/
def readZoneSize (s : Str) : Option (Nat × Str) := do
  let (h, s) ← readTwo D.value D.value s
  let (m, r) ← readTwo (digitIn 0 5) D.value (readColon s).2
  let (us, r) ← readZoneSeconds (readColon s).1 r
  some ((h * 3600 + m * 60) * 1000000 + us, r)

/-- `%z`: `[+-]\d\d:?[0-5]\d(:?[0-5]\d(\.\d{1,6})?)?|(?-i:Z)`, the offset in microseconds. -/
def readZone : Str → Option (Int × Str)
  | '+' :: s => (readZoneSize s).map fun p => ((p.1 : Int), p.2)
  | '-' :: s => (readZoneSize s).map fun p => (-(p.1 : Int), p.2)
  | 'Z' :: s => some (0, s)
  | _ => none

omit D in
/-- `datetime(year, …, microsecond, tz)` with `timezone(timedelta(…))` (`_strptime_datetime`): `ValueError` for a day that does
not exist, for the seconds 60 and 61 and for an offset of a day or more. -/
def Fields.datetime (f : Fields) (us : Nat) (off : Option Int) : Option Datetime :=
  if hd : dateOk f.y f.m f.d = true then
    if ht : timeOk f.h f.mi f.s us (off.map some) = true then some ⟨⟨f.y, f.m, f.d, hd⟩, f.h, f.mi, f.s, us, off.map some, ht⟩
    else none
  else none

/-- `datetime.strptime(s, "%Y-%m-%dT%H:%M:%S.%f")`. -/
def strptimeFraction (s : Str) : Option Datetime := do
  let (f, s) ← readFields s
  let (us, s) ← readFraction (digitIn 0 9) s
  if s.isEmpty then f.datetime us none else none

/-- `datetime.strptime(s, "%Y-%m-%dT%H:%M:%S%z")`. -/
def strptimeZone (s : Str) : Option Datetime := do
  let (f, s) ← readFields s
  let (off, s) ← readZone s
  if s.isEmpty then f.datetime 0 (some off) else none

/-- `datetime.strptime(s, "%Y-%m-%dT%H:%M:%S")`. -/
def strptimePlain (s : Str) : Option Datetime := do
  let (f, s) ← readFields s
  if s.isEmpty then f.datetime 0 none else none

end Verif
