import Verif.Py.Err

/-!
# `datetime.date` and `datetime.datetime`

Transcription of the pure-Python `datetime.py` algorithms of CPython (proleptic Gregorian calendar).
A datetime carries its UTC offset as `tz`: `none` for naive, `some none` for a tzinfo
whose `utcoffset()` is `None`, `some (some off)` for an offset in microseconds.  Not modelled: the
identity and name of the tzinfo object, `fold`.
-/

namespace Verif

/-- `calendar` leap year rule (CPython `datetime._is_leap`). -/
def isLeap (y : Nat) : Bool := y % 4 == 0 && (y % 100 != 0 || y % 400 == 0)

/-- CPython `datetime._days_in_month`. -/
def daysInMonth (y m : Nat) : Nat :=
  if m = 2 then (if isLeap y then 29 else 28)
  else if m = 4 ∨ m = 6 ∨ m = 9 ∨ m = 11 then 30 else 31

/-- CPython `datetime._DAYS_BEFORE_MONTH` for a common year. -/
def daysBeforeMonthTable : Nat → Nat
  | 1 => 0 | 2 => 31 | 3 => 59 | 4 => 90 | 5 => 120 | 6 => 151 | 7 => 181
  | 8 => 212 | 9 => 243 | 10 => 273 | 11 => 304 | 12 => 334 | _ => 0

/-- Field ranges checked by the `date` constructor (CPython `_check_date_fields`). -/
def dateOk (y m d : Nat) : Bool :=
  decide (1 ≤ y) && decide (y ≤ 9999) && decide (1 ≤ m) && decide (m ≤ 12) && decide (1 ≤ d) &&
  decide (d ≤ daysInMonth y m)

/-- `datetime.date`. -/
structure Date where
  y : Nat
  m : Nat
  d : Nat
  ok : dateOk y m d = true
  deriving DecidableEq

/-- Field ranges of the time part and of the offset (CPython `_check_time_fields`,
`_check_utc_offset`). -/
def timeOk (h mi s us : Nat) (tz : Option (Option Int)) : Bool :=
  decide (h < 24) && decide (mi < 60) && decide (s < 60) && decide (us < 1000000) &&
  (match tz with
    | some (some off) => decide (-86400000000 < off) && decide (off < 86400000000)
    | _ => true)

/-- `datetime.datetime`. -/
structure Datetime where
  date : Date
  h : Nat
  mi : Nat
  s : Nat
  us : Nat
  tz : Option (Option Int)
  ok : timeOk h mi s us tz = true
  deriving DecidableEq

/-- CPython `datetime._days_before_year`. -/
def daysBeforeYear (y : Nat) : Nat :=
  let p := y - 1
  p * 365 + p / 4 - p / 100 + p / 400

/-- CPython `datetime._ymd2ord`. -/
def ymd2ord (y m d : Nat) : Nat :=
  daysBeforeYear y + (daysBeforeMonthTable m + (if m > 2 && isLeap y then 1 else 0)) + d

/-- CPython `datetime._ord2ymd` (for `n ≥ 1`). -/
def ord2ymd (n : Nat) : Nat × Nat × Nat :=
  let n := n - 1
  let n400 := n / 146097
  let n := n % 146097
  let n100 := n / 36524
  let n := n % 36524
  let n4 := n / 1461
  let n := n % 1461
  let n1 := n / 365
  let n := n % 365
  let year := n400 * 400 + 1 + n100 * 100 + n4 * 4 + n1
  if n1 = 4 ∨ n100 = 4 then (year - 1, 12, 31)
  else
    let leap : Bool := n1 == 3 && (n4 != 24 || n100 == 3)
    let month := (n + 50) / 32
    let pre := daysBeforeMonthTable month + (if month > 2 && leap then 1 else 0)
    if pre > n then
      let month := month - 1
      let pre := pre - ((if month = 2 then 28 else if month = 4 ∨ month = 6 ∨ month = 9 ∨ month = 11
        then 30 else 31) + (if month = 2 && leap then 1 else 0))
      (year, month, n - pre + 1)
    else (year, month, n - pre + 1)

/-- Microseconds since 0001-01-01 (minus one day: ordinals start at 1) of the local fields. -/
def Datetime.localMicros (t : Datetime) : Int :=
  (((ymd2ord t.date.y t.date.m t.date.d * 24 + t.h) * 60 + t.mi) * 60 + t.s : Nat) * 1000000 + (t.us : Int)

/-- Rebuild a naive datetime from microseconds; `OverflowError` outside years 1..9999
(CPython `datetime.__add__`). -/
def ofMicros (n : Int) : Except Err Datetime :=
  let day := n / 86400000000
  let r := (n % 86400000000).toNat
  if 0 < day ∧ day ≤ 3652059 then
    let ymd := ord2ymd day.toNat
    let us := r % 1000000
    let secs := r / 1000000
    let h := secs / 3600
    let mi := secs % 3600 / 60
    let s := secs % 60
    if hd : dateOk ymd.1 ymd.2.1 ymd.2.2 = true then
      if ht : timeOk h mi s us none = true then
        .ok ⟨⟨ymd.1, ymd.2.1, ymd.2.2, hd⟩, h, mi, s, us, none, ht⟩
      else .error .valueError
    else .error .valueError
  else .error .overflowError

/-- The conversion to naive UTC at snuba_sdk/visitors.py:168-172. -/
def Datetime.toNaiveUtc (t : Datetime) : Except Err Datetime :=
  match t.tz with
  | none => .ok t
  | some none => .error .assertion
  | some (some off) => ofMicros (t.localMicros - off)

/-- `date.isoformat()` (CPython). -/
def Date.iso (d : Date) : Str := padNat 4 d.y ++ ['-'] ++ padNat 2 d.m ++ ['-'] ++ padNat 2 d.d

/-- CPython `_format_offset`. -/
def formatOffset (off : Int) : Str :=
  let a := off.natAbs
  let us := a % 1000000
  let secs := a / 1000000
  (if off < 0 then ['-'] else ['+']) ++ padNat 2 (secs / 3600) ++ [':'] ++
    padNat 2 (secs % 3600 / 60) ++
    (if secs % 60 ≠ 0 ∨ us ≠ 0 then
      [':'] ++ padNat 2 (secs % 60) ++ (if us ≠ 0 then ['.'] ++ padNat 6 us else [])
     else [])

/-- `datetime.isoformat()` (CPython). -/
def Datetime.iso (t : Datetime) : Str :=
  t.date.iso ++ ['T'] ++ padNat 2 t.h ++ [':'] ++ padNat 2 t.mi ++ [':'] ++ padNat 2 t.s ++
  (if t.us ≠ 0 then ['.'] ++ padNat 6 t.us else []) ++
  (match t.tz with
    | some (some off) => formatOffset off
    | _ => [])

end Verif
