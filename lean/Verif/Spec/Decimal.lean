import Verif.Py.Float

/-!
# Specification: decimal numerals and the values of floats
-/

namespace Verif.Spec

/-- The number denoted by decimal digits. -/
def numeral (ds : Str) : Nat := ds.foldl (fun a c => a * 10 + (c.toNat - '0'.toNat)) 0

/-- Read `digits.digits`, with at least one digit on both sides, no sign and no exponent:
`some (n, k)` stands for `n / 10^k`. -/
def readDecimal (s : Str) : Option (Nat × Nat) :=
  let i := s.takeWhile fun c => '0' ≤ c ∧ c ≤ '9'
  match s.dropWhile fun c => '0' ≤ c ∧ c ≤ '9' with
  | '.' :: f =>
    if i ≠ [] ∧ f ≠ [] ∧ f.all (fun c => '0' ≤ c ∧ c ≤ '9') then some (numeral (i ++ f), f.length) else none
  | _ => none

/-- The positive finite float `d` (that is, `m · 2^e`) equals `n / q`. -/
def IsRate (d : Dbl) (n q : Nat) : Prop := 0 < q ∧ n * 2 ^ (-d.e).toNat = d.m * 2 ^ d.e.toNat * q

/-- `|a / 10^k - n / q| ≤ 0.0000005`. -/
def WithinHalfMillionth (a k n q : Nat) : Prop :=
  2 * 10 ^ 6 * ((a : Int) * q - n * 10 ^ k).natAbs ≤ q * 10 ^ k

/-- `num` is a text of the rate `d`: a plain decimal within 0.0000005, and exactly `n.0` if the rate is the
integer `n`. -/
def RateText (d : Dbl) (num : Str) : Prop :=
  (∃ a k, readDecimal num = some (a, k) ∧ ∀ n q, IsRate d n q → WithinHalfMillionth a k n q) ∧
  (∀ n, IsRate d n 1 → num = natStr n ++ c!".0")

end Verif.Spec
