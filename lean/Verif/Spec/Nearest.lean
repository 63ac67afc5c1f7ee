import Verif.Spec.Scalar
import Mathlib.Algebra.Order.Field.Basic
import Mathlib.Algebra.Order.Ring.Rat
import Mathlib.Algebra.Field.Rat

/-!
# Specification: numbers, the floats nearest to them, and their texts
-/

namespace Verif.Spec

/-- The number a finite float stands for. -/
def floatValue (d : Dbl) : ℚ := (if d.neg then -1 else 1) * (d.m * 2 ^ d.e)

/-- `f` is the float that `x` is rounded to: the nearest one, and of two nearest ones the one with an even significand
(the one that is zero or divisible by a higher power of two); from the middle between the greatest float and 2^1024 on, infinity. -/
inductive Nearest (x : ℚ) : PyFloat → Prop
  | fin (d : Dbl) : |x| < 2 ^ 1024 - 2 ^ 970 → (∀ d' : Dbl, |x - floatValue d| ≤ |x - floatValue d'|) →
      (∀ d' : Dbl, |x - floatValue d| = |x - floatValue d'| → floatValue d' = floatValue d ∨ d.m = 0 ∨ d'.e < d.e) →
      Nearest x (.fin d)
  | inf (neg : Bool) : 2 ^ 1024 - 2 ^ 970 ≤ (if neg then -x else x) → Nearest x (.inf neg)

/-- `n · 10^p` is the decimal that a float `d ≠ 0` is printed as: it is rounded to `d` when it is read, it has no needless
zeros and at most 17 digits, no decimal with fewer digits is rounded to `d`, and none with as many digits that is rounded to
`d` is nearer to it. -/
structure Shortest (d : Dbl) (n : Nat) (p : Int) : Prop where
  reads : Nearest ((if d.neg then -1 else 1) * (n * 10 ^ p)) (.fin d)
  noZeros : n % 10 ≠ 0
  digits17 : n < 10 ^ 17
  least : ∀ (n' : Nat) (p' : Int) (k : Nat), Nearest ((if d.neg then -1 else 1) * (n' * 10 ^ p')) (.fin d) → n' < 10 ^ k →
    n < 10 ^ k ∧ (10 ^ k ≤ n * 10 → |(n : ℚ) * 10 ^ p - d.m * 2 ^ d.e| ≤ |(n' : ℚ) * 10 ^ p' - d.m * 2 ^ d.e|)

/-- The text of a float: perhaps a minus, digits, perhaps a point and digits, perhaps an exponent; with a point or an exponent
(without, it would be an int). It stands for `± n · 10^p`. -/
inductive FloatText : Str → Bool → Nat → Int → Prop
  | mk (neg : Bool) (i f ex : Str) (x : Int) : i ≠ [] → (∀ c ∈ i ++ f, digit c = true) → readExponent ex = some x →
      f ≠ [] ∨ ex ≠ [] →
      FloatText ((if neg then ['-'] else []) ++ (i ++ ((if f = [] then [] else '.' :: f) ++ ex))) neg (numeral (i ++ f)) (x - f.length)

end Verif.Spec
