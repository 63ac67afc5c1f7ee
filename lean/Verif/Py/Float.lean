import Verif.Py.Str

/-!
# Python floats

IEEE-754 binary64 values, exactly: a finite value is `± m · 2^e` in canonical form.
`repr`, `float(text)` and the `:f` / `:.1f` formats are transcribed from CPython's behaviour
(correct rounding, shortest round-tripping digits).  Not modelled: NaN payloads and signs.
-/

namespace Verif

/-- `m·2^e` is a canonical binary64 magnitude: zero, or `m` odd and within range (IEEE-754). -/
def dblOk (m : Nat) (e : Int) : Bool :=
  (m == 0 && e == 0) ||
  (m % 2 == 1 && decide (m < 2 ^ 53) && decide (-1074 ≤ e) && decide ((m.log2 : Int) + e ≤ 1023))

/-- A finite binary64 value (IEEE-754; Python built-in `float`). -/
structure Dbl where
  neg : Bool
  m : Nat
  e : Int
  ok : dblOk m e = true
  deriving DecidableEq

/-- Python `float` (built-in). -/
inductive PyFloat
  | fin (d : Dbl)
  | inf (neg : Bool)
  | nan
  deriving DecidableEq

/-- Remove factors of two from the mantissa (bookkeeping of the canonical form). -/
def stripTwos : Nat → Nat → Int → Nat × Int
  | 0, m, e => (m, e)
  | f + 1, m, e => if m = 0 then (0, 0) else if m % 2 = 0 then stripTwos f (m / 2) (e + 1) else (m, e)

/-- Build a float from `± m·2^e`; magnitudes out of range overflow to infinity (IEEE-754). -/
def mkDbl (neg : Bool) (m : Nat) (e : Int) : PyFloat :=
  let r := stripTwos (m + 1) m e
  if h : dblOk r.1 r.2 = true then .fin ⟨neg, r.1, r.2, h⟩ else .inf neg

/-- `n / d` rounded to the nearest integer, ties to even (IEEE-754 rounding). -/
def roundDiv (n d : Nat) : Nat :=
  let q := n / d
  let r := n % d
  if 2 * r < d then q else if d < 2 * r then q + 1 else if q % 2 = 0 then q else q + 1

/-- `n / d` times `2^k` (numerator and denominator). -/
def scale2 (n d : Nat) (k : Int) : Nat × Nat :=
  if 0 ≤ k then (n * 2 ^ k.toNat, d) else (n, d * 2 ^ (-k).toNat)

/-- `n / d` times `10^k` (numerator and denominator). -/
def scale10 (n d : Nat) (k : Int) : Nat × Nat :=
  if 0 ≤ k then (n * 10 ^ k.toNat, d) else (n, d * 10 ^ (-k).toNat)

/-- `⌊log2 (n/d)⌋` for `n, d > 0`. -/
def floorLog2 (n d : Nat) : Int :=
  let l : Int := (n.log2 : Int) - (d.log2 : Int)
  let s := scale2 n d (-l)
  if s.2 ≤ s.1 then l else l - 1

/-- The binary64 nearest to `± n/d` (IEEE-754 round-half-even; `float(text)` in CPython). -/
def roundRat (neg : Bool) (n d : Nat) : PyFloat :=
  if n = 0 then .fin ⟨neg, 0, 0, rfl⟩
  else
    let e0 := max (-1074) (floorLog2 n d - 52)
    let s := scale2 n d (-e0)
    mkDbl neg (roundDiv s.1 s.2) e0

/-- `float` of `± ds · 10^p` (Python built-in `float(text)`; snuba_sdk/mql/mql.py:223). -/
def ofDecimal (neg : Bool) (ds : Nat) (p : Int) : PyFloat :=
  let s := scale10 ds 1 p
  roundRat neg s.1 s.2

/-- Numerator and denominator of the magnitude of a finite float. -/
def Dbl.ratio (d : Dbl) : Nat × Nat := scale2 d.m 1 d.e

/-- Number of zeros after the decimal point of `n/d < 1` (fuel `f`). -/
def leadZeros (n d : Nat) : Nat → Nat
  | 0 => 0
  | f + 1 => if d ≤ n * 10 then 0 else 1 + leadZeros (n * 10) d f

/-- Position of the decimal point: `10^(k-1) ≤ n/d < 10^k`. -/
def decPoint (n d : Nat) : Int :=
  if d ≤ n then ((natStr (n / d)).length : Int) else -((leadZeros n d 400 : Nat) : Int)

/-- Shortest decimal `ds·10^p` that reads back as the float, nearest to it
(CPython `float.__repr__`, i.e. `_Py_dg_dtoa` mode 0). `p` counts digits upwards; after 17 digits the exact
expansion is used (never needed for binary64, where 17 digits suffice). -/
def shortest (d : Dbl) : Nat → Nat → Nat × Int
  | 0, _ => if 0 ≤ d.e then (d.m * 2 ^ d.e.toNat, 0) else (d.m * 5 ^ (-d.e).toNat, d.e)
  | f + 1, p =>
    let nd := d.ratio
    let s : Int := (p : Int) - decPoint nd.1 nd.2
    let v := scale10 nd.1 nd.2 s
    let lo := v.1 / v.2
    let loOk := ofDecimal d.neg lo (-s) == .fin d
    let hiOk := ofDecimal d.neg (lo + 1) (-s) == .fin d
    if loOk && (!hiOk || roundDiv v.1 v.2 == lo) then (lo, -s)
    else if hiOk then (lo + 1, -s)
    else shortest d f (p + 1)

/-- Drop trailing decimal zeros of the digits. -/
def stripTens : Nat → Nat → Int → Nat × Int
  | 0, ds, p => (ds, p)
  | f + 1, ds, p => if ds ≠ 0 ∧ ds % 10 = 0 then stripTens f (ds / 10) (p + 1) else (ds, p)

/-- Layout of digits and decimal exponent, CPython `PyOS_double_to_string(…, 'r', …)`. -/
def layoutRepr (ds : Str) (decpt : Int) : Str :=
  if decpt ≤ -4 ∨ decpt > 16 then
    let x := decpt - 1
    (match ds with
      | [] => []
      | c :: cs => if cs.isEmpty then [c] else c :: '.' :: cs) ++
    ['e', if x < 0 then '-' else '+'] ++ padNat 2 x.natAbs
  else if decpt ≤ 0 then c!"0." ++ List.replicate (-decpt).toNat '0' ++ ds
  else if (ds.length : Int) ≤ decpt then
    ds ++ List.replicate (decpt.toNat - ds.length) '0' ++ c!".0"
  else ds.take decpt.toNat ++ ['.'] ++ ds.drop decpt.toNat

/-- The digits and exponent printed by `repr` for a finite float. -/
def Dbl.digits (d : Dbl) : Nat × Int :=
  let r := shortest d 17 1
  stripTens r.1 r.1 r.2

/-- `repr` of the magnitude of a finite float. -/
def Dbl.reprAbs (d : Dbl) : Str :=
  if d.m = 0 then c!"0.0"
  else
    let ds := natStr d.digits.1
    layoutRepr ds ((ds.length : Int) + d.digits.2)

/-- `str(f)` = `repr(f)` = `f"{f}"` (Python built-in; visitors.py:165, metrics_visitors.py:158). -/
def PyFloat.repr : PyFloat → Str
  | .fin d => (if d.neg then ['-'] else []) ++ d.reprAbs
  | .inf neg => if neg then c!"-inf" else c!"inf"
  | .nan => c!"nan"

/-- `f"{x:.{k}f}"` of a finite float: exact value rounded half-even to `k` places. -/
def Dbl.fixed (d : Dbl) (k : Nat) : Str :=
  let r := scale10 d.ratio.1 d.ratio.2 k
  let n := roundDiv r.1 r.2
  (if d.neg then ['-'] else []) ++ natStr (n / 10 ^ k) ++ ['.'] ++ padNat k (n % 10 ^ k)

/-- `f"{x:.{k}f}"` (Python built-in; `:.1f` and `:f` = `:.6f` at visitors.py:251-253). -/
def PyFloat.fixed (k : Nat) : PyFloat → Str
  | .fin d => d.fixed k
  | .inf neg => if neg then c!"-inf" else c!"inf"
  | .nan => c!"nan"

/-- `x % 1 == 0` (visitors.py:250, 259): integral finite floats; infinities and NaN give NaN. -/
def PyFloat.isIntegral : PyFloat → Bool
  | .fin d => decide (0 ≤ d.e)
  | _ => false

/-- `x <= 0.0` (entity.py:30, storage.py:28); comparisons with NaN are false. -/
def PyFloat.leZero : PyFloat → Bool
  | .fin d => d.neg || d.m == 0
  | .inf neg => neg
  | .nan => false

/-- Integer value of an integral finite float. -/
def Dbl.toInt? (d : Dbl) : Option Int :=
  if 0 ≤ d.e then
    let a : Int := ((d.m * 2 ^ d.e.toNat : Nat) : Int)
    some (if d.neg then -a else a)
  else none

/-- `i == f` between an int and a float: exact comparison (Python built-in). -/
def PyFloat.eqInt (f : PyFloat) (i : Int) : Bool :=
  match f with
  | .fin d => d.toInt? == some i
  | _ => false

/-- `i < f` between an int and a float: exact comparison (Python built-in; timeseries.py:193). -/
def PyFloat.intLt (i : Int) (f : PyFloat) : Bool :=
  match f with
  | .fin d =>
    let s : Int := if d.neg then -1 else 1
    let r := d.ratio
    decide (i * (r.2 : Int) < s * (r.1 : Int))
  | .inf neg => !neg
  | .nan => false

/-- `a == b` on floats: `0.0 == -0.0`, NaN differs from everything (Python built-in). -/
def PyFloat.eqF : PyFloat → PyFloat → Bool
  | .fin a, .fin b => a.m == b.m && a.e == b.e && (a.neg == b.neg || a.m == 0)
  | .inf a, .inf b => a == b
  | _, _ => false

/-- Truth value of a float (`bool(f)`, Python built-in; timeseries.py:184). -/
def PyFloat.truthy : PyFloat → Bool
  | .fin d => d.m != 0
  | _ => true

/-- `-f` (Python built-in; mql.py:202). -/
def PyFloat.negate : PyFloat → PyFloat
  | .fin d => .fin ⟨!d.neg, d.m, d.e, d.ok⟩
  | .inf n => .inf (!n)
  | .nan => .nan

end Verif
