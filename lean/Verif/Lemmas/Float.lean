import Verif.Spec.Decimal
import Verif.Lemmas.Str
import Mathlib.Data.Int.Log
import Mathlib.Data.Rat.Floor
import Mathlib.Algebra.Order.Field.Basic
import Mathlib.Tactic.Positivity
import Mathlib.Tactic.Ring
import Mathlib.Tactic.Linarith
import Mathlib.Tactic.FieldSimp

/-!
# Correctly rounded reading of decimals, and shortest digits
-/

namespace Verif

theorem two_zpow_pos (k : Int) : (0 : ℚ) < 2 ^ k := zpow_pos (by norm_num) k

theorem scale2_pos {n d : Nat} {k : Int} (hd : 0 < d) : 0 < (scale2 n d k).2 := by
  unfold scale2; split
  · exact hd
  · exact Nat.mul_pos hd (Nat.pow_pos (by decide))

theorem scale10_pos {n d : Nat} {k : Int} (hd : 0 < d) : 0 < (scale10 n d k).2 := by
  unfold scale10; split
  · exact hd
  · exact Nat.mul_pos hd (Nat.pow_pos (by decide))

theorem scale2_val {n d : Nat} {k : Int} (_hd : 0 < d) :
    ((scale2 n d k).1 : ℚ) / (scale2 n d k).2 = (n : ℚ) / d * 2 ^ k := by
  unfold scale2; split
  · rename_i h
    obtain ⟨j, rfl⟩ := Int.eq_ofNat_of_zero_le h
    push_cast
    simp only [Int.toNat_natCast, zpow_natCast]
    ring
  · rename_i h
    obtain ⟨j, hj⟩ := Int.eq_ofNat_of_zero_le (show 0 ≤ -k by omega)
    have hk : k = -(j : Int) := by omega
    subst hk
    push_cast
    simp only [neg_neg, Int.toNat_natCast, zpow_neg, zpow_natCast]
    field_simp

theorem scale10_val {n d : Nat} {k : Int} (_hd : 0 < d) :
    ((scale10 n d k).1 : ℚ) / (scale10 n d k).2 = (n : ℚ) / d * 10 ^ k := by
  unfold scale10; split
  · rename_i h
    obtain ⟨j, rfl⟩ := Int.eq_ofNat_of_zero_le h
    push_cast
    simp only [Int.toNat_natCast, zpow_natCast]
    ring
  · rename_i h
    obtain ⟨j, hj⟩ := Int.eq_ofNat_of_zero_le (show 0 ≤ -k by omega)
    have hk : k = -(j : Int) := by omega
    subst hk
    push_cast
    simp only [neg_neg, Int.toNat_natCast, zpow_neg, zpow_natCast]
    field_simp

theorem floorLog2_eq {n d : Nat} (hn : 0 < n) (hd : 0 < d) : floorLog2 n d = Int.log 2 ((n : ℚ) / d) := by
  have hq : (0 : ℚ) < (n : ℚ) / d := by positivity
  set q : ℚ := (n : ℚ) / d with hqd
  set l : Int := (n.log2 : Int) - (d.log2 : Int) with hl
  have test : (scale2 n d (-l)).2 ≤ (scale2 n d (-l)).1 ↔ (2 : ℚ) ^ l ≤ q := by
    have h1 := scale2_val (n := n) (k := -l) hd
    have hp := scale2_pos (n := n) (k := -l) hd
    have hp' : (0 : ℚ) < (scale2 n d (-l)).2 := by exact_mod_cast hp
    rw [← @Nat.cast_le ℚ, ← one_le_div hp', h1, ← hqd, zpow_neg, ← div_eq_mul_inv, one_le_div (two_zpow_pos _)]
  have up : q < (2 : ℚ) ^ (l + 1) := by
    have a : n < 2 ^ (n.log2 + 1) := Nat.lt_log2_self
    have b : 2 ^ d.log2 ≤ d := Nat.log2_self_le (by omega)
    have a' : (n : ℚ) < 2 ^ (n.log2 + 1) := by exact_mod_cast a
    have b' : (2 : ℚ) ^ d.log2 ≤ d := by exact_mod_cast b
    have e : (2 : ℚ) ^ (l + 1) = 2 ^ (n.log2 + 1) / 2 ^ d.log2 := by
      rw [hl, show ((n.log2 : Int) - d.log2 + 1) = ((n.log2 + 1 : Nat) : Int) - (d.log2 : Int) by push_cast; ring,
        zpow_sub₀ (by norm_num), zpow_natCast, zpow_natCast]
    rw [e, hqd]
    calc (n : ℚ) / d ≤ n / 2 ^ d.log2 := div_le_div_of_nonneg_left (by positivity) (by positivity) b'
      _ < _ := div_lt_div_of_pos_right a' (by positivity)
  have lo : (2 : ℚ) ^ (l - 1) ≤ q := by
    have a : 2 ^ n.log2 ≤ n := Nat.log2_self_le (by omega)
    have b : d < 2 ^ (d.log2 + 1) := Nat.lt_log2_self
    have a' : (2 : ℚ) ^ n.log2 ≤ n := by exact_mod_cast a
    have b' : (d : ℚ) < 2 ^ (d.log2 + 1) := by exact_mod_cast b
    have e : (2 : ℚ) ^ (l - 1) = 2 ^ n.log2 / 2 ^ (d.log2 + 1) := by
      rw [hl, show ((n.log2 : Int) - d.log2 - 1) = ((n.log2 : Nat) : Int) - ((d.log2 + 1 : Nat) : Int) by push_cast; ring,
        zpow_sub₀ (by norm_num), zpow_natCast, zpow_natCast]
    rw [e, hqd]
    exact div_le_div₀ (by positivity) a' (by positivity) b'.le
  have cast2 : ((2 : Nat) : ℚ) = 2 := by norm_num
  have up' : Int.log 2 q < l + 1 := (Int.lt_zpow_iff_log_lt (by decide) hq).1 (by rw [cast2]; exact up)
  have lo' : l - 1 ≤ Int.log 2 q := (Int.zpow_le_iff_le_log (by decide) hq).1 (by rw [cast2]; exact lo)
  have mid : (2 : ℚ) ^ l ≤ q ↔ l ≤ Int.log 2 q := by
    have := Int.zpow_le_iff_le_log (R := ℚ) (b := 2) (by decide) (x := l) hq
    rwa [cast2] at this
  unfold floorLog2
  simp only [← hl]
  by_cases ht : (scale2 n d (-l)).2 ≤ (scale2 n d (-l)).1
  · rw [if_pos ht]
    have := mid.1 (test.1 ht)
    omega
  · rw [if_neg ht]
    have : ¬ l ≤ Int.log 2 q := fun h => ht (test.2 (mid.2 h))
    omega

theorem roundDiv_scale (n d c : Nat) (hc : 0 < c) : roundDiv (n * c) (d * c) = roundDiv n d := by
  unfold roundDiv
  rw [Nat.mul_div_mul_right _ _ hc, Nat.mul_mod_mul_right]
  have h1 : (2 * (n % d * c) < d * c) ↔ 2 * (n % d) < d := by
    rw [← Nat.mul_assoc, Nat.mul_lt_mul_right hc]
  have h2 : (d * c < 2 * (n % d * c)) ↔ d < 2 * (n % d) := by
    rw [← Nat.mul_assoc, Nat.mul_lt_mul_right hc]
  simp only [h1, h2]

theorem roundDiv_congr {n d n' d' : Nat} (hd : 0 < d) (hd' : 0 < d') (h : (n : ℚ) / d = (n' : ℚ) / d') :
    roundDiv n d = roundDiv n' d' := by
  have hx : n * d' = n' * d := by
    have h1 : (d : ℚ) ≠ 0 := by positivity
    have h2 : (d' : ℚ) ≠ 0 := by positivity
    rw [div_eq_div_iff h1 h2] at h
    exact_mod_cast h
  rw [← roundDiv_scale n d d' hd', ← roundDiv_scale n' d' d hd, hx, Nat.mul_comm d]

theorem roundRat_congr (neg : Bool) {n d n' d' : Nat} (hd : 0 < d) (hd' : 0 < d') (h : (n : ℚ) / d = (n' : ℚ) / d') :
    roundRat neg n d = roundRat neg n' d' := by
  have hz : n = 0 ↔ n' = 0 := by
    have h1 : (d : ℚ) ≠ 0 := by positivity
    have h2 : (d' : ℚ) ≠ 0 := by positivity
    rw [div_eq_div_iff h1 h2] at h
    constructor
    · rintro rfl
      simpa [h1] using h.symm
    · rintro rfl
      simpa [h2] using h
  unfold roundRat
  by_cases h0 : n = 0
  · rw [if_pos h0, if_pos (hz.1 h0)]
  · have h0' : n' ≠ 0 := fun e => h0 (hz.2 e)
    rw [if_neg h0, if_neg h0']
    simp only [floorLog2_eq (Nat.pos_of_ne_zero h0) hd, floorLog2_eq (Nat.pos_of_ne_zero h0') hd', h]
    congr 1
    apply roundDiv_congr (scale2_pos hd) (scale2_pos hd')
    rw [scale2_val hd, scale2_val hd', h]

theorem stripTwos_spec : ∀ (k f m : Nat) (e : Int), k < f → m % 2 = 1 → stripTwos f (m * 2 ^ k) e = (m, e + k)
  | 0, f, m, e, hf, hm => by
    obtain ⟨f, rfl⟩ : ∃ g, f = g + 1 := ⟨f - 1, by omega⟩
    have h0 : m ≠ 0 := by rintro rfl; simp at hm
    have h1 : ¬ m % 2 = 0 := by omega
    simp [stripTwos, h0, h1]
  | k + 1, f, m, e, hf, hm => by
    obtain ⟨f, rfl⟩ : ∃ g, f = g + 1 := ⟨f - 1, by omega⟩
    have h0 : m * 2 ^ (k + 1) ≠ 0 := by
      have : m ≠ 0 := by rintro rfl; simp at hm
      positivity
    have h1 : m * 2 ^ (k + 1) = 2 * (m * 2 ^ k) := by ring
    rw [stripTwos, if_neg h0, if_pos (by omega), show m * 2 ^ (k + 1) / 2 = m * 2 ^ k by omega,
      stripTwos_spec k f m (e + 1) (by omega) hm]
    simp only [Prod.mk.injEq, true_and]
    push_cast; ring

theorem dbl_bounds (d : Dbl) (h : d.m ≠ 0) :
    d.m % 2 = 1 ∧ d.m < 2 ^ 53 ∧ -1074 ≤ d.e ∧ (d.m.log2 : Int) + d.e ≤ 1023 := by
  have := d.ok
  simp only [dblOk, Bool.or_eq_true, Bool.and_eq_true, beq_iff_eq, decide_eq_true_eq] at this
  rcases this with h' | h'
  · exact absurd h'.1 h
  · exact ⟨h'.1.1.1, h'.1.1.2, h'.1.2, h'.2⟩

theorem roundDiv_int (n d M : Nat) (hd : 0 < d) (h : (n : ℚ) / d = M) : roundDiv n d = M := by
  rw [roundDiv_congr hd (d' := 1) (n' := M) (by decide) (by simpa using h)]
  unfold roundDiv
  simp [Nat.mod_one]

/-- Reading a number that is a float gives that float. -/
theorem roundRat_exact (d : Dbl) (h0 : d.m ≠ 0) {n q : Nat} (hq : 0 < q) (h : (n : ℚ) / q = d.m * (2 : ℚ) ^ d.e) :
    roundRat d.neg n q = .fin d := by
  obtain ⟨hodd, hlt, hlo, hhi⟩ := dbl_bounds d h0
  have hm : (0 : ℚ) < d.m := by positivity
  have hv : (0 : ℚ) < d.m * (2 : ℚ) ^ d.e := mul_pos hm (two_zpow_pos _)
  have hn : n ≠ 0 := by
    rintro rfl
    simp only [Nat.cast_zero, zero_div] at h
    exact absurd h hv.ne
  have hlog : Int.log 2 ((n : ℚ) / q) = (d.m.log2 : Int) + d.e := by
    rw [h]
    have a : 2 ^ d.m.log2 ≤ d.m := Nat.log2_self_le h0
    have b : d.m < 2 ^ (d.m.log2 + 1) := Nat.lt_log2_self
    have a' : (2 : ℚ) ^ d.m.log2 ≤ d.m := by exact_mod_cast a
    have b' : (d.m : ℚ) < 2 ^ (d.m.log2 + 1) := by exact_mod_cast b
    have cast2 : ((2 : Nat) : ℚ) = 2 := by norm_num
    have h1 : (d.m.log2 : Int) + d.e ≤ Int.log 2 (d.m * (2 : ℚ) ^ d.e) := by
      apply (Int.zpow_le_iff_le_log (by decide) hv).1
      rw [cast2, zpow_add₀ (by norm_num), zpow_natCast]
      exact mul_le_mul_of_nonneg_right a' (two_zpow_pos _).le
    have h2 : Int.log 2 (d.m * (2 : ℚ) ^ d.e) < (d.m.log2 : Int) + d.e + 1 := by
      apply (Int.lt_zpow_iff_log_lt (by decide) hv).1
      rw [cast2, show (d.m.log2 : Int) + d.e + 1 = ((d.m.log2 + 1 : Nat) : Int) + d.e by push_cast; ring,
        zpow_add₀ (by norm_num), zpow_natCast]
      exact mul_lt_mul_of_pos_right b' (two_zpow_pos _)
    omega
  have hl52 : d.m.log2 ≤ 52 := by
    have : d.m.log2 < 53 := (Nat.log2_lt h0).2 hlt
    omega
  unfold roundRat
  rw [if_neg hn]
  simp only [floorLog2_eq (Nat.pos_of_ne_zero hn) hq, hlog]
  generalize he0 : max (-1074) ((d.m.log2 : Int) + d.e - 52) = e0
  have hle : e0 ≤ d.e := by omega
  obtain ⟨k, hk⟩ := Int.eq_ofNat_of_zero_le (show 0 ≤ d.e - e0 by omega)
  have hround : roundDiv (scale2 n q (-e0)).1 (scale2 n q (-e0)).2 = d.m * 2 ^ k := by
    apply roundDiv_int _ _ _ (scale2_pos hq)
    rw [scale2_val hq, h]
    push_cast
    rw [mul_assoc, ← zpow_add₀ (by norm_num), show d.e + -e0 = (k : Int) by omega, zpow_natCast]
  rw [hround]
  unfold mkDbl
  have hstrip := stripTwos_spec k (d.m * 2 ^ k + 1) d.m e0 (by
    have : k < 2 ^ k := Nat.lt_two_pow_self
    have h1 : 1 * 2 ^ k ≤ d.m * 2 ^ k := Nat.mul_le_mul_right _ (by omega)
    omega) hodd
  have e2 : e0 + (k : Int) = d.e := by omega
  rw [e2] at hstrip
  simp only [hstrip]
  rw [dif_pos d.ok]

theorem ofDecimal_exact (d : Dbl) (h0 : d.m ≠ 0) {ds : Nat} {p : Int} (h : (ds : ℚ) * (10 : ℚ) ^ p = d.m * (2 : ℚ) ^ d.e) :
    ofDecimal d.neg ds p = .fin d := by
  unfold ofDecimal
  apply roundRat_exact d h0 (scale10_pos (by decide))
  rw [scale10_val (by decide), ← h]
  simp

/-- Reading depends only on the value of the decimal. -/
theorem ofDecimal_congr (neg : Bool) {ds ds' : Nat} {p p' : Int} (h : (ds : ℚ) * (10 : ℚ) ^ p = ds' * (10 : ℚ) ^ p') :
    ofDecimal neg ds p = ofDecimal neg ds' p' := by
  unfold ofDecimal
  apply roundRat_congr neg (scale10_pos (by decide)) (scale10_pos (by decide))
  rw [scale10_val (by decide), scale10_val (by decide)]
  simpa using h

theorem shortest_spec (d : Dbl) (h0 : d.m ≠ 0) : ∀ f p,
    ofDecimal d.neg (shortest d f p).1 (shortest d f p).2 = .fin d
  | 0, p => by
    unfold shortest
    split
    · rename_i h
      apply ofDecimal_exact d h0
      obtain ⟨j, hj⟩ := Int.eq_ofNat_of_zero_le h
      simp [hj]
    · rename_i h
      apply ofDecimal_exact d h0
      obtain ⟨j, hj⟩ := Int.eq_ofNat_of_zero_le (show 0 ≤ -d.e by omega)
      have he : d.e = -(j : Int) := by omega
      simp only [he, neg_neg, Int.toNat_natCast, zpow_neg, zpow_natCast]
      push_cast
      rw [show (10 : ℚ) = 2 * 5 by norm_num, mul_pow]
      field_simp
  | f + 1, p => by
    unfold shortest
    simp only
    split
    · rename_i h
      simp only [Bool.and_eq_true, beq_iff_eq] at h
      exact h.1
    · split
      · rename_i _ h
        simpa using h
      · exact shortest_spec d h0 f (p + 1)

theorem stripTens_val : ∀ (f ds : Nat) (p : Int),
    ((stripTens f ds p).1 : ℚ) * (10 : ℚ) ^ (stripTens f ds p).2 = ds * (10 : ℚ) ^ p
  | 0, ds, p => rfl
  | f + 1, ds, p => by
    unfold stripTens
    split
    · rename_i h
      rw [stripTens_val f (ds / 10) (p + 1)]
      have : (ds : ℚ) = 10 * (ds / 10 : Nat) := by
        have : ds = 10 * (ds / 10) := by omega
        exact_mod_cast this
      rw [this, zpow_add₀ (by norm_num)]
      simp
      ring
    · rfl

/-- The printed digits read back as the float. -/
theorem digits_spec (d : Dbl) (h0 : d.m ≠ 0) : ofDecimal d.neg d.digits.1 d.digits.2 = .fin d := by
  unfold Dbl.digits
  simp only
  rw [ofDecimal_congr d.neg (stripTens_val _ _ _)]
  exact shortest_spec d h0 17 1

theorem ofDecimal_zero (neg : Bool) (p : Int) : ofDecimal neg 0 p = .fin ⟨neg, 0, 0, rfl⟩ := by
  unfold ofDecimal roundRat scale10
  split <;> simp

end Verif
