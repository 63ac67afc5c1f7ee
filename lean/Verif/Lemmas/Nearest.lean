import Verif.Spec.Nearest
import Verif.Lemmas.Float
import Verif.Lemmas.Scalar
import Mathlib.Tactic.NormNum

/-!
# Reading gives the nearest float, printing the shortest digits
-/

namespace Verif

open Spec

theorem roundDiv_half {n d : Nat} (hd : 0 < d) :
    |(n : ℚ) / d - roundDiv n d| ≤ 1 / 2 ∧ (|(n : ℚ) / d - roundDiv n d| = 1 / 2 → roundDiv n d % 2 = 0) := by
  have hd' : (0 : ℚ) < d := by exact_mod_cast hd
  have hn : (n : ℚ) / d = (n / d : Nat) + ((n % d : Nat) : ℚ) / d := by
    have : (n : ℚ) = d * (n / d : Nat) + (n % d : Nat) := by exact_mod_cast (Nat.div_add_mod n d).symm
    rw [div_eq_iff hd'.ne', add_mul, div_mul_cancel₀ _ hd'.ne', mul_comm]
    exact this
  have hr : n % d < d := Nat.mod_lt _ hd
  set q := n / d
  set r := n % d
  rw [hn]
  unfold roundDiv
  simp only
  have hnn : (0 : ℚ) ≤ (r : ℚ) / d := by positivity
  show |_ - ((if 2 * r < d then q else if d < 2 * r then q + 1 else if q % 2 = 0 then q else q + 1 : Nat) : ℚ)| ≤ _ ∧ (|_ - ((if 2 * r < d then q else if d < 2 * r then q + 1 else if q % 2 = 0 then q else q + 1 : Nat) : ℚ)| = _ → _)
  split
  · rename_i h
    have h1 : (r : ℚ) / d < 1 / 2 := by
      rw [div_lt_div_iff₀ hd' (by norm_num)]
      have : (2 * r : ℚ) < d := by exact_mod_cast h
      linarith
    rw [add_sub_cancel_left, abs_of_nonneg hnn]
    exact ⟨h1.le, fun h => absurd h h1.ne⟩
  · rename_i h0
    split
    · rename_i h
      have h1 : 1 / 2 < (r : ℚ) / d := by
        rw [div_lt_div_iff₀ (by norm_num) hd']
        have : (d : ℚ) < 2 * r := by exact_mod_cast h
        linarith
      have h2 : (r : ℚ) / d < 1 := by rw [div_lt_one hd']; exact_mod_cast hr
      push_cast
      rw [add_sub_add_left_eq_sub, abs_sub_comm, abs_of_nonneg (by linarith)]
      exact ⟨by linarith, fun h => by linarith⟩
    · rename_i h1
      have h2 : (r : ℚ) / d = 1 / 2 := by
        rw [div_eq_div_iff hd'.ne' (by norm_num)]
        have : 2 * r = d := by omega
        have : (2 * r : ℚ) = d := by exact_mod_cast this
        linarith
      split
      · rename_i h3
        rw [add_sub_cancel_left, h2]
        exact ⟨by norm_num, fun _ => h3⟩
      · rename_i h3
        push_cast
        rw [add_sub_add_left_eq_sub, h2]
        exact ⟨by norm_num [abs_of_neg], fun _ => by omega⟩

/-- The canonical form of `m · 2^e`. -/
theorem stripTwos_total : ∀ (f m : Nat) (e : Int), m < f → m ≠ 0 →
    ∃ k : Nat, m = (stripTwos f m e).1 * 2 ^ k ∧ (stripTwos f m e).2 = e + k ∧ (stripTwos f m e).1 % 2 = 1
  | 0, m, e, h, _ => by omega
  | f + 1, m, e, h, h0 => by
    unfold stripTwos
    rw [if_neg h0]
    split
    · rename_i h2
      obtain ⟨k, h3, h4, h5⟩ := stripTwos_total f (m / 2) (e + 1) (by omega) (by omega)
      refine ⟨k + 1, ?_, ?_, h5⟩
      · rw [Nat.pow_succ, ← Nat.mul_assoc, ← h3]; omega
      · rw [h4]; push_cast; ring
    · exact ⟨0, by simp, by simp, by omega⟩

theorem dbl_lt (d : Dbl) : (d.m : ℚ) * 2 ^ d.e < 2 ^ 53 * 2 ^ d.e ∧ -1074 ≤ d.e := by
  by_cases h : d.m = 0
  · have := d.ok
    have he : d.e = 0 := by
      simp only [dblOk, Bool.or_eq_true, Bool.and_eq_true, beq_iff_eq, decide_eq_true_eq, h] at this
      omega
    rw [h, he]; norm_num
  · obtain ⟨_, h1, h2, _⟩ := dbl_bounds d h
    refine ⟨mul_lt_mul_of_pos_right (by exact_mod_cast h1) (two_zpow_pos _), h2⟩

theorem dbl_le (d : Dbl) : (d.m : ℚ) * 2 ^ d.e ≤ (2 ^ 53 - 1) * 2 ^ d.e := by
  refine mul_le_mul_of_nonneg_right ?_ (two_zpow_pos _).le
  by_cases h : d.m = 0
  · rw [h]; norm_num
  · have h1 : d.m + 1 ≤ 2 ^ 53 := (dbl_bounds d h).2.1
    have : (d.m : ℚ) + 1 ≤ 2 ^ 53 := by exact_mod_cast h1
    linarith

theorem abs_floatValue (d : Dbl) : |floatValue d| = d.m * 2 ^ d.e := by
  unfold floatValue
  have : (0 : ℚ) ≤ d.m * 2 ^ d.e := mul_nonneg (by positivity) (two_zpow_pos _).le
  split
  · rw [neg_one_mul, abs_neg, abs_of_nonneg this]
  · rw [one_mul, abs_of_nonneg this]

/-- A float is a multiple of `2^E`, or it is less than `2^(E+52)`. -/
theorem floatValue_grid (d : Dbl) (E : Int) :
    (∃ k : Int, floatValue d = k * 2 ^ E ∧ (d.m ≠ 0 → k % 2 = 1 → d.e = E)) ∨ (d.e < E ∧ |floatValue d| < 2 ^ (E + 52)) := by
  by_cases h : E ≤ d.e
  · left
    obtain ⟨j, hj⟩ := Int.eq_ofNat_of_zero_le (show 0 ≤ d.e - E by omega)
    refine ⟨(if d.neg then -1 else 1) * (d.m * 2 ^ j), ?_, fun h0 hk => ?_⟩
    · unfold floatValue
      rw [show d.e = j + E by omega, zpow_add₀ (by norm_num), zpow_natCast]
      push_cast
      split <;> ring
    · by_contra hne
      obtain ⟨i, rfl⟩ : ∃ i, j = i + 1 := ⟨j - 1, by omega⟩
      have : (if d.neg = true then (-1 : Int) else 1) * (d.m * 2 ^ (i + 1)) = 2 * ((if d.neg = true then (-1 : Int) else 1) * (d.m * 2 ^ i)) := by ring
      rw [this] at hk
      omega
  · right
    refine ⟨by omega, ?_⟩
    rw [abs_floatValue]
    refine (dbl_lt d).1.trans_le ?_
    rw [← zpow_natCast, ← zpow_add₀ (by norm_num)]
    exact zpow_le_zpow_right₀ (by norm_num) (by push_cast; omega)

theorem int_near {y : ℚ} {M : Int} (h : |y - M| ≤ 1 / 2) (k : Int) :
    |y - M| ≤ |y - k| ∧ (|y - M| = |y - k| → k = M ∨ (|y - M| = 1 / 2 ∧ (k = M + 1 ∨ k = M - 1))) := by
  by_cases hk : k = M
  · subst hk; exact ⟨le_rfl, fun _ => .inl rfl⟩
  · rw [abs_le] at h
    rcases lt_or_gt_of_ne hk with hlt | hgt
    · have h1 : (k : ℚ) + 1 ≤ M := by exact_mod_cast hlt
      have h2 : |y - k| = y - k := abs_of_nonneg (by linarith)
      have h3 : |y - M| ≤ 1 / 2 := abs_le.2 h
      rw [h2]
      refine ⟨by linarith, fun he => .inr ⟨by linarith, .inr ?_⟩⟩
      have : (k : ℚ) = M - 1 := by linarith
      exact_mod_cast this
    · have h1 : (M : ℚ) + 1 ≤ k := by exact_mod_cast hgt
      have h2 : |y - k| = k - y := by rw [abs_sub_comm]; exact abs_of_nonneg (by linarith)
      have h3 : |y - M| ≤ 1 / 2 := abs_le.2 h
      rw [h2]
      refine ⟨by linarith, fun he => .inr ⟨by linarith, .inl ?_⟩⟩
      have : (k : ℚ) = M + 1 := by linarith
      exact_mod_cast this

/-- `x` rounded to `M · 2^E`, where `E` is the exponent of floats about as large as `x`, is at least as near as any float. -/
theorem grid_near {x : ℚ} {M : Nat} {L E : Int} (hlo : 2 ^ L ≤ x) (hE : E = max (-1074) (L - 52))
    (h : |x * 2 ^ (-E) - M| ≤ 1 / 2) (hev : |x * 2 ^ (-E) - M| = 1 / 2 → M % 2 = 0) (d' : Dbl) :
    |x - M * 2 ^ E| ≤ |x - floatValue d'| ∧
      (|x - M * 2 ^ E| = |x - floatValue d'| → floatValue d' = M * 2 ^ E ∨ (M % 2 = 0 ∧ d'.e = E)) := by
  have hp := two_zpow_pos E
  have key : ∀ k : ℚ, |x - k * 2 ^ E| = |x * 2 ^ (-E) - k| * 2 ^ E := by
    intro k
    rw [← abs_of_pos hp, ← abs_mul, abs_of_pos hp, sub_mul, mul_assoc, ← zpow_add₀ (by norm_num)]
    simp
  have hM : ∀ k : Int, |x - M * 2 ^ E| ≤ |x - k * 2 ^ E| := by
    intro k
    rw [key, key]
    exact mul_le_mul_of_nonneg_right (by have := (int_near (M := M) (by exact_mod_cast h) k).1; exact_mod_cast this) hp.le
  rcases floatValue_grid d' E with ⟨k, hk, hke⟩ | ⟨he, hlt⟩
  · rw [hk]
    refine ⟨hM k, fun ht => ?_⟩
    rw [key, key] at ht
    have ht' := mul_right_cancel₀ hp.ne' ht
    rcases (int_near (M := M) (by exact_mod_cast h) k).2 (by exact_mod_cast ht') with rfl | ⟨h2, h3⟩
    · left; push_cast; rfl
    · right
      have hM2 := hev (by exact_mod_cast h2)
      have hk2 : k % 2 = 1 := by omega
      refine ⟨hM2, hke ?_ hk2⟩
      intro h0
      unfold floatValue at hk
      rw [h0] at hk
      simp only [Nat.cast_zero, zero_mul, mul_zero] at hk
      have : (k : ℚ) = 0 := by
        rcases mul_eq_zero.1 hk.symm with h | h
        · exact h
        · exact absurd h hp.ne'
      have : k = 0 := by exact_mod_cast this
      omega
  · have h1 := (dbl_lt d').2
    have hEL : E + 52 = L := by omega
    rw [hEL] at hlt
    have h2 := hM (2 ^ 52)
    have h3 : (((2 : Int) ^ 52 : Int) : ℚ) * 2 ^ E = 2 ^ L := by
      rw [← hEL, zpow_add₀ (by norm_num)]; push_cast; ring
    rw [h3, abs_of_nonneg (show 0 ≤ x - 2 ^ L by linarith)] at h2
    have h4 : x - floatValue d' ≤ |x - floatValue d'| := le_abs_self _
    have h5 : floatValue d' ≤ |floatValue d'| := le_abs_self _
    exact ⟨by linarith, fun h => by linarith⟩

theorem mkDbl_cases (neg : Bool) (M : Nat) (E : Int) (hE : -1074 ≤ E) (hM : M ≤ 2 ^ 53) :
    (∃ d, mkDbl neg M E = .fin d ∧ d.neg = neg ∧ (d.m : ℚ) * 2 ^ d.e = M * 2 ^ E ∧ (M % 2 = 0 → d.m = 0 ∨ E < d.e) ∧
        (M : ℚ) * 2 ^ E < 2 ^ 1024) ∨
      (mkDbl neg M E = .inf neg ∧ 2 ^ 1024 ≤ (M : ℚ) * 2 ^ E) := by
  by_cases h0 : M = 0
  · subst h0
    refine .inl ⟨⟨neg, 0, 0, rfl⟩, rfl, rfl, by simp, fun _ => .inl rfl, by norm_num⟩
  · obtain ⟨k, h1, h2, h3⟩ := stripTwos_total (M + 1) M E (by omega) h0
    unfold mkDbl
    simp only
    generalize stripTwos (M + 1) M E = r at *
    obtain ⟨m, e⟩ := r
    simp only at *
    subst h2
    have hm0 : m ≠ 0 := by rintro rfl; simp at h3
    have hv : (M : ℚ) * 2 ^ E = m * 2 ^ (E + k) := by
      rw [h1, zpow_add₀ (by norm_num), zpow_natCast]; push_cast; ring
    have hm : m < 2 ^ 53 := by
      rcases Nat.eq_zero_or_pos k with rfl | hk
      · simp at h1
        have : M ≠ 2 ^ 53 := by rintro rfl; omega
        omega
      · have : m * 2 ≤ m * 2 ^ k := Nat.mul_le_mul_left _ (by
          calc 2 = 2 ^ 1 := rfl
            _ ≤ 2 ^ k := Nat.pow_le_pow_right (by decide) hk)
        omega
    have a : 2 ^ m.log2 ≤ m := Nat.log2_self_le hm0
    have b : m < 2 ^ (m.log2 + 1) := Nat.lt_log2_self
    have a' : (2 : ℚ) ^ m.log2 ≤ m := by exact_mod_cast a
    have b' : (m : ℚ) < 2 ^ (m.log2 + 1) := by exact_mod_cast b
    by_cases hl : (m.log2 : Int) + (E + k) ≤ 1023
    · have hok : dblOk m (E + k) = true := by
        simp only [dblOk, Bool.or_eq_true, Bool.and_eq_true, beq_iff_eq, decide_eq_true_eq]
        exact .inr ⟨⟨⟨h3, hm⟩, by omega⟩, hl⟩
      rw [dif_pos hok]
      refine .inl ⟨_, rfl, rfl, hv.symm, fun he => .inr ?_, ?_⟩
      · have : k ≠ 0 := by rintro rfl; simp at h1; omega
        show E < E + k
        omega
      · rw [hv]
        calc (m : ℚ) * 2 ^ (E + k) < 2 ^ (m.log2 + 1) * 2 ^ (E + k) := mul_lt_mul_of_pos_right b' (two_zpow_pos _)
          _ = 2 ^ (((m.log2 + 1 : Nat) : Int) + (E + k)) := by
            rw [zpow_add₀ (by norm_num) ((m.log2 + 1 : Nat) : Int), zpow_natCast]
          _ ≤ 2 ^ ((1024 : Nat) : Int) := zpow_le_zpow_right₀ (by norm_num) (by push_cast; omega)
          _ = 2 ^ 1024 := zpow_natCast _ _
    · have hok : ¬ dblOk m (E + k) = true := by
        simp only [dblOk, Bool.or_eq_true, Bool.and_eq_true, beq_iff_eq, decide_eq_true_eq]
        rintro (h | h)
        · exact hm0 h.1
        · exact hl h.2
      rw [dif_neg hok]
      refine .inr ⟨rfl, ?_⟩
      rw [hv]
      calc (2 : ℚ) ^ 1024 = 2 ^ ((1024 : Nat) : Int) := (zpow_natCast _ _).symm
        _ ≤ 2 ^ ((m.log2 : Int) + (E + k)) := zpow_le_zpow_right₀ (by norm_num) (by push_cast; omega)
        _ = 2 ^ m.log2 * 2 ^ (E + k) := by rw [zpow_add₀ (by norm_num) (m.log2 : Int), zpow_natCast]
        _ ≤ _ := mul_le_mul_of_nonneg_right a' (two_zpow_pos _).le

set_option exponentiation.threshold 2000 in
theorem top_value : (2 : ℚ) ^ 1024 - 2 ^ 970 = (2 ^ 53 - 1 / 2) * 2 ^ (971 : Int) := by norm_num

set_option exponentiation.threshold 2000 in
theorem top_zpow : (2 : ℚ) ^ 1024 = 2 ^ 53 * 2 ^ (971 : Int) := by norm_num

theorem roundRat_pos (neg : Bool) {n q : Nat} (hn : n ≠ 0) (hq : 0 < q) :
    ∃ (L E : Int) (M : Nat), (2 : ℚ) ^ L ≤ (n : ℚ) / q ∧ (n : ℚ) / q < 2 ^ (L + 1) ∧ E = max (-1074) (L - 52) ∧
      |(n : ℚ) / q * 2 ^ (-E) - M| ≤ 1 / 2 ∧ (|(n : ℚ) / q * 2 ^ (-E) - M| = 1 / 2 → M % 2 = 0) ∧
      roundRat neg n q = mkDbl neg M E := by
  have hx : (0 : ℚ) < (n : ℚ) / q := by positivity
  have hr : roundRat neg n q = mkDbl neg
      (roundDiv (scale2 n q (-max (-1074) (floorLog2 n q - 52))).1 (scale2 n q (-max (-1074) (floorLog2 n q - 52))).2)
      (max (-1074) (floorLog2 n q - 52)) := by
    unfold roundRat
    rw [if_neg hn]
  rw [floorLog2_eq (Nat.pos_of_ne_zero hn) hq] at hr
  have hlo : (2 : ℚ) ^ Int.log 2 ((n : ℚ) / q) ≤ (n : ℚ) / q := by
    have := Int.zpow_log_le_self (b := 2) (by decide) hx
    exact_mod_cast this
  have hhi : (n : ℚ) / q < 2 ^ (Int.log 2 ((n : ℚ) / q) + 1) := by
    have := Int.lt_zpow_succ_log_self (b := 2) (by decide) ((n : ℚ) / q)
    exact_mod_cast this
  obtain ⟨h1, h2⟩ := roundDiv_half (n := (scale2 n q (-max (-1074) (Int.log 2 ((n : ℚ) / q) - 52))).1)
    (scale2_pos (n := n) (k := -max (-1074) (Int.log 2 ((n : ℚ) / q) - 52)) hq)
  rw [scale2_val hq] at h1 h2
  exact ⟨_, _, _, hlo, hhi, rfl, h1, h2, hr⟩

theorem sign_abs (neg : Bool) (x y : ℚ) : |(if neg then -1 else 1) * x - y| = |x - (if neg then -1 else 1) * y| := by
  cases neg
  · simp
  · simp only [if_pos]
    rw [← abs_neg]
    congr 1
    ring

set_option exponentiation.threshold 2000 in
/-- Reading a number gives the nearest float. -/
theorem roundRat_nearest (neg : Bool) (n : Nat) {q : Nat} (hq : 0 < q) :
    Nearest ((if neg then -1 else 1) * ((n : ℚ) / q)) (roundRat neg n q) := by
  by_cases hn : n = 0
  · subst hn
    have hz : roundRat neg 0 q = .fin ⟨neg, 0, 0, rfl⟩ := by unfold roundRat; rw [if_pos rfl]
    rw [hz]
    refine .fin _ ?_ (fun d' => ?_) (fun d' _ => .inr (.inl rfl))
    · norm_num
    · simp [floatValue]
  · obtain ⟨L, E, M, hlo, hhi, hE, h1, h2, hr⟩ := roundRat_pos neg hn hq
    rw [hr]
    set x : ℚ := (n : ℚ) / q with hx
    have hp := two_zpow_pos E
    have hxE : x = x * 2 ^ (-E) * 2 ^ E := by
      rw [mul_assoc, ← zpow_add₀ (by norm_num)]; simp
    have hM : M ≤ 2 ^ 53 := by
      have h3 : x * 2 ^ (-E) < 2 ^ 53 := by
        have : x < 2 ^ 53 * 2 ^ E := hhi.trans_le (by
          rw [← zpow_natCast, ← zpow_add₀ (by norm_num)]
          exact zpow_le_zpow_right₀ (by norm_num) (by push_cast; omega))
        rw [hxE] at this
        exact lt_of_mul_lt_mul_right this hp.le
      have h4 := (abs_le.1 h1).1
      have h5 : (M : ℚ) < 2 ^ 53 + 1 := by linarith
      have : M < 2 ^ 53 + 1 := by exact_mod_cast h5
      omega
    have hx0 : 0 < x := lt_of_lt_of_le (two_zpow_pos L) hlo
    have hax : |(if neg then -1 else 1) * x| = x := by
      cases neg
      · simp [abs_of_pos hx0]
      · simp [abs_of_pos hx0]
    rcases mkDbl_cases neg M E (by omega) hM with ⟨d, hd, hneg, hv, hev, hlt⟩ | ⟨hd, hge⟩
    · rw [hd]
      have hfv : (if neg then -1 else 1) * floatValue d = M * 2 ^ E := by
        unfold floatValue; rw [hneg, hv]; cases neg <;> simp
      have mirror : ∀ d' : Dbl, ∃ d'' : Dbl, d''.e = d'.e ∧ floatValue d'' = (if neg then -1 else 1) * floatValue d' := by
        intro d'
        cases neg
        · exact ⟨d', rfl, by simp⟩
        · refine ⟨⟨!d'.neg, d'.m, d'.e, d'.ok⟩, rfl, ?_⟩
          unfold floatValue
          cases d'.neg <;> simp
      refine .fin d ?_ (fun d' => ?_) (fun d' ht => ?_)
      · rw [hax]
        by_contra hc
        have hc := not_lt.1 hc
        rw [top_value] at hc
        have hL : 1023 ≤ L := by
          by_contra hL
          have : x < 2 ^ (1023 : Int) := hhi.trans_le (zpow_le_zpow_right₀ (by norm_num) (by omega))
          have h5 : (2 : ℚ) ^ (1023 : Int) ≤ (2 ^ 53 - 1 / 2) * 2 ^ (971 : Int) := by norm_num
          linarith
        have hEL : E = L - 52 := by omega
        rcases Int.lt_or_le 1023 L with hL' | hL'
        · have h3 : (2 : ℚ) ^ 52 ≤ x * 2 ^ (-E) := by
            have : (2 : ℚ) ^ 52 * 2 ^ E ≤ x := by
              refine le_trans (le_of_eq ?_) hlo
              rw [← zpow_natCast, ← zpow_add₀ (by norm_num)]
              congr 1; push_cast; omega
            rw [hxE] at this
            exact le_of_mul_le_mul_right this hp
          have h4 := (abs_le.1 h1).2
          have h5 : (2 : ℚ) ^ 52 < M + 1 := by linarith
          have h6 : 2 ^ 52 < M + 1 := by exact_mod_cast h5
          have h7 : (2 : ℚ) ^ 52 ≤ M := by
            have : 2 ^ 52 ≤ M := by omega
            exact_mod_cast this
          have h8 : (2 : ℚ) ^ 1024 ≤ M * 2 ^ E := by
            calc (2 : ℚ) ^ 1024 = 2 ^ 52 * 2 ^ (972 : Int) := by norm_num
              _ ≤ 2 ^ 52 * 2 ^ E := mul_le_mul_of_nonneg_left (zpow_le_zpow_right₀ (by norm_num) (by omega)) (by positivity)
              _ ≤ _ := mul_le_mul_of_nonneg_right h7 hp.le
          linarith
        · have hE' : E = 971 := by omega
          rw [hE'] at hxE hlt h1 h2 hp
          rw [hxE] at hc
          have h3 := le_of_mul_le_mul_right hc hp
          rw [top_zpow] at hlt
          have h4 := lt_of_mul_lt_mul_right hlt hp.le
          have h5 : M < 2 ^ 53 := by exact_mod_cast h4
          have h6 : (M : ℚ) ≤ 2 ^ 53 - 1 := by
            have : M + 1 ≤ 2 ^ 53 := h5
            have : (M : ℚ) + 1 ≤ 2 ^ 53 := by exact_mod_cast this
            linarith
          have h7 := (abs_le.1 h1).2
          have h8 : x * 2 ^ (-971 : Int) = M + 1 / 2 := by linarith
          have h9 : (M : ℚ) = 2 ^ 53 - 1 := by linarith
          have h10 := h2 (by rw [h8]; norm_num)
          have h11 : M + 1 = 2 ^ 53 := by
            have : (M : ℚ) + 1 = 2 ^ 53 := by linarith
            exact_mod_cast this
          omega
      · obtain ⟨d'', _, h4⟩ := mirror d'
        rw [sign_abs, sign_abs, hfv, ← h4]
        exact (grid_near hlo hE h1 h2 d'').1
      · obtain ⟨d'', h3, h4⟩ := mirror d'
        rw [sign_abs, sign_abs, hfv, ← h4] at ht
        rcases (grid_near hlo hE h1 h2 d'').2 ht with h5 | ⟨h5, h6⟩
        · left
          rw [h4, ← hfv] at h5
          cases neg
          · simpa using h5
          · simpa using h5
        · right
          rw [h3] at h6
          rw [h6]
          exact hev h5
    · rw [hd]
      refine .inf neg ?_
      have hx' : (if neg then -((if neg then -1 else 1) * x) else (if neg then -1 else 1) * x) = x := by
        cases neg <;> simp
      rw [hx']
      rcases Int.lt_or_le 971 E with hE' | hE'
      · have h3 : (2 : ℚ) ^ 1024 ≤ x := by
          calc (2 : ℚ) ^ 1024 = 2 ^ ((1024 : Nat) : Int) := (zpow_natCast _ _).symm
            _ ≤ 2 ^ L := zpow_le_zpow_right₀ (by norm_num) (by push_cast; omega)
            _ ≤ x := hlo
        have h4 : (0 : ℚ) ≤ 2 ^ 970 := by positivity
        linarith
      · have h3 : (971 : Int) ≤ E := by
          by_contra hc
          have h4 : (M : ℚ) * 2 ^ E ≤ 2 ^ 53 * 2 ^ (970 : Int) :=
            mul_le_mul (by exact_mod_cast hM) (zpow_le_zpow_right₀ (by norm_num) (by omega)) hp.le (by positivity)
          have h5 : (2 : ℚ) ^ 53 * 2 ^ (970 : Int) < 2 ^ 1024 := by norm_num
          linarith
        have hE2 : E = 971 := by omega
        rw [hE2] at hxE hge h1 hp
        rw [top_zpow] at hge
        have h4 := le_of_mul_le_mul_right hge hp
        have h5 := (abs_le.1 h1).1
        rw [top_value, hxE]
        exact mul_le_mul_of_nonneg_right (by linarith) hp.le

theorem ofDecimal_nearest (neg : Bool) (n : Nat) (p : Int) :
    Nearest ((if neg then -1 else 1) * (n * 10 ^ p)) (ofDecimal neg n p) := by
  have := roundRat_nearest neg (scale10 n 1 p).1 (scale10_pos (n := n) (d := 1) (k := p) (by decide))
  rw [scale10_val (by decide), Nat.cast_one, div_one] at this
  exact this

/-- Non-zero floats with the same value are the same. -/
theorem floatValue_inj {a b : Dbl} (h0 : a.m ≠ 0) (h : floatValue a = floatValue b) : a = b := by
  have habs : (a.m : ℚ) * 2 ^ a.e = b.m * 2 ^ b.e := by rw [← abs_floatValue, ← abs_floatValue, h]
  have hpos : (0 : ℚ) < a.m * 2 ^ a.e := mul_pos (by positivity) (two_zpow_pos _)
  have hb : b.m ≠ 0 := by
    intro hb
    rw [hb] at habs
    simp only [Nat.cast_zero, zero_mul] at habs
    exact absurd habs hpos.ne'
  have hneg : a.neg = b.neg := by
    unfold floatValue at h
    rw [← habs] at h
    have := mul_right_cancel₀ hpos.ne' h
    cases ha : a.neg <;> cases hb : b.neg <;> rw [ha, hb] at this <;> first | rfl | norm_num at this
  have ha' := roundRat_exact a h0 (n := a.ratio.1) (q := a.ratio.2) (scale2_pos (by decide))
    (by unfold Dbl.ratio; rw [scale2_val (by decide)]; simp)
  have hb' := roundRat_exact b hb (n := a.ratio.1) (q := a.ratio.2) (scale2_pos (by decide))
    (by unfold Dbl.ratio; rw [scale2_val (by decide), ← habs]; simp)
  rw [hneg, hb'] at ha'
  injection ha' with ha'
  exact ha'.symm

theorem abs_le_max {a b c : ℚ} (h : (a ≤ b ∧ b ≤ c) ∨ (c ≤ b ∧ b ≤ a)) : |b| ≤ max |a| |c| := by
  rw [abs_le, ← neg_le]
  have h1 := le_abs_self a
  have h2 := neg_le_abs a
  have h3 := le_abs_self c
  have h4 := neg_le_abs c
  have h5 := le_max_left |a| |c|
  have h6 := le_max_right |a| |c|
  rcases h with h | h
  · exact ⟨by linarith, by linarith⟩
  · exact ⟨by linarith, by linarith⟩

theorem floatValue_le_top (d : Dbl) : |floatValue d| ≤ (2 ^ 53 - 1) * 2 ^ (971 : Int) := by
  rw [abs_floatValue]
  have hp := two_zpow_pos 971
  by_cases h : d.m = 0
  · rw [h, Nat.cast_zero, zero_mul]
    exact mul_nonneg (by norm_num) hp.le
  · obtain ⟨_, h1, h2, h3⟩ := dbl_bounds d h
    have b : d.m < 2 ^ (d.m.log2 + 1) := Nat.lt_log2_self
    rcases Int.lt_or_le 971 d.e with h4 | h4
    · have h5 : (d.m : ℚ) * 2 ^ d.e ≤ (2 ^ (d.m.log2 + 1) - 1) * 2 ^ d.e := by
        refine mul_le_mul_of_nonneg_right ?_ (two_zpow_pos _).le
        have : d.m + 1 ≤ 2 ^ (d.m.log2 + 1) := b
        have : (d.m : ℚ) + 1 ≤ 2 ^ (d.m.log2 + 1) := by exact_mod_cast this
        linarith
      refine h5.trans ?_
      rw [sub_mul, one_mul, sub_mul, one_mul]
      have e1 : (2 : ℚ) ^ (d.m.log2 + 1) * 2 ^ d.e ≤ 2 ^ 53 * 2 ^ (971 : Int) := by
        rw [← zpow_natCast, ← zpow_add₀ (by norm_num), ← zpow_natCast, ← zpow_add₀ (by norm_num)]
        exact zpow_le_zpow_right₀ (by norm_num) (by push_cast; omega)
      have e2 : (2 : ℚ) ^ (971 : Int) ≤ 2 ^ d.e := zpow_le_zpow_right₀ (by norm_num) h4.le
      exact sub_le_sub e1 e2
    · exact (dbl_le d).trans (mul_le_mul_of_nonneg_left (zpow_le_zpow_right₀ (by norm_num) h4) (by norm_num))

theorem floatValue_lt_top (d : Dbl) : |floatValue d| < 2 ^ 1024 - 2 ^ 970 := by
  rw [top_value]
  exact (floatValue_le_top d).trans_lt (mul_lt_mul_of_pos_right (by norm_num) (two_zpow_pos _))

/-- The number a float is rounded from determines it. -/
theorem nearest_unique {x : ℚ} {a : Dbl} {f : PyFloat} (h0 : a.m ≠ 0) (ha : Nearest x (.fin a)) (hf : Nearest x f) : f = .fin a := by
  cases ha with
  | fin _ h1 h2 h3 =>
    cases hf with
    | inf neg h4 =>
      exfalso
      have h5 := le_abs_self x
      have h6 := neg_le_abs x
      generalize (2 : ℚ) ^ 1024 - 2 ^ 970 = top at *
      cases neg
      · simp only [Bool.false_eq_true, ↓reduceIte] at h4; linarith
      · simp only [↓reduceIte] at h4; linarith
    | fin b h4 h5 h6 =>
      have he : |x - floatValue a| = |x - floatValue b| := le_antisymm (h2 b) (h5 a)
      by_cases hv : floatValue b = floatValue a
      · rw [floatValue_inj h0 hv.symm]
      · exfalso
        rcases h3 b he with h | h | h
        · exact hv h
        · exact h0 h
        rcases h6 a he.symm with h' | h' | h'
        · exact hv h'.symm
        · have hb : b.e = 0 := by
            have := b.ok
            simp only [dblOk, Bool.or_eq_true, Bool.and_eq_true, beq_iff_eq, decide_eq_true_eq, h'] at this
            omega
          rw [hb] at h
          have hb0 : floatValue b = 0 := by unfold floatValue; rw [h']; simp
          rw [hb0, sub_zero] at he
          have h7 := h5 ⟨a.neg, 1, 0, rfl⟩
          rw [hb0, sub_zero] at h7
          have h8 : (2 : ℚ) ≤ a.m * 2 ^ a.e := by
            have e1 : (1 : ℚ) ≤ a.m := by exact_mod_cast Nat.pos_of_ne_zero h0
            have e2 : (2 : ℚ) ^ (1 : Int) ≤ 2 ^ a.e := zpow_le_zpow_right₀ (by norm_num) (by omega)
            have e3 : (0 : ℚ) < 2 ^ a.e := two_zpow_pos _
            rw [zpow_one] at e2
            nlinarith
          unfold floatValue at he h7
          generalize (a.m : ℚ) * 2 ^ a.e = v at *
          simp only [Nat.cast_one, zpow_zero, mul_one] at h7
          clear h1 h2 h3 h4 h5 h6 hv
          cases hn : a.neg <;> simp only [hn, ↓reduceIte, Bool.false_eq_true, one_mul, neg_one_mul, sub_neg_eq_add] at he h7
          · rcases abs_cases x with ⟨c1, c2⟩ | ⟨c1, c2⟩ <;> rcases abs_cases (x - v) with ⟨c3, c4⟩ | ⟨c3, c4⟩ <;>
              rcases abs_cases (x - 1) with ⟨c5, c6⟩ | ⟨c5, c6⟩ <;> linarith
          · rcases abs_cases x with ⟨c1, c2⟩ | ⟨c1, c2⟩ <;> rcases abs_cases (x + v) with ⟨c3, c4⟩ | ⟨c3, c4⟩ <;>
              rcases abs_cases (x + 1) with ⟨c5, c6⟩ | ⟨c5, c6⟩ <;> linarith
        · omega

/-- Numbers between a float and a number rounded to it are rounded to it. -/
theorem nearest_between {D B : ℚ} {d : Dbl} (h : Nearest D (.fin d))
    (hb : (D ≤ B ∧ B ≤ floatValue d) ∨ (floatValue d ≤ B ∧ B ≤ D)) : Nearest B (.fin d) := by
  cases h with
  | fin _ h1 h2 h3 =>
    have hsum : |D - floatValue d| = |D - B| + |B - floatValue d| := by
      rcases hb with ⟨a, b⟩ | ⟨a, b⟩
      · rw [abs_of_nonpos (by linarith), abs_of_nonpos (by linarith), abs_of_nonpos (by linarith)]; ring
      · rw [abs_of_nonneg (by linarith), abs_of_nonneg (by linarith), abs_of_nonneg (by linarith)]; ring
    have htri : ∀ d', |D - floatValue d'| ≤ |D - B| + |B - floatValue d'| := fun d' => abs_sub_le _ _ _
    refine .fin d ?_ (fun d' => ?_) (fun d' ht => ?_)
    · exact lt_of_le_of_lt (abs_le_max hb) (max_lt h1 (floatValue_lt_top d))
    · have := h2 d'; have := htri d'; linarith
    · exact h3 d' (le_antisymm (h2 d') (by have := htri d'; linarith))

/-- Different floats differ by more than a part of 2^53. -/
theorem floatValue_gap {a b : Dbl} (h : floatValue a ≠ floatValue b) :
    |floatValue a| * 2 ^ (-53 : Int) ≤ |floatValue a - floatValue b| := by
  have key : ∀ E : Int, E ≤ a.e → E ≤ b.e → (2 : ℚ) ^ E ≤ |floatValue a - floatValue b| := by
    intro E h1 h2
    rcases floatValue_grid a E with ⟨k, hk, _⟩ | ⟨hk, _⟩
    · rcases floatValue_grid b E with ⟨j, hj, _⟩ | ⟨hj, _⟩
      · rw [hk, hj, ← sub_mul, abs_mul, abs_of_pos (two_zpow_pos E)]
        have hne : k - j ≠ 0 := by
          intro h0
          apply h
          rw [hk, hj, show k = j by omega]
        have : (1 : ℚ) ≤ |(k : ℚ) - j| := by
          have := Int.one_le_abs hne
          exact_mod_cast this
        have hp := two_zpow_pos E
        nlinarith
      · omega
    · omega
  by_cases hle : a.e ≤ b.e
  · refine le_trans ?_ (key a.e le_rfl hle)
    rw [abs_floatValue]
    have := (dbl_lt a).1
    rw [zpow_neg, ← div_eq_mul_inv, div_le_iff₀ (by positivity)]
    have e : (2 : ℚ) ^ (53 : Int) = 2 ^ 53 := by norm_num
    rw [e]; linarith
  · have hk := key b.e (by omega) le_rfl
    have hb := dbl_le b
    rw [← abs_floatValue] at hb
    have e : (2 : ℚ) ^ (-53 : Int) = 1 / 2 ^ 53 := by norm_num
    rw [e, mul_one_div, div_le_iff₀ (by positivity)]
    have htri := abs_sub_abs_le_abs_sub (floatValue a) (floatValue b)
    generalize |floatValue a| = x at *
    generalize |floatValue b| = y at *
    generalize |floatValue a - floatValue b| = g at *
    generalize (2 : ℚ) ^ b.e = u at *
    by_cases hc : x ≤ 2 ^ 53 * u
    · nlinarith
    · nlinarith

theorem ten_zpow_pos (k : Int) : (0 : ℚ) < 10 ^ k := zpow_pos (by norm_num) k


theorem natStrAux_range : ∀ (f n : Nat), n < f → n ≠ 0 →
    10 ^ (natStrAux f n).length ≤ n * 10 ∧ n < 10 ^ (natStrAux f n).length
  | 0, n, h, _ => by omega
  | f + 1, n, h, h0 => by
    unfold natStrAux
    split
    · simp; omega
    · obtain ⟨h1, h2⟩ := natStrAux_range f (n / 10) (by omega) (by omega)
      simp only [List.length_append, List.length_cons, List.length_nil, Nat.zero_add, Nat.pow_succ]
      omega

theorem leadZeros_spec : ∀ (f n q : Nat), n < q → q ≤ n * 10 ^ f →
    n * 10 ^ leadZeros n q f < q ∧ q ≤ n * 10 ^ leadZeros n q f * 10
  | 0, n, q, h, h' => by simp at h'; omega
  | f + 1, n, q, h, h' => by
    unfold leadZeros
    split
    · rename_i h1; simp; exact ⟨h, h1⟩
    · rename_i h1
      obtain ⟨h2, h3⟩ := leadZeros_spec f (n * 10) q (by omega) (by rw [Nat.pow_succ] at h'; rw [Nat.mul_assoc, Nat.mul_comm 10]; exact h')
      rw [Nat.add_comm, Nat.pow_succ, ← Nat.mul_assoc]
      have e : n * 10 * 10 ^ leadZeros (n * 10) q f = n * 10 ^ leadZeros (n * 10) q f * 10 := by ring
      rw [e] at h2 h3
      exact ⟨h2, h3⟩

theorem decPoint_spec {n q : Nat} (hq : 0 < q) (hs : q ≤ n * 10 ^ 400) :
    (10 : ℚ) ^ (decPoint n q - 1) ≤ (n : ℚ) / q ∧ (n : ℚ) / q < 10 ^ decPoint n q := by
  have hq' : (0 : ℚ) < q := by exact_mod_cast hq
  unfold decPoint
  split
  · rename_i h
    have h0 : n / q ≠ 0 := by have := Nat.div_pos h hq; omega
    obtain ⟨h1, h2⟩ := natStrAux_range _ _ (Nat.lt_succ_self (n / q)) h0
    change 10 ^ (natStr (n / q)).length ≤ _ at h1
    change _ < 10 ^ (natStr (n / q)).length at h2
    generalize (natStr (n / q)).length = k at *
    constructor
    · rw [le_div_iff₀ hq', zpow_sub₀ (by norm_num), zpow_natCast, zpow_one]
      have h3 : 10 ^ k * q ≤ n * 10 := by
        calc 10 ^ k * q ≤ n / q * 10 * q := Nat.mul_le_mul_right _ h1
          _ = n / q * q * 10 := by ring
          _ ≤ n * 10 := Nat.mul_le_mul_right _ (Nat.div_mul_le_self _ _)
      have h3' : (10 : ℚ) ^ k * q ≤ n * 10 := by exact_mod_cast h3
      linarith
    · rw [div_lt_iff₀ hq', zpow_natCast]
      have h3 : n < 10 ^ k * q := by
        rw [Nat.mul_comm]
        exact (Nat.div_lt_iff_lt_mul hq).1 h2 |>.trans_eq (Nat.mul_comm _ _)
      exact_mod_cast h3
  · rename_i h
    obtain ⟨h1, h2⟩ := leadZeros_spec 400 n q (by omega) hs
    generalize leadZeros n q 400 = j at *
    have h1' : (n : ℚ) * 10 ^ j < q := by exact_mod_cast h1
    have h2' : (q : ℚ) ≤ n * 10 ^ j * 10 := by exact_mod_cast h2
    have hj : (0 : ℚ) < 10 ^ j := by positivity
    constructor
    · rw [le_div_iff₀ hq', zpow_sub₀ (by norm_num), zpow_neg, zpow_natCast, zpow_one, div_mul_eq_mul_div, div_le_iff₀ (by norm_num),
        inv_mul_le_iff₀ hj]
      linarith
    · rw [div_lt_iff₀ hq', zpow_neg, zpow_natCast, lt_inv_mul_iff₀ hj]
      linarith

theorem ratio_val (d : Dbl) : (d.ratio.1 : ℚ) / d.ratio.2 = d.m * 2 ^ d.e := by
  unfold Dbl.ratio; rw [scale2_val (by decide)]; simp

theorem ratio_pos (d : Dbl) : 0 < d.ratio.2 := scale2_pos (by decide)

set_option exponentiation.threshold 2000 in
theorem ratio_size (d : Dbl) (h0 : d.m ≠ 0) : d.ratio.1 ≠ 0 ∧ d.ratio.2 ≤ d.ratio.1 * 10 ^ 400 := by
  obtain ⟨_, _, h2, _⟩ := dbl_bounds d h0
  unfold Dbl.ratio scale2
  split
  · refine ⟨by positivity, ?_⟩
    have : 0 < d.m * 2 ^ d.e.toNat * 10 ^ 400 := by positivity
    exact this
  · refine ⟨h0, ?_⟩
    simp only [one_mul]
    calc 2 ^ (-d.e).toNat ≤ 2 ^ 1074 := Nat.pow_le_pow_right (by decide) (by omega)
      _ ≤ (2 ^ 3) ^ 400 := by rw [← Nat.pow_mul]; exact Nat.pow_le_pow_right (by decide) (by decide)
      _ ≤ 10 ^ 400 := Nat.pow_le_pow_left (by decide) _
      _ ≤ d.m * 10 ^ 400 := Nat.le_mul_of_pos_left _ (by omega)

/-- One step of the search: the two decimals with `k` digits around the float. -/
theorem step_between {X : ℚ} {P S : Int} {k n' : Nat} {p' : Int} {lo : Nat} (hk : 0 < k) (hS : S = k - P)
    (h1 : (10 : ℚ) ^ (P - 1) ≤ X) (hlo : (lo : ℚ) ≤ X * 10 ^ S) (hhi : X * 10 ^ S < lo + 1) (hn : n' < 10 ^ k) :
    (n' * (10 : ℚ) ^ p' ≤ lo * 10 ^ (-S) ∧ (lo : ℚ) * 10 ^ (-S) ≤ X) ∨
      (X ≤ ((lo + 1 : Nat) : ℚ) * 10 ^ (-S) ∧ ((lo + 1 : Nat) : ℚ) * 10 ^ (-S) ≤ n' * 10 ^ p') := by
  have hS0 := ten_zpow_pos S
  have hinv : ∀ y : ℚ, y * 10 ^ S * 10 ^ (-S) = y := by
    intro y; rw [mul_assoc, ← zpow_add₀ (by norm_num)]; simp
  have hN := ten_zpow_pos (-S)
  have loX : (lo : ℚ) * 10 ^ (-S) ≤ X := by
    rw [← hinv X]; exact mul_le_mul_of_nonneg_right hlo hN.le
  have hiX : X ≤ ((lo + 1 : Nat) : ℚ) * 10 ^ (-S) := by
    rw [← hinv X]; push_cast; exact mul_le_mul_of_nonneg_right hhi.le hN.le
  by_cases hp : -S ≤ p'
  · obtain ⟨j, hj⟩ := Int.eq_ofNat_of_zero_le (show 0 ≤ p' + S by omega)
    have hD : (n' : ℚ) * 10 ^ p' = ((n' * 10 ^ j : Nat) : ℚ) * 10 ^ (-S) := by
      rw [show p' = j + -S by omega, zpow_add₀ (by norm_num), zpow_natCast]; push_cast; ring
    rw [hD]
    rcases Nat.lt_or_ge lo (n' * 10 ^ j) with h | h
    · right
      refine ⟨hiX, mul_le_mul_of_nonneg_right ?_ hN.le⟩
      exact_mod_cast h
    · left
      refine ⟨mul_le_mul_of_nonneg_right ?_ hN.le, loX⟩
      exact_mod_cast h
  · left
    refine ⟨?_, loX⟩
    have e1 : (n' : ℚ) * 10 ^ p' ≤ 10 ^ (P - 1) := by
      calc (n' : ℚ) * 10 ^ p' ≤ 10 ^ k * 10 ^ p' := mul_le_mul_of_nonneg_right (by exact_mod_cast hn.le) (ten_zpow_pos _).le
        _ = 10 ^ ((k : Int) + p') := by rw [zpow_add₀ (by norm_num), zpow_natCast]
        _ ≤ 10 ^ (P - 1) := zpow_le_zpow_right₀ (by norm_num) (by omega)
    refine e1.trans ?_
    obtain ⟨j, rfl⟩ : ∃ j, k = j + 1 := ⟨k - 1, by omega⟩
    have e2 : (10 : ℚ) ^ (P - 1) = 10 ^ j * 10 ^ (-S) := by
      rw [← zpow_natCast, ← zpow_add₀ (by norm_num)]; congr 1; push_cast at hS; omega
    rw [e2]
    refine mul_le_mul_of_nonneg_right ?_ hN.le
    have e3 : (10 : ℚ) ^ j < lo + 1 := by
      refine lt_of_le_of_lt ?_ hhi
      have : (10 : ℚ) ^ j = 10 ^ (P - 1) * 10 ^ S := by rw [e2, mul_assoc, ← zpow_add₀ (by norm_num)]; simp
      rw [this]
      exact mul_le_mul_of_nonneg_right h1 hS0.le
    have e4 : 10 ^ j < lo + 1 := by exact_mod_cast e3
    have e5 : 10 ^ j ≤ lo := by omega
    exact_mod_cast e5

/-- The decimal `± n · 10^p`, with the sign of `d`, is rounded to `d`. -/
def RoundsTo (d : Dbl) (n : Nat) (p : Int) : Prop := Nearest ((if d.neg then -1 else 1) * (n * 10 ^ p)) (.fin d)

theorem roundsTo_iff {d : Dbl} (h0 : d.m ≠ 0) (n : Nat) (p : Int) : ofDecimal d.neg n p = .fin d ↔ RoundsTo d n p := by
  have := ofDecimal_nearest d.neg n p
  constructor
  · intro h; rw [h] at this; exact this
  · intro h; exact nearest_unique h0 h this

theorem roundsTo_between {d : Dbl} {n n' : Nat} {p p' : Int} (h : RoundsTo d n' p')
    (hb : ((n' : ℚ) * 10 ^ p' ≤ n * 10 ^ p ∧ (n : ℚ) * 10 ^ p ≤ d.m * 2 ^ d.e) ∨
      ((d.m : ℚ) * 2 ^ d.e ≤ n * 10 ^ p ∧ (n : ℚ) * 10 ^ p ≤ n' * 10 ^ p')) : RoundsTo d n p := by
  unfold RoundsTo at *
  refine nearest_between h ?_
  unfold floatValue
  cases d.neg
  · simp only [Bool.false_eq_true, ↓reduceIte, one_mul]
    exact hb
  · simp only [↓reduceIte, neg_one_mul, neg_le_neg_iff]
    rcases hb with ⟨a, b⟩ | ⟨a, b⟩
    · exact .inr ⟨b, a⟩
    · exact .inl ⟨b, a⟩

theorem roundsTo_ne_zero {d : Dbl} (h0 : d.m ≠ 0) {n : Nat} {p : Int} (h : RoundsTo d n p) : n ≠ 0 := by
  rintro rfl
  rw [← roundsTo_iff h0, ofDecimal_zero] at h
  injection h with h
  rw [← h] at h0
  exact h0 rfl

theorem roundsTo_congr {d : Dbl} {n n' : Nat} {p p' : Int} (h : (n : ℚ) * 10 ^ p = n' * 10 ^ p') : RoundsTo d n p ↔ RoundsTo d n' p' := by
  unfold RoundsTo; rw [h]

/-- A decimal that is nearer to a float than a part of 2^54 is rounded to it. -/
theorem roundsTo_near {d : Dbl} {n : Nat} {p : Int}
    (h : |(n : ℚ) * 10 ^ p - d.m * 2 ^ d.e| < d.m * 2 ^ d.e * 2 ^ (-54 : Int)) : ofDecimal d.neg n p = .fin d := by
  have h0 : d.m ≠ 0 := by
    intro h0
    rw [h0] at h
    simp only [Nat.cast_zero, zero_mul] at h
    exact absurd h (not_lt.2 (abs_nonneg _))
  have hn := ofDecimal_nearest d.neg n p
  have hs : ∀ y : ℚ, |(if d.neg then -1 else 1) * y| = |y| := by intro y; cases d.neg <;> simp
  have hD : |(if d.neg then -1 else 1) * ((n : ℚ) * 10 ^ p) - floatValue d| = |(n : ℚ) * 10 ^ p - d.m * 2 ^ d.e| := by
    unfold floatValue; rw [← mul_sub, hs]
  cases hf : ofDecimal d.neg n p with
  | nan => rw [hf] at hn; cases hn
  | inf neg =>
    exfalso
    have e1 : neg = d.neg := by
      unfold ofDecimal roundRat mkDbl at hf
      simp only at hf
      split at hf
      · cases hf
      · split at hf
        · cases hf
        · injection hf with hf; exact hf.symm
    rw [hf] at hn
    cases hn with
    | inf _ hb =>
      rw [e1] at hb
      have e2 : (n : ℚ) * 10 ^ p ≥ 2 ^ 1024 - 2 ^ 970 := by
        cases hng : d.neg <;> simp only [hng, Bool.false_eq_true, ↓reduceIte, one_mul, neg_one_mul, neg_neg] at hb <;> exact hb
      have e3 := floatValue_le_top d
      rw [top_value] at e2
      rw [abs_floatValue] at e3
      have e4 := le_abs_self ((n : ℚ) * 10 ^ p - d.m * 2 ^ d.e)
      have e5 : (2 : ℚ) ^ (-54 : Int) = 1 / 2 ^ 54 := by norm_num
      rw [e5] at h
      have e6 := two_zpow_pos 971
      generalize (2 : ℚ) ^ (971 : Int) = u at *
      generalize (d.m : ℚ) * 2 ^ d.e = x at *
      generalize (n : ℚ) * 10 ^ p = y at *
      linarith
  | fin b =>
    rw [hf] at hn
    cases hn with
    | fin _ _ h2 _ =>
      have h3 := h2 d
      rw [hD] at h3
      by_cases hv : floatValue d = floatValue b
      · rw [floatValue_inj h0 hv]
      · exfalso
        have h4 := floatValue_gap hv
        rw [abs_floatValue] at h4
        have h5 := abs_sub_le (floatValue d) ((if d.neg then -1 else 1) * ((n : ℚ) * 10 ^ p)) (floatValue b)
        rw [abs_sub_comm (floatValue d) (_ * _), hD] at h5
        have e : (2 : ℚ) ^ (-53 : Int) = 2 * 2 ^ (-54 : Int) := by norm_num
        rw [e] at h4
        linarith

/-- Seventeen digits suffice. -/
theorem seventeen (d : Dbl) (h0 : d.m ≠ 0) : ∃ n p, n < 10 ^ 17 ∧ RoundsTo d n p := by
  obtain ⟨h1, h2⟩ := ratio_size d h0
  obtain ⟨h3, h4⟩ := decPoint_spec (ratio_pos d) h2
  rw [ratio_val] at h3 h4
  generalize decPoint d.ratio.1 d.ratio.2 = P at *
  have hX : (0 : ℚ) < d.m * 2 ^ d.e := mul_pos (by positivity) (two_zpow_pos _)
  obtain ⟨h5, _⟩ := roundDiv_half (n := (scale10 d.ratio.1 d.ratio.2 (17 - P)).1) (scale10_pos (n := d.ratio.1) (k := 17 - P) (ratio_pos d))
  rw [scale10_val (ratio_pos d), ratio_val] at h5
  generalize roundDiv (scale10 d.ratio.1 d.ratio.2 (17 - P)).1 (scale10 d.ratio.1 d.ratio.2 (17 - P)).2 = r at *
  have hp := ten_zpow_pos (17 - P)
  have hq := ten_zpow_pos (-(17 - P))
  have hX1 : (d.m : ℚ) * 2 ^ d.e = d.m * 2 ^ d.e * 10 ^ (17 - P) * 10 ^ (-(17 - P)) := by
    rw [mul_assoc _ ((10 : ℚ) ^ (17 - P)), ← zpow_add₀ (by norm_num)]; simp
  have hnear : |(r : ℚ) * 10 ^ (-(17 - P)) - d.m * 2 ^ d.e| < d.m * 2 ^ d.e * 2 ^ (-54 : Int) := by
    have e1 : |(r : ℚ) * 10 ^ (-(17 - P)) - d.m * 2 ^ d.e| = |(d.m : ℚ) * 2 ^ d.e * 10 ^ (17 - P) - r| * 10 ^ (-(17 - P)) := by
      conv_lhs => rw [hX1]
      rw [← sub_mul, abs_mul, abs_of_pos hq, abs_sub_comm]
    rw [e1]
    have e2 : (10 : ℚ) ^ (-(17 - P)) = 10 ^ (P - 1) / 10 ^ 16 := by
      rw [eq_div_iff (by positivity), ← zpow_natCast, ← zpow_add₀ (by norm_num)]
      congr 1; push_cast; ring
    calc _ ≤ 1 / 2 * (10 : ℚ) ^ (-(17 - P)) := mul_le_mul_of_nonneg_right h5 hq.le
      _ = 1 / 2 * (10 ^ (P - 1) / 10 ^ 16) := by rw [e2]
      _ ≤ 1 / 2 * (d.m * 2 ^ d.e / 10 ^ 16) :=
        mul_le_mul_of_nonneg_left (div_le_div_of_nonneg_right h3 (by positivity)) (by norm_num)
      _ < _ := by
        have e3 : (2 : ℚ) ^ (-54 : Int) = 1 / 2 ^ 54 := by norm_num
        rw [e3]
        generalize (d.m : ℚ) * 2 ^ d.e = x at *
        linarith
  have hr := (roundsTo_iff h0 _ _).1 (roundsTo_near hnear)
  rcases Nat.lt_or_ge r (10 ^ 17) with h | h
  · exact ⟨r, _, h, hr⟩
  · refine ⟨1, 17 + -(17 - P), by norm_num, (roundsTo_congr ?_).1 hr⟩
    have e1 : (d.m : ℚ) * 2 ^ d.e * 10 ^ (17 - P) < 10 ^ 17 := by
      calc _ < (10 : ℚ) ^ P * 10 ^ (17 - P) := mul_lt_mul_of_pos_right h4 hp
        _ = 10 ^ (17 : Int) := by rw [← zpow_add₀ (by norm_num)]; congr 1; ring
        _ = 10 ^ 17 := by norm_num
    have e2 := (abs_le.1 h5).1
    have e3 : (r : ℚ) < 10 ^ 17 + 1 := by linarith
    have e4 : r < 10 ^ 17 + 1 := by exact_mod_cast e3
    have e5 : r = 10 ^ 17 := by omega
    rw [e5, zpow_add₀ (by norm_num)]
    norm_num

/-- What the search finds: a decimal that reads as the float, with at most `k` digits (or `10^k`), nearest of those, while
nothing with fewer than `k` digits reads as the float. -/
structure Found (d : Dbl) (k n : Nat) (p : Int) : Prop where
  pos : 0 < k
  le17 : k ≤ 17
  reads : RoundsTo d n p
  le : n ≤ 10 ^ k
  none : ∀ n' p', n' < 10 ^ (k - 1) → ¬ RoundsTo d n' p'
  near : ∀ n' p', RoundsTo d n' p' → n' < 10 ^ k → |(n : ℚ) * 10 ^ p - d.m * 2 ^ d.e| ≤ |(n' : ℚ) * 10 ^ p' - d.m * 2 ^ d.e|

theorem shortest_found (d : Dbl) (h0 : d.m ≠ 0) : ∀ f k, 0 < k → f + k = 18 → (∀ n' p', n' < 10 ^ (k - 1) → ¬ RoundsTo d n' p') →
    ∃ k', Found d k' (shortest d f k).1 (shortest d f k).2
  | 0, k, _, hf, hnone => by
    obtain ⟨n, p, h1, h2⟩ := seventeen d h0
    have : k = 18 := by omega
    subst this
    exact absurd h2 (hnone n p h1)
  | f + 1, k, hk, hf, hnone => by
    obtain ⟨h1, h2⟩ := ratio_size d h0
    obtain ⟨h3, h4⟩ := decPoint_spec (ratio_pos d) h2
    rw [ratio_val] at h3 h4
    unfold shortest
    simp only
    generalize decPoint d.ratio.1 d.ratio.2 = P at *
    generalize hS : (k : Int) - P = S at *
    have hv := scale10_val (n := d.ratio.1) (k := S) (ratio_pos d)
    rw [ratio_val] at hv
    have hvp := scale10_pos (n := d.ratio.1) (k := S) (ratio_pos d)
    obtain ⟨hr1, _⟩ := roundDiv_half (n := (scale10 d.ratio.1 d.ratio.2 S).1) hvp
    rw [hv] at hr1
    generalize roundDiv (scale10 d.ratio.1 d.ratio.2 S).1 (scale10 d.ratio.1 d.ratio.2 S).2 = r at *
    have hvp' : (0 : ℚ) < (scale10 d.ratio.1 d.ratio.2 S).2 := by exact_mod_cast hvp
    have hlo : (((scale10 d.ratio.1 d.ratio.2 S).1 / (scale10 d.ratio.1 d.ratio.2 S).2 : Nat) : ℚ) ≤ d.m * 2 ^ d.e * 10 ^ S := by
      rw [← hv, le_div_iff₀ hvp']
      exact_mod_cast Nat.div_mul_le_self _ _
    have hhi : d.m * 2 ^ d.e * 10 ^ S < (((scale10 d.ratio.1 d.ratio.2 S).1 / (scale10 d.ratio.1 d.ratio.2 S).2 : Nat) : ℚ) + 1 := by
      rw [← hv, div_lt_iff₀ hvp']
      have := Nat.lt_div_mul_add (a := (scale10 d.ratio.1 d.ratio.2 S).1) hvp
      have e : (scale10 d.ratio.1 d.ratio.2 S).1 <
        ((scale10 d.ratio.1 d.ratio.2 S).1 / (scale10 d.ratio.1 d.ratio.2 S).2 + 1) * (scale10 d.ratio.1 d.ratio.2 S).2 := by
        rw [Nat.add_mul, Nat.one_mul]; exact this
      exact_mod_cast e
    generalize (scale10 d.ratio.1 d.ratio.2 S).1 / (scale10 d.ratio.1 d.ratio.2 S).2 = lo at *
    have hle : lo + 1 ≤ 10 ^ k := by
      have e1 : (d.m : ℚ) * 2 ^ d.e * 10 ^ S < 10 ^ k := by
        calc _ < (10 : ℚ) ^ P * 10 ^ S := mul_lt_mul_of_pos_right h4 (ten_zpow_pos _)
          _ = 10 ^ (k : Int) := by rw [← zpow_add₀ (by norm_num)]; congr 1; omega
          _ = 10 ^ k := zpow_natCast _ _
      have e2 : (lo : ℚ) < 10 ^ k := by linarith
      have e3 : lo < 10 ^ k := by exact_mod_cast e2
      exact e3
    have hN := ten_zpow_pos (-S)
    have hinv : (d.m : ℚ) * 2 ^ d.e = d.m * 2 ^ d.e * 10 ^ S * 10 ^ (-S) := by
      rw [mul_assoc _ ((10 : ℚ) ^ S), ← zpow_add₀ (by norm_num)]; simp
    have dlo : |(lo : ℚ) * 10 ^ (-S) - d.m * 2 ^ d.e| = d.m * 2 ^ d.e - lo * 10 ^ (-S) := by
      rw [abs_sub_comm, abs_of_nonneg]
      have : (lo : ℚ) * 10 ^ (-S) ≤ d.m * 2 ^ d.e := by rw [hinv]; exact mul_le_mul_of_nonneg_right hlo hN.le
      linarith
    have dhi : |((lo + 1 : Nat) : ℚ) * 10 ^ (-S) - d.m * 2 ^ d.e| = (lo + 1 : Nat) * 10 ^ (-S) - d.m * 2 ^ d.e := by
      rw [abs_of_nonneg]
      have : (d.m : ℚ) * 2 ^ d.e ≤ (lo + 1 : Nat) * 10 ^ (-S) := by
        rw [hinv]; push_cast; exact mul_le_mul_of_nonneg_right hhi.le hN.le
      linarith
    have hstep : ∀ n' p', RoundsTo d n' p' → n' < 10 ^ k →
        (RoundsTo d lo (-S) ∧ |(lo : ℚ) * 10 ^ (-S) - d.m * 2 ^ d.e| ≤ |(n' : ℚ) * 10 ^ p' - d.m * 2 ^ d.e|) ∨
        (RoundsTo d (lo + 1) (-S) ∧ |((lo + 1 : Nat) : ℚ) * 10 ^ (-S) - d.m * 2 ^ d.e| ≤ |(n' : ℚ) * 10 ^ p' - d.m * 2 ^ d.e|) := by
      intro n' p' hr hn
      rcases step_between (p' := p') hk hS.symm h3 hlo hhi hn with ⟨a, b⟩ | ⟨a, b⟩
      · refine .inl ⟨roundsTo_between hr (.inl ⟨a, b⟩), ?_⟩
        rw [dlo, abs_sub_comm]
        exact le_trans (by linarith) (le_abs_self _)
      · refine .inr ⟨roundsTo_between hr (.inr ⟨a, b⟩), ?_⟩
        rw [dhi]
        exact le_trans (by linarith) (le_abs_self _)
    have hround : (r = lo → |(lo : ℚ) * 10 ^ (-S) - d.m * 2 ^ d.e| ≤ |((lo + 1 : Nat) : ℚ) * 10 ^ (-S) - d.m * 2 ^ d.e|) ∧
        (r ≠ lo → |((lo + 1 : Nat) : ℚ) * 10 ^ (-S) - d.m * 2 ^ d.e| ≤ |(lo : ℚ) * 10 ^ (-S) - d.m * 2 ^ d.e|) := by
      rw [dlo, dhi, hinv]
      obtain ⟨r1, r2⟩ := abs_le.1 hr1
      generalize (d.m : ℚ) * 2 ^ d.e * 10 ^ S = y at *
      generalize (10 : ℚ) ^ (-S) = u at *
      push_cast
      refine ⟨fun h => ?_, fun h => ?_⟩
      · rw [h] at r1 r2
        rw [← sub_mul, ← sub_mul]
        exact mul_le_mul_of_nonneg_right (by linarith) hN.le
      · rw [← sub_mul, ← sub_mul]
        refine mul_le_mul_of_nonneg_right ?_ hN.le
        have : lo + 1 ≤ r := by
          by_contra hc
          have : r + 1 ≤ lo := by omega
          have : (r : ℚ) + 1 ≤ lo := by exact_mod_cast this
          linarith
        have : (lo : ℚ) + 1 ≤ r := by exact_mod_cast this
        linarith
    have hkle : k ≤ 17 := by omega
    split
    · rename_i hc
      simp only [Bool.and_eq_true, beq_iff_eq, Bool.or_eq_true, Bool.not_eq_true', beq_eq_false_iff_ne, ne_eq, roundsTo_iff h0] at hc
      refine ⟨k, hk, hkle, hc.1, by simp only; omega, hnone, fun n' p' hr hn => ?_⟩
      rcases hstep n' p' hr hn with ⟨_, h⟩ | ⟨h, h'⟩
      · exact h
      · rcases hc.2 with h5 | h5
        · exact absurd h h5
        · exact (hround.1 h5).trans h'
    · rename_i hc
      simp only [Bool.and_eq_true, beq_iff_eq, Bool.or_eq_true, Bool.not_eq_true', beq_eq_false_iff_ne, ne_eq, roundsTo_iff h0,
        not_and, not_or, not_not] at hc
      split
      · rename_i hc2
        simp only [beq_iff_eq, roundsTo_iff h0] at hc2
        refine ⟨k, hk, hkle, hc2, hle, hnone, fun n' p' hr hn => ?_⟩
        rcases hstep n' p' hr hn with ⟨h, h'⟩ | ⟨_, h⟩
        · exact (hround.2 (hc h).2).trans h'
        · exact h
      · rename_i hc2
        simp only [beq_iff_eq, roundsTo_iff h0] at hc2
        refine shortest_found d h0 f (k + 1) (by omega) (by omega) (fun n' p' hn hr => ?_)
        rcases hstep n' p' hr (by simpa using hn) with ⟨h, _⟩ | ⟨h, _⟩
        · exact hc2 (hc h).1
        · exact hc2 h

theorem stripTens_mod : ∀ (f n : Nat) (p : Int), n ≤ f → n ≠ 0 → (stripTens f n p).1 % 10 ≠ 0
  | 0, n, p, h, h0 => by omega
  | f + 1, n, p, h, h0 => by
    unfold stripTens
    split
    · exact stripTens_mod f (n / 10) (p + 1) (by omega) (by omega)
    · rename_i hc; simp only; omega

theorem stripTens_pow : ∀ (f n : Nat) (p : Int), ∃ z, n = (stripTens f n p).1 * 10 ^ z
  | 0, n, p => ⟨0, by simp [stripTens]⟩
  | f + 1, n, p => by
    unfold stripTens
    split
    · rename_i hc
      obtain ⟨z, hz⟩ := stripTens_pow f (n / 10) (p + 1)
      refine ⟨z + 1, ?_⟩
      rw [Nat.pow_succ, ← Nat.mul_assoc, ← hz]
      omega
    · exact ⟨0, by simp⟩

/-- The digits of a float are the shortest that read as it. -/
theorem digits_shortest (d : Dbl) (h0 : d.m ≠ 0) : Shortest d d.digits.1 d.digits.2 := by
  obtain ⟨k, hF⟩ := shortest_found d h0 17 1 (by decide) rfl (by
    intro n' p' hn hr
    have : n' = 0 := by simpa using hn
    exact roundsTo_ne_zero h0 hr this)
  unfold Dbl.digits
  simp only
  have hval := stripTens_val (shortest d 17 1).1 (shortest d 17 1).1 (shortest d 17 1).2
  have hmod := stripTens_mod (shortest d 17 1).1 (shortest d 17 1).1 (shortest d 17 1).2 le_rfl (roundsTo_ne_zero h0 hF.reads)
  obtain ⟨z, hz⟩ := stripTens_pow (shortest d 17 1).1 (shortest d 17 1).1 (shortest d 17 1).2
  generalize stripTens (shortest d 17 1).1 (shortest d 17 1).1 (shortest d 17 1).2 = r at *
  generalize shortest d 17 1 = s at *
  obtain ⟨n, p⟩ := r
  obtain ⟨N, q⟩ := s
  simp only at *
  have hlt : n < 10 ^ k := by
    have h1 : n ≤ N := by rw [hz]; exact Nat.le_mul_of_pos_right _ (by positivity)
    have h2 := hF.le
    rcases Nat.lt_or_ge n (10 ^ k) with h | h
    · exact h
    · exfalso
      have e : n = 10 ^ k := by omega
      obtain ⟨j, rfl⟩ : ∃ j, k = j + 1 := ⟨k - 1, by have := hF.pos; omega⟩
      apply hmod
      rw [e, Nat.pow_succ]
      exact Nat.mul_mod_left _ _
  refine ⟨(roundsTo_congr hval).2 hF.reads, hmod, lt_of_lt_of_le hlt (Nat.pow_le_pow_right (by decide) hF.le17), ?_⟩
  intro n' p' j hr hn
  have hkj : k ≤ j := by
    by_contra hc
    refine hF.none n' p' (lt_of_lt_of_le hn (Nat.pow_le_pow_right (by decide) (by omega))) hr
  refine ⟨lt_of_lt_of_le hlt (Nat.pow_le_pow_right (by decide) hkj), fun h10 => ?_⟩
  have hjk : j ≤ k := by
    have : 10 ^ j < 10 ^ (k + 1) := by rw [Nat.pow_succ]; omega
    have := (Nat.pow_lt_pow_iff_right (by decide)).1 this
    omega
  have : j = k := by omega
  subst this
  rw [hval]
  exact hF.near n' p' hr hn

/-- The layout of digits is a text of the number. -/
theorem layout_text (n : Nat) (p : Int) : ∃ (i f ex : Str) (x : Int) (z : Nat),
    layoutRepr (natStr n) ((natStr n).length + p) = i ++ ((if f = [] then [] else '.' :: f) ++ ex) ∧ i ≠ [] ∧
      (∀ c ∈ i ++ f, digit c = true) ∧ readExponent ex = some x ∧ (f ≠ [] ∨ ex ≠ []) ∧
      numeral (i ++ f) = n * 10 ^ z ∧ x - f.length = p - z := by
  have hd : ∀ c ∈ natStr n, isDigit c = true := fun c hc => natStr_digits hc
  have h0 := natStr_ne_nil n
  have hv := numeral_natStr n
  generalize natStr n = ds at hd h0 hv ⊢
  subst hv
  rw [digit_eq]
  unfold layoutRepr
  split
  · have hx := readExponent_spec ((ds.length : Int) + p - 1)
    cases ds with
    | nil => exact absurd rfl h0
    | cons c cs =>
      refine ⟨[c], cs, _, _, 0, ?_, by simp, hd, hx, .inr (by simp), by simp, by simp; omega⟩
      by_cases hc : cs = []
      · subst hc; rfl
      · have hce : cs.isEmpty = false := by simp [hc]
        simp only [hce, hc, Bool.false_eq_true, if_false, List.cons_append, List.nil_append, List.append_assoc]
  · split
    · rename_i _ h
      refine ⟨['0'], List.replicate (-((ds.length : Int) + p)).toNat '0' ++ ds, [], 0, 0, ?_, by simp, ?_, rfl, .inl (by simp [h0]), ?_, ?_⟩
      · rw [if_neg (by simp [h0])]; simp
      · intro c hc
        simp only [List.mem_append, List.mem_replicate, List.mem_singleton] at hc
        rcases hc with rfl | hc | hc
        · decide
        · rw [hc.2]; decide
        · exact hd c hc
      · rw [List.singleton_append, ← List.cons_append, ← List.replicate_succ, numeral_append, numeral_zeros]; simp
      · simp only [List.length_append, List.length_replicate]
        push_cast; omega
    · split
      · rename_i _ _ h
        refine ⟨ds ++ List.replicate (((ds.length : Int) + p).toNat - ds.length) '0', ['0'], [], 0, p.toNat + 1, ?_, by simp [h0], ?_, rfl,
          .inl (by simp), ?_, ?_⟩
        · simp
        · intro c hc
          simp only [List.mem_append, List.mem_replicate, List.mem_singleton] at hc
          rcases hc with (hc | hc) | rfl
          · exact hd c hc
          · rw [hc.2]; decide
          · decide
        · rw [List.append_assoc, ← List.replicate_succ', numeral_append, numeral_zeros]
          simp only [List.length_replicate, Nat.add_zero]
          congr 2
          omega
        · simp; omega
      · rename_i _ h1 h2
        obtain ⟨j, hj⟩ := Int.eq_ofNat_of_zero_le (show 0 ≤ (ds.length : Int) + p by omega)
        rw [hj]
        simp only [Int.ofNat_eq_natCast, Int.toNat_natCast]
        have hjl : j < ds.length := by omega
        have hj0 : 0 < j := by omega
        have hne : ds.drop j ≠ [] := by intro h; have := congrArg List.length h; simp at this; omega
        refine ⟨ds.take j, ds.drop j, [], 0, 0, ?_, ?_, ?_, rfl, .inl hne, ?_, ?_⟩
        · rw [if_neg hne]; simp
        · intro h; have := congrArg List.length h; rw [List.length_take, List.length_nil] at this; omega
        · rw [List.take_append_drop]; exact hd
        · rw [List.take_append_drop]; simp
        · simp only [List.length_drop]; omega

end Verif
