import Verif.Spec.Decimal
import Verif.Lemmas.Boolean
import Verif.Lemmas.Numeral

/-!
# C20: the SAMPLE clause denotes the requested rate
-/

namespace Verif
open Spec

theorem readDecimal_digits {i f : Str} (hi : ∀ c ∈ i, isDigit c = true) (hf : ∀ c ∈ f, isDigit c = true)
    (h1 : i ≠ []) (h2 : f ≠ []) : readDecimal (i ++ '.' :: f) = some (numeral (i ++ f), f.length) := by
  have hi' : ∀ c ∈ i, (decide ('0' ≤ c ∧ c ≤ '9')) = true := fun c hc => by simpa [isDigit] using hi c hc
  have hf' : (f.all fun c => decide ('0' ≤ c ∧ c ≤ '9')) = true := by
    rw [List.all_eq_true]; intro c hc; simpa [isDigit] using hf c hc
  have e1 : (i ++ '.' :: f).takeWhile (fun c => decide ('0' ≤ c ∧ c ≤ '9')) = i := by
    rw [List.takeWhile_append_of_pos hi']; simp
  have e2 : (i ++ '.' :: f).dropWhile (fun c => decide ('0' ≤ c ∧ c ≤ '9')) = '.' :: f := by
    rw [List.dropWhile_append_of_pos hi']; simp
  simp only [readDecimal, e1, e2]
  rw [if_pos ⟨h1, h2, hf'⟩]

/-- `fixed` prints the rounded quotient. -/
theorem readDecimal_fixed (d : Dbl) (hd : d.neg = false) (k : Nat) :
    readDecimal (d.fixed (k + 1)) =
      some (roundDiv (d.ratio.1 * 10 ^ (k + 1)) d.ratio.2, k + 1) := by
  have hs : scale10 d.ratio.1 d.ratio.2 ((k + 1 : Nat) : Int) = (d.ratio.1 * 10 ^ (k + 1), d.ratio.2) := by
    unfold scale10
    rw [if_pos (by omega)]
    simp
  unfold Dbl.fixed
  simp only [hs, hd, Bool.false_eq_true, if_false, List.nil_append]
  generalize hn : roundDiv (d.ratio.1 * 10 ^ (k + 1)) d.ratio.2 = n
  have hlt : n % 10 ^ (k + 1) < 10 ^ (k + 1) := Nat.mod_lt _ (Nat.pow_pos (by decide))
  have hl := padNat_length hlt
  rw [List.append_assoc, List.singleton_append,
    readDecimal_digits (fun c hc => natStr_digits hc) (fun c hc => padNat_digits hc) (natStr_ne_nil _)
      (by intro h; rw [h] at hl; simp at hl), hl]
  congr 2
  rw [numeral_eq, digitsVal_append, digitsVal_acc, natStr_val, padNat_val, hl, Nat.mul_comm]
  exact Nat.div_add_mod n (10 ^ (k + 1))

theorem roundDiv_near (n d : Nat) (h : 0 < d) :
    2 * ((roundDiv n d : Int) * d - n).natAbs ≤ d := by
  have e := Nat.div_add_mod n d
  have hr := Nat.mod_lt n h
  unfold roundDiv
  generalize n / d = q at e ⊢
  generalize n % d = r at e hr ⊢
  have e' : (n : Int) = (d : Int) * q + r := by rw [← e]; simp
  have c0 : ((q : Nat) : Int) * d = (d : Int) * q := Int.mul_comm ..
  have c1 : ((q + 1 : Nat) : Int) * d = (d : Int) * q + d := by
    rw [Int.natCast_add, Int.add_mul, c0]; simp
  simp only
  generalize hX : (d : Int) * q = X at e' c0 c1
  split
  · rw [c0]; omega
  · split
    · rw [c1]; omega
    · split
      · rw [c0]; omega
      · rw [c1]; omega

theorem ratio_isRate (d : Dbl) : IsRate d d.ratio.1 d.ratio.2 := by
  unfold IsRate Dbl.ratio scale2
  split
  · rename_i h
    have : (-d.e).toNat = 0 := by omega
    simp [this]
  · rename_i h
    have : d.e.toNat = 0 := by omega
    exact ⟨Nat.mul_pos (by decide) (Nat.pow_pos (by decide)), by simp [this]⟩

/-- Two fractions of the same float are equal. -/
theorem isRate_cross {d : Dbl} {n q n' q' : Nat} (h : IsRate d n q) (h' : IsRate d n' q') : n * q' = n' * q := by
  have hp : 0 < 2 ^ (-d.e).toNat := Nat.pow_pos (by decide)
  apply Nat.eq_of_mul_eq_mul_right hp
  have h1 := h.2
  have h2 := h'.2
  calc n * q' * 2 ^ (-d.e).toNat = n * 2 ^ (-d.e).toNat * q' := Nat.mul_right_comm ..
    _ = d.m * 2 ^ d.e.toNat * q * q' := by rw [h1]
    _ = d.m * 2 ^ d.e.toNat * q' * q := Nat.mul_right_comm ..
    _ = n' * 2 ^ (-d.e).toNat * q := by rw [h2]
    _ = n' * q * 2 ^ (-d.e).toNat := Nat.mul_right_comm ..

/-- Nearness does not depend on the fraction chosen for the rate. -/
theorem near_transfer {a P n q n' q' c : Nat} (hc : n * q' = n' * q) (hq' : 0 < q')
    (h : c * ((a : Int) * q' - n' * P).natAbs ≤ q' * P) : c * ((a : Int) * q - n * P).natAbs ≤ q * P := by
  apply Nat.le_of_mul_le_mul_right (c := q') _ hq'
  have e : (((a : Int) * q - n * P) * q') = ((a : Int) * q' - n' * P) * q := by
    have hc' : (n : Int) * q' = n' * q := by exact_mod_cast hc
    calc ((a : Int) * q - n * P) * q' = a * q * q' - n * q' * P := by
          rw [Int.sub_mul, Int.mul_right_comm (n : Int)]
      _ = a * q' * q - n' * q * P := by rw [hc', Int.mul_right_comm (a : Int)]
      _ = _ := by rw [Int.sub_mul, Int.mul_right_comm (n' : Int)]
  have e' : ((a : Int) * q - n * P).natAbs * q' = ((a : Int) * q' - n' * P).natAbs * q := by
    have := congrArg Int.natAbs e
    simpa [Int.natAbs_mul] using this
  calc c * ((a : Int) * q - n * P).natAbs * q' = c * (((a : Int) * q - n * P).natAbs * q') := Nat.mul_assoc ..
    _ = c * (((a : Int) * q' - n' * P).natAbs * q) := by rw [e']
    _ = c * ((a : Int) * q' - n' * P).natAbs * q := (Nat.mul_assoc ..).symm
    _ ≤ q' * P * q := Nat.mul_le_mul_right _ h
    _ = q * P * q' := by rw [Nat.mul_comm q' P, Nat.mul_right_comm P q' q, Nat.mul_comm P q]

theorem roundDiv_one (n : Nat) : roundDiv n 1 = n := by
  unfold roundDiv
  simp [Nat.mod_one]

theorem dbl_odd (d : Dbl) (h : d.m ≠ 0) : d.m % 2 = 1 := by
  have := d.ok
  simp only [dblOk, Bool.or_eq_true, Bool.and_eq_true, beq_iff_eq, decide_eq_true_eq] at this
  omega

theorem sample_text (d : Dbl) (hp : (PyFloat.fin d).leZero = false) :
    ∃ num, sampleClause (some (.fin d)) = c!" SAMPLE " ++ num ∧ RateText d num := by
  simp only [PyFloat.leZero, Bool.or_eq_false_iff, beq_eq_false_iff_ne] at hp
  obtain ⟨hn, hm⟩ := hp
  have hr := ratio_isRate d
  have near : ∀ k, (1 ≤ k) → 2 * 10 ^ 6 * ((roundDiv (d.ratio.1 * 10 ^ k) d.ratio.2 : Int) * d.ratio.2 - d.ratio.1 * (10 ^ k : Nat)).natAbs ≤
      d.ratio.2 * 10 ^ k → ∀ n q, IsRate d n q → WithinHalfMillionth (roundDiv (d.ratio.1 * 10 ^ k) d.ratio.2) k n q := by
    intro k _ h n q hq
    have := near_transfer (isRate_cross hq hr) hr.1 h
    simpa [WithinHalfMillionth] using this
  simp only [sampleClause, PyFloat.isIntegral, decide_eq_true_eq]
  by_cases he : 0 ≤ d.e
  · rw [if_pos he]
    have hden : d.ratio.2 = 1 := by simp [Dbl.ratio, scale2, he]
    refine ⟨_, rfl, ⟨_, _, readDecimal_fixed d hn 0, near 1 (by decide) ?_⟩, ?_⟩
    · rw [hden, roundDiv_one]; simp
    · intro n hi
      have hnum : d.ratio.1 = n := by
        have := isRate_cross hi hr
        rw [hden] at this; omega
      have hs : scale10 d.ratio.1 d.ratio.2 ((1 : Nat) : Int) = (n * 10, 1) := by
        simp [scale10, hden, hnum]
      simp only [PyFloat.fixed, Dbl.fixed, hs, roundDiv_one, hn, Bool.false_eq_true, if_false, List.nil_append]
      rw [show n * 10 / 10 ^ 1 = n by omega, show n * 10 % 10 ^ 1 = 0 by omega, List.append_assoc]
      rfl
  · rw [if_neg he]
    refine ⟨_, rfl, ⟨_, _, readDecimal_fixed d hn 5, near 6 (by decide) ?_⟩, ?_⟩
    · have h := roundDiv_near (d.ratio.1 * 10 ^ 6) d.ratio.2 hr.1
      rw [Int.natCast_mul] at h
      generalize ((roundDiv (d.ratio.1 * 10 ^ 6) d.ratio.2 : Int) * d.ratio.2 - d.ratio.1 * (10 ^ 6 : Nat)).natAbs = x at h ⊢
      omega
    · intro n hi
      exfalso
      have h := hi.2
      have h0 : d.e.toNat = 0 := by omega
      obtain ⟨j, hj⟩ : ∃ j, (-d.e).toNat = j + 1 := ⟨(-d.e).toNat - 1, by omega⟩
      rw [h0, hj, Nat.pow_succ, ← Nat.mul_assoc] at h
      have := dbl_odd d hm
      simp only [Nat.pow_zero, Nat.mul_one] at h
      omega

section

/-- **C20** (entities): the text of an entity with an accepted finite sample is
`(name SAMPLE r)` or `(alias: name SAMPLE r)`, where `r` is a text of the rate. -/
theorem C20_entity (cfg : Cfg) (name alias dm x : Val) (d : Dbl)
    (h : mkEntity name alias (.float (.fin d)) dm = .ok x) :
    ∃ n pre num, name = .str n ∧ translate cfg x = .ok (c!"(" ++ pre ++ n ++ c!" SAMPLE " ++ num ++ c!")") ∧
      RateText d num ∧ (cfg.useAliases = false ∨ alias = .none → pre = []) ∧
      (cfg.useAliases = true → ∀ a, alias = .str a → pre = a ++ c!": ") := by
  simp only [mkEntity, bind_eq_ok, Except.ok.injEq] at h
  obtain ⟨n, hn, _, _, smp, hs, al, hal, dm', _, rfl⟩ := h
  simp only [checkSample] at hs
  split at hs
  · cases hs
  · rename_i hp
    cases hs
    obtain ⟨num, hc, hr⟩ := sample_text d (by simpa using hp)
    have hname : name = .str n := by cases name <;> simp [asStr] at hn; rw [hn]
    have halias : alias = .none ∧ al = none ∨ ∃ a, alias = .str a ∧ al = some a := by
      cases alias <;> simp [checkEntityAlias] at hal
      · exact .inl ⟨rfl, hal.symm⟩
      · split at hal
        · cases hal
        · cases hal; exact .inr ⟨_, rfl, rfl⟩
    rcases halias with ⟨rfl, rfl⟩ | ⟨a, rfl, rfl⟩
    · exact ⟨n, [], num, hname, by simp [translate, entityStr, hc], hr, fun _ => rfl, fun _ a ha => by cases ha⟩
    · cases hu : cfg.useAliases with
      | false =>
        exact ⟨n, [], num, hname, by simp [translate, entityStr, hc, hu], hr, fun _ => rfl, fun h => by cases h⟩
      | true =>
        exact ⟨n, a ++ c!": ", num, hname, by simp [translate, entityStr, hc, hu], hr,
          (by rintro (h | h) <;> cases h), fun _ a' ha => by cases ha; rfl⟩

/-- **C20** (storages): the text of a storage with an accepted finite sample is `STORAGE(name SAMPLE r)`, where `r`
is a text of the rate. -/
theorem C20_storage (cfg : Cfg) (name dm x : Val) (d : Dbl) (h : mkStorage name (.float (.fin d)) dm = .ok x) :
    ∃ n num, name = .str n ∧ translate cfg x = .ok (c!"STORAGE(" ++ n ++ c!" SAMPLE " ++ num ++ c!")") ∧
      RateText d num := by
  simp only [mkStorage, bind_eq_ok, Except.ok.injEq] at h
  obtain ⟨n, hn, _, _, smp, hs, dm', _, rfl⟩ := h
  simp only [checkSample] at hs
  split at hs
  · cases hs
  · rename_i hp
    cases hs
    obtain ⟨num, hc, hr⟩ := sample_text d (by simpa using hp)
    have hname : name = .str n := by cases name <;> simp [asStr] at hn; rw [hn]
    exact ⟨n, num, hname, by simp [translate, storageStr, hc], hr⟩

/-- **C20** (which samples are accepted): exactly the floats that are not `≤ 0`; among finite floats the positive
ones. -/
theorem C20_accepts_iff (n : Str) (hn : OptNewline EntityName n) (d : Dbl) :
    ((∃ x, mkEntity (.str n) .none (.float (.fin d)) .none = .ok x) ↔ d.neg = false ∧ d.m ≠ 0) ∧
    ((∃ x, mkStorage (.str n) (.float (.fin d)) .none = .ok x) ↔ d.neg = false ∧ d.m ≠ 0) := by
  have hm := entityNameRe_iff.2 hn
  constructor <;>
  · simp only [mkEntity, mkStorage, asStr, ok_bind, hm, ensure, if_true, checkSample, PyFloat.leZero, checkEntityAlias,
      checkDataModel]
    by_cases hd : d.neg = true <;> by_cases h0 : d.m = 0 <;> simp [h0, hd]

end

section Examples
open Ex

/-- A tenth. -/
def Ex.tenth : Dbl := ⟨false, 3602879701896397, -55, by decide⟩

/-- The float `1e-7`. -/
def Ex.tiny : Dbl := ⟨false, 944473296573929, -73, by decide⟩

example : ofDecimal false 1 (-1) = .fin tenth ∧ ofDecimal false 1 (-7) = .fin tiny := by decide +kernel

/-- The hypothesis of `C20_entity` and `C20_storage` holds for a sample of 0.1. -/
example : (∃ x, mkEntity (.str c!"events") (.str c!"e") (.float (.fin tenth)) .none = .ok x ∧
      translate ⟨true, false⟩ x = .ok c!"(e: events SAMPLE 0.100000)") ∧
    (∃ x, mkStorage (.str c!"events") (.float (.fin tenth)) .none = .ok x ∧
      translate ⟨true, false⟩ x = .ok c!"STORAGE(events SAMPLE 0.100000)") := by
  refine ⟨⟨_, rfl, ?_⟩, ⟨_, rfl, ?_⟩⟩ <;> rfl

/-- The bound cannot be made relative: a positive rate can be printed as zero. -/
example : tiny.m ≠ 0 ∧ (∃ x, mkEntity (.str c!"events") .none (.float (.fin tiny)) .none = .ok x ∧
    translate ⟨true, false⟩ x = .ok c!"(events SAMPLE 0.000000)") := by
  refine ⟨by decide, _, rfl, rfl⟩

/-- Finiteness is needed: infinite and NaN samples are accepted and printed as words. -/
example : (∃ x, mkEntity (.str c!"events") .none (.float .nan) .none = .ok x ∧
      translate ⟨true, false⟩ x = .ok c!"(events SAMPLE nan)") ∧
    (∃ x, mkEntity (.str c!"events") .none (.float (.inf false)) .none = .ok x ∧
      translate ⟨true, false⟩ x = .ok c!"(events SAMPLE inf)") :=
  ⟨⟨_, rfl, rfl⟩, ⟨_, rfl, rfl⟩⟩

end Examples

end Verif
