import Verif.Lemmas.Scalar
import Verif.Spec.MqlRoundTrip

/-!
# Numbers in MQL
-/

namespace Verif

open Spec

theorem layout_plain {ds : Str} {x : Int} (hd : ∀ c ∈ ds, isDigit c = true) (h0 : ds ≠ []) (he : 'e' ∉ layoutRepr ds x) :
    ∃ a f, a ≠ [] ∧ f ≠ [] ∧ (∀ c ∈ a, isDigit c = true) ∧ (∀ c ∈ f, isDigit c = true) ∧ layoutRepr ds x = a ++ '.' :: f := by
  unfold layoutRepr at he ⊢
  split
  · rename_i h
    rw [if_pos h] at he
    exact absurd (by simp) he
  · split
    · refine ⟨['0'], List.replicate (-x).toNat '0' ++ ds, by simp, ?_, by decide, ?_, by simp⟩
      · simp [h0]
      · intro c hc
        simp only [List.mem_append, List.mem_replicate] at hc
        rcases hc with hc | hc
        · rw [hc.2]; decide
        · exact hd c hc
    · split
      · refine ⟨ds ++ List.replicate (x.toNat - ds.length) '0', ['0'], ?_, by simp, ?_, by decide, by simp⟩
        · simp [h0]
        · intro c hc
          simp only [List.mem_append, List.mem_replicate] at hc
          rcases hc with hc | hc
          · exact hd c hc
          · rw [hc.2]; decide
      · rename_i _ h1 h2
        refine ⟨ds.take x.toNat, ds.drop x.toNat, ?_, ?_, fun c hc => hd c (List.mem_of_mem_take hc),
          fun c hc => hd c (List.mem_of_mem_drop hc), by simp⟩
        · intro h; have := congrArg List.length h; rw [List.length_take, List.length_nil] at this; omega
        · intro h; have := congrArg List.length h; rw [List.length_drop, List.length_nil] at this; omega

theorem reprAbs_plain {d : Dbl} (he : 'e' ∉ d.reprAbs) :
    ∃ a f, a ≠ [] ∧ f ≠ [] ∧ (∀ c ∈ a, isDigit c = true) ∧ (∀ c ∈ f, isDigit c = true) ∧ d.reprAbs = a ++ '.' :: f := by
  unfold Dbl.reprAbs at he ⊢
  split
  · exact ⟨['0'], ['0'], by simp, by simp, by decide, by decide, rfl⟩
  · rename_i h
    rw [if_neg h] at he
    exact layout_plain (fun c hc => natStr_digits hc) (natStr_ne_nil _) he

theorem numText_nat (n : Nat) : NumText (natStr n) (ofDecimal false n 0) :=
  ⟨natStr n, [], natStr_ne_nil n, fun _ hc => natStr_digits hc, by simp, .inl ⟨rfl, rfl⟩, by
    rw [List.append_nil, numeral_natStr]; rfl⟩

theorem negate_mkDbl (b : Bool) (m : Nat) (e : Int) : (mkDbl b m e).negate = mkDbl (!b) m e := by
  unfold mkDbl
  simp only
  split <;> rfl

theorem negate_ofDecimal (b : Bool) (n : Nat) (p : Int) : (ofDecimal b n p).negate = ofDecimal (!b) n p := by
  unfold ofDecimal roundRat
  simp only
  split
  · rfl
  · exact negate_mkDbl _ _ _

theorem numText_abs {d : Dbl} (he : 'e' ∉ d.reprAbs) : ∃ y, NumText d.reprAbs y ∧ .fin d = if d.neg then y.negate else y := by
  obtain ⟨a, f, ha, hf, hda, hdf, e⟩ := reprAbs_plain he
  refine ⟨_, ⟨a, f, ha, hda, hdf, .inr ⟨hf, e⟩, rfl⟩, ?_⟩
  have h1 := readNumber_reprAbs d
  have h2 := readNumber_frac d.neg (ex := []) (x := 0) hda ha hdf hf (.inl rfl) rfl
  rw [e] at h1
  simp only [List.append_nil, List.append_assoc, List.cons_append, List.nil_append] at h2
  rw [h1] at h2
  simp only [Option.some.injEq, Val.float.injEq] at h2
  rw [h2, negate_ofDecimal]
  cases d.neg <;> simp

/-- A number as it is printed: digits, or a sign and digits. -/
theorem number_text {v : Val} {x : PyFloat} (h : NumberFor v x) :
    (∃ t, NumText t x ∧ translate .mql v = .ok t ∧ ∀ [PyRepr], pyStr (.val v) = t) ∨
    ∃ t y, NumText t y ∧ x = y.negate ∧ translate .mql v = .ok ('-' :: t) ∧ ∀ [PyRepr], pyStr (.val v) = '-' :: t := by
  cases h with
  | int i =>
    cases i with
    | ofNat n => exact .inl ⟨natStr n, numText_nat n, rfl, rfl⟩
    | negSucc n =>
      refine .inr ⟨natStr (n + 1), _, numText_nat (n + 1), ?_, rfl, rfl⟩
      rw [negate_ofDecimal, decide_eq_true (Int.negSucc_lt_zero n)]
      rfl
  | float d h =>
    have hr : (PyFloat.fin d).repr = (if d.neg then ['-'] else []) ++ d.reprAbs := rfl
    obtain ⟨y, h1, h2⟩ := numText_abs (d := d) fun he => h (by rw [hr]; exact List.mem_append_right _ he)
    have ht : translate .mql (.float (.fin d)) = .ok (PyFloat.fin d).repr := rfl
    have hp : ∀ [PyRepr], pyStr (.val (.float (.fin d))) = (PyFloat.fin d).repr := rfl
    cases hn : d.neg with
    | false =>
      rw [hn] at h2 hr
      simp only [Bool.false_eq_true, if_false, List.nil_append] at h2 hr
      rw [h2]
      exact .inl ⟨_, h1, by rw [← h2, ht, hr], by intro; rw [← h2, hp, hr]⟩
    | true =>
      rw [hn] at h2 hr
      simp only [if_true] at h2 hr
      exact .inr ⟨_, _, h1, h2, by rw [ht, hr]; rfl, by intro; rw [hp, hr]; rfl⟩

theorem unsigned_text {d : Dbl} (hn : d.neg = false) (he : 'e' ∉ (PyFloat.fin d).repr) : NumText (PyFloat.fin d).repr (.fin d) := by
  have hr : (PyFloat.fin d).repr = (if d.neg then ['-'] else []) ++ d.reprAbs := rfl
  rw [hn] at hr
  simp only [Bool.false_eq_true, if_false, List.nil_append] at hr
  rw [hr] at he ⊢
  obtain ⟨y, h1, h2⟩ := numText_abs he
  rw [hn] at h2
  simp only [Bool.false_eq_true, if_false] at h2
  rw [h2]
  exact h1

end Verif
