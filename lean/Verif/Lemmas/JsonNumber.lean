import Verif.Spec.Json
import Verif.Lemmas.Scalar

/-!
# Lemmas on JSON numbers
-/

namespace Verif
open Spec

/-- The integer part has no superfluous zero. -/
def NoLead (s : Str) : Prop := ¬ ((s.takeWhile digit).head? = some '0' ∧ s.takeWhile digit ≠ ['0'])

theorem jsonExponent_of {s : Str} {x : Int} (h : readExponent s = some x) : jsonExponent s = some x := by
  unfold readExponent at h
  split at h
  · exact h
  · split at h
    · rename_i hd
      simp only [jsonExponent, true_or, if_true, jsonDigits]
      rw [if_pos hd]
      exact h
    · cases h
  · split at h
    · rename_i hd
      simp only [jsonExponent, true_or, if_true, jsonDigits]
      rw [if_pos hd]
      exact h
    · cases h
  · cases h

/-- The JSON value of a number. -/
def numberJson : Val → Json
  | .int i => .int i
  | .float f => .float f
  | _ => .null

theorem jsonUnsigned_of {neg : Bool} {s : Str} {v : Val} (hn : NoLead s) (h : readNumber neg s = some v) :
    jsonUnsigned neg s = some (numberJson v) := by
  unfold readNumber at h
  unfold jsonUnsigned
  unfold NoLead at hn
  generalize List.takeWhile digit s = i at *
  generalize List.dropWhile digit s = r at *
  by_cases hi : i = []
  · simp [hi] at h
  · simp only [if_neg hi] at h
    have : ¬ (i = [] ∨ (i.head? = some '0' ∧ i ≠ ['0'])) := by rintro (h | h) <;> contradiction
    simp only [if_neg this]
    cases r with
    | nil => simp only [Option.some.injEq] at h; subst h; rfl
    | cons c r =>
      by_cases hc : c = '.'
      · subst hc
        simp only at h ⊢
        split at h
        · cases h
        · rename_i hf
          rw [if_neg hf]
          rw [Option.map_eq_some_iff] at h
          obtain ⟨x, hx, rfl⟩ := h
          rw [jsonExponent_of hx]
          rfl
      · have h' : (readExponent (c :: r)).map (fun x => Val.float (ofDecimal neg (numeral i) x)) = some v := by
          split at h
          · simp_all
          · simp_all
          · exact h
        rw [Option.map_eq_some_iff] at h'
        obtain ⟨x, hx, rfl⟩ := h'
        split
        · simp_all
        · simp_all
        · rw [jsonExponent_of hx]
          rfl

theorem digitChar_zero {n : Nat} (h : n < 10) (h0 : digitChar n = '0') : n = 0 := by
  have : ∀ k : Fin 10, digitChar k.val = '0' → k.val = 0 := by decide
  exact this ⟨n, h⟩ h0

theorem natStrAux_head : ∀ f n, n < f → n ≠ 0 → (natStrAux f n).head? ≠ some '0' ∧ natStrAux f n ≠ []
  | 0, _, h, _ => absurd h (Nat.not_lt_zero _)
  | f + 1, n, h, h0 => by
    unfold natStrAux
    split
    · rename_i hn
      refine ⟨?_, by simp⟩
      simp only [List.head?_cons, ne_eq, Option.some.injEq]
      exact fun e => h0 (digitChar_zero hn e)
    · have ih := natStrAux_head f (n / 10) (by omega) (by omega)
      refine ⟨?_, by simp⟩
      cases hs : natStrAux f (n / 10) with
      | nil => exact absurd hs ih.2
      | cons c cs => rw [hs] at ih; simpa using ih.1

theorem natStr_head {n : Nat} (h : n ≠ 0) : (natStr n).head? ≠ some '0' := (natStrAux_head _ _ (Nat.lt_succ_self n) h).1

theorem noLead_digits {i r : Str} (hi : ∀ c ∈ i, isDigit c = true) (hr : ∀ c ∈ r.head?, isDigit c = false)
    (h : i.head? ≠ some '0' ∨ i = ['0'] ∨ i.length ≤ 1) : NoLead (i ++ r) := by
  unfold NoLead
  rw [(takeWhile_digits hi hr).1]
  rintro ⟨h1, h2⟩
  rcases h with h | h | h
  · exact h h1
  · exact h2 h
  · cases i with
    | nil => simp at h1
    | cons c cs =>
      simp at h1 h
      subst h1; subst h
      exact h2 rfl

theorem noLead_natStr (n : Nat) : NoLead (natStr n) := by
  have := noLead_digits (i := natStr n) (r := []) (fun c hc => natStr_digits hc) (by simp) (by
    by_cases h : n = 0
    · subst h; right; left; rfl
    · left; exact natStr_head h)
  simpa using this

theorem noLead_layout {n : Nat} (h0 : n ≠ 0) (x : Int) : NoLead (layoutRepr (natStr n) x) := by
  have hd : ∀ c ∈ natStr n, isDigit c = true := fun c hc => natStr_digits hc
  have hh := natStr_head h0
  have hne := natStr_ne_nil n
  generalize natStr n = ds at *
  unfold layoutRepr
  split
  · cases ds with
    | nil => exact absurd rfl hne
    | cons c cs =>
      have hc := hd c (by simp)
      simp only
      split
      · have := noLead_digits (i := [c]) (r := ['e', if x - 1 < 0 then '-' else '+'] ++ padNat 2 (x - 1).natAbs)
          (by simpa using hc) (by simp; decide) (by simp)
        simpa using this
      · have := noLead_digits (i := [c]) (r := '.' :: cs ++ (['e', if x - 1 < 0 then '-' else '+'] ++ padNat 2 (x - 1).natAbs))
          (by simpa using hc) (by simp; decide) (by simp)
        simpa using this
  · split
    · have := noLead_digits (i := ['0']) (r := '.' :: (List.replicate (-x).toNat '0' ++ ds)) (by simp; decide) (by simp; decide) (by simp)
      simpa using this
    · split
      · have := noLead_digits (i := ds ++ List.replicate (x.toNat - ds.length) '0') (r := c!".0") (by
            intro c hc
            rcases List.mem_append.mp hc with h | h
            · exact hd c h
            · rw [List.eq_of_mem_replicate h]; decide) (by decide) (by
            left
            cases ds with
            | nil => exact absurd rfl hne
            | cons c cs => simpa using hh)
        exact this
      · rename_i h1 h2 h3
        have := noLead_digits (i := ds.take x.toNat) (r := '.' :: ds.drop x.toNat) (fun c hc => hd c (List.mem_of_mem_take hc))
          (by simp; decide) (by
            left
            cases ds with
            | nil => exact absurd rfl hne
            | cons c cs =>
              have : ∃ k, x.toNat = k + 1 := ⟨x.toNat - 1, by omega⟩
              obtain ⟨k, hk⟩ := this
              rw [hk]
              simpa using hh)
        simpa using this

theorem noLead_reprAbs (d : Dbl) : NoLead d.reprAbs := by
  have hr := readNumber_reprAbs d
  unfold Dbl.reprAbs at hr ⊢
  split
  · unfold NoLead; decide
  · rename_i hm
    rw [if_neg hm] at hr
    apply noLead_layout
    intro h0
    simp only at hr
    rw [readNumber_layout, h0] at hr
    simp only [ofDecimal, scale10, roundRat, Nat.zero_mul, Option.some.injEq, Val.float.injEq] at hr
    apply hm
    split at hr <;> simp at hr <;> rw [← hr]

theorem isDigit_ne {c x : Char} (h : isDigit c = true) (hx : isDigit x = false) : c ≠ x := by
  rintro rfl; rw [h] at hx; cases hx

theorem jsonToken_digit (l : Bool) (neg : Bool) {c : Char} {r : Str} (hc : isDigit c = true) :
    jsonToken l ((if neg then ['-'] else []) ++ c :: r) = jsonUnsigned neg (c :: r) := by
  have hne : ∀ x, isDigit x = false → c ≠ x := fun x hx => isDigit_ne hc hx
  cases neg with
  | false =>
    simp only [Bool.false_eq_true, if_false, List.nil_append]
    unfold jsonToken
    have h1 := hne 'n' (by decide); have h2 := hne 't' (by decide); have h3 := hne 'f' (by decide)
    have h4 := hne 'N' (by decide); have h5 := hne 'I' (by decide); have h6 := hne '-' (by decide)
    simp only [List.cons.injEq, h1, h2, h3, h4, h5, h6, false_and, and_false, if_false]
    unfold jsonNumber
    split
    · simp_all
    · rfl
  | true =>
    unfold jsonToken
    have h5 := hne 'I' (by decide)
    simp [h5, jsonNumber]

theorem jsonToken_float (l : Bool) (f : PyFloat) (h : l = true ∨ ∃ d, f = .fin d) : jsonToken l (jsonFloat f) = some (.float f) := by
  cases f with
  | fin d =>
    obtain ⟨c, r, hr, hc⟩ := reprAbs_head d
    have h1 := jsonUnsigned_of (noLead_reprAbs d) (readNumber_reprAbs d)
    simp only [jsonFloat, PyFloat.repr]
    rw [hr] at h1 ⊢
    rw [jsonToken_digit l d.neg hc, h1]
    rfl
  | inf neg =>
    have hl : l = true := by rcases h with h | ⟨d, h⟩; exact h; cases h
    subst hl
    cases neg <;> rfl
  | nan =>
    have hl : l = true := by rcases h with h | ⟨d, h⟩; exact h; cases h
    subst hl
    rfl

theorem jsonToken_int (l : Bool) (i : Int) : jsonToken l (intStr i) = some (.int i) := by
  have key : ∀ (neg : Bool) (n : Nat), jsonToken l ((if neg then ['-'] else []) ++ natStr n) =
      some (.int (if neg then -(n : Int) else n)) := by
    intro neg n
    have hd : ∀ c ∈ natStr n, isDigit c = true := fun c hc => natStr_digits hc
    have h1 := jsonUnsigned_of (noLead_natStr n) (readNumber_int neg hd (natStr_ne_nil n))
    rw [numeral_natStr] at h1
    cases hs : natStr n with
    | nil => exact absurd hs (natStr_ne_nil n)
    | cons c r =>
      rw [hs] at hd h1
      rw [jsonToken_digit l neg (hd c (by simp)), h1]
      cases neg <;> rfl
  cases i with
  | ofNat n => exact key false n
  | negSucc n =>
    have := key true (n + 1)
    simp only [if_true, List.cons_append, List.nil_append] at this
    simp only [intStr, this]
    congr 1

end Verif
