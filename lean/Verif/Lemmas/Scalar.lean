import Verif.Spec.Scalar
import Verif.Lemmas.Float
import Verif.Lemmas.Numeral
import Verif.Lemmas.Literal
import Verif.Lemmas.Plain

namespace Verif
open Spec

theorem digit_eq : digit = isDigit := by
  funext c; simp [digit, isDigit]

theorem takeWhile_digits {i : Str} (hi : ∀ c ∈ i, isDigit c = true) {r : Str} (hr : ∀ c ∈ r.head?, isDigit c = false) :
    (i ++ r).takeWhile digit = i ∧ (i ++ r).dropWhile digit = r := by
  rw [digit_eq, List.takeWhile_append_of_pos hi, List.dropWhile_append_of_pos hi]
  cases r with
  | nil => simp
  | cons c r =>
    have := hr c (by simp)
    simp [this]

theorem all_digit {ds : Str} (h : ∀ c ∈ ds, isDigit c = true) : ds.all digit = true := by
  rw [digit_eq, List.all_eq_true]; exact h

theorem padNat_ne_nil (w n : Nat) : padNat w n ≠ [] := by
  unfold padNat
  simp [natStr_ne_nil]

theorem readExponent_spec (x : Int) :
    readExponent (['e', if x < 0 then '-' else '+'] ++ padNat 2 x.natAbs) = some x := by
  have h1 := all_digit (ds := padNat 2 x.natAbs) fun c hc => padNat_digits hc
  have h2 := padNat_ne_nil 2 x.natAbs
  by_cases hx : x < 0
  · rw [if_pos hx]
    simp only [List.cons_append, List.nil_append, readExponent]
    rw [if_pos ⟨h2, h1⟩, numeral_padNat]
    simp only [Option.some.injEq]; omega
  · rw [if_neg hx]
    simp only [List.cons_append, List.nil_append, readExponent]
    rw [if_pos ⟨h2, h1⟩, numeral_padNat]
    simp only [Option.some.injEq]; omega

/-- An exponent text. -/
def ExpText (ex : Str) : Prop := ex = [] ∨ ∃ r, ex = 'e' :: r

theorem ExpText.head {ex : Str} (h : ExpText ex) : ∀ c ∈ ex.head?, isDigit c = false := by
  rcases h with rfl | ⟨r, rfl⟩ <;> simp
  decide

theorem readNumber_frac (neg : Bool) {i f ex : Str} {x : Int} (hi : ∀ c ∈ i, isDigit c = true) (hi0 : i ≠ [])
    (hf : ∀ c ∈ f, isDigit c = true) (hf0 : f ≠ []) (he : ExpText ex) (hx : readExponent ex = some x) :
    readNumber neg (i ++ ['.'] ++ f ++ ex) = some (.float (ofDecimal neg (numeral (i ++ f)) (x - f.length))) := by
  have e : i ++ ['.'] ++ f ++ ex = i ++ ('.' :: (f ++ ex)) := by simp
  have h1 := takeWhile_digits hi (r := '.' :: (f ++ ex)) (by simp; decide)
  have h2 := takeWhile_digits hf he.head
  unfold readNumber
  rw [e]
  simp only [h1.1, h1.2, hi0, if_false, h2.1, h2.2, hf0, hx, Option.map_some]

theorem readNumber_exp (neg : Bool) {i r : Str} {x : Int} (hi : ∀ c ∈ i, isDigit c = true) (hi0 : i ≠ [])
    (hx : readExponent ('e' :: r) = some x) :
    readNumber neg (i ++ 'e' :: r) = some (.float (ofDecimal neg (numeral i) x)) := by
  have h1 := takeWhile_digits hi (r := 'e' :: r) (by simp; decide)
  unfold readNumber
  simp only [h1.1, h1.2, hi0, if_false]
  split
  · rename_i h; cases h
  · rename_i h; cases h
  · rw [hx]; rfl

theorem readNumber_int (neg : Bool) {i : Str} (hi : ∀ c ∈ i, isDigit c = true) (hi0 : i ≠ []) :
    readNumber neg i = some (.int (if neg then -(numeral i : Int) else numeral i)) := by
  have h1 := takeWhile_digits hi (r := []) (by simp)
  rw [List.append_nil] at h1
  unfold readNumber
  simp only [h1.1, h1.2, hi0, if_false]

theorem readNumber_layout (neg : Bool) (n : Nat) (p : Int) :
    readNumber neg (layoutRepr (natStr n) ((natStr n).length + p)) = some (.float (ofDecimal neg n p)) := by
  have hd : ∀ c ∈ natStr n, isDigit c = true := fun c hc => natStr_digits hc
  have h0 := natStr_ne_nil n
  have hv := numeral_natStr n
  generalize natStr n = ds at hd h0 hv ⊢
  subst hv
  unfold layoutRepr
  split
  · have hx := readExponent_spec ((ds.length : Int) + p - 1)
    cases ds with
    | nil => exact absurd rfl h0
    | cons c cs =>
      simp only
      by_cases hc : cs = []
      · subst hc
        simp only [List.isEmpty_nil, if_true, List.cons_append, List.nil_append] at hx ⊢
        have := readNumber_exp neg (i := [c]) hd h0 hx
        simp only [List.cons_append, List.nil_append] at this
        rw [this]
        simp
      · have hce : cs.isEmpty = false := by simp [hc]
        simp only [hce, Bool.false_eq_true, if_false]
        have := readNumber_frac neg (i := [c]) (f := cs)
          (ex := ['e', if ((c :: cs).length : Int) + p - 1 < 0 then '-' else '+'] ++ padNat 2 (((c :: cs).length : Int) + p - 1).natAbs)
          (fun x hx => hd x (by simp at hx; simp [hx])) (by simp) (fun x hx => hd x (by simp [hx])) hc
          (.inr ⟨_, rfl⟩) hx
        simp only [List.cons_append, List.nil_append, List.append_assoc] at this ⊢
        rw [this]
        simp only [List.length_cons]
        congr 3
        push_cast; omega
  · split
    · rename_i _ h
      have := readNumber_frac neg (i := ['0']) (f := List.replicate (-((ds.length : Int) + p)).toNat '0' ++ ds) (ex := []) (x := 0)
        (by decide) (by simp) (by
          intro c hc
          simp only [List.mem_append, List.mem_replicate] at hc
          rcases hc with hc | hc
          · rw [hc.2]; decide
          · exact hd c hc) (by simp [h0]) (.inl rfl) rfl
      simp only [List.cons_append, List.nil_append, List.append_assoc, List.append_nil] at this ⊢
      rw [this]
      have e : numeral ('0' :: (List.replicate (-((ds.length : Int) + p)).toNat '0' ++ ds)) = numeral ds := by
        rw [← List.cons_append, ← List.replicate_succ, numeral_append, numeral_zeros]; simp
      rw [e]
      congr 3
      simp only [List.length_append, List.length_replicate]
      push_cast; omega
    · split
      · rename_i _ _ h
        have := readNumber_frac neg (i := ds ++ List.replicate (((ds.length : Int) + p).toNat - ds.length) '0') (f := ['0'])
          (ex := []) (x := 0) (by
          intro c hc
          simp only [List.mem_append, List.mem_replicate] at hc
          rcases hc with hc | hc
          · exact hd c hc
          · rw [hc.2]; decide) (by simp [h0]) (by decide) (by simp) (.inl rfl) rfl
        simp only [List.cons_append, List.nil_append, List.append_assoc, List.append_nil] at this ⊢
        rw [this]
        congr 2
        apply ofDecimal_congr
        have e : numeral (ds ++ (List.replicate (((ds.length : Int) + p).toNat - ds.length) '0' ++ ['0'])) =
            numeral ds * 10 ^ (p.toNat + 1) := by
          rw [← List.replicate_succ', numeral_append, numeral_zeros]
          simp only [List.length_replicate, Nat.add_zero]
          congr 2
          omega
        rw [e]
        obtain ⟨j, hj⟩ := Int.eq_ofNat_of_zero_le (show 0 ≤ p by omega)
        subst hj
        push_cast
        simp only [Int.toNat_natCast, List.length_singleton, zpow_natCast]
        rw [pow_succ]
        norm_num
        ring
      · rename_i _ h1 h2
        obtain ⟨j, hj⟩ := Int.eq_ofNat_of_zero_le (show 0 ≤ (ds.length : Int) + p by omega)
        rw [hj]
        simp only [Int.ofNat_eq_natCast, Int.toNat_natCast]
        have hjl : j < ds.length := by omega
        have hj0 : 0 < j := by omega
        have := readNumber_frac neg (i := ds.take j) (f := ds.drop j) (ex := []) (x := 0)
          (fun c hc => hd c (List.mem_of_mem_take hc))
          (by intro h; have := congrArg List.length h; rw [List.length_take, List.length_nil] at this; omega)
          (fun c hc => hd c (List.mem_of_mem_drop hc))
          (by intro h; have := congrArg List.length h; simp at this; omega) (.inl rfl) rfl
        simp only [List.append_nil, List.take_append_drop] at this
        rw [this]
        congr 3
        simp only [List.length_drop]
        omega

theorem reprAbs_head (d : Dbl) : ∃ c r, d.reprAbs = c :: r ∧ isDigit c = true := by
  unfold Dbl.reprAbs
  split
  · exact ⟨'0', _, rfl, by decide⟩
  · have hd : ∀ c ∈ natStr d.digits.1, isDigit c = true := fun c hc => natStr_digits hc
    have h0 := natStr_ne_nil d.digits.1
    generalize natStr d.digits.1 = ds at hd h0 ⊢
    cases ds with
    | nil => exact absurd rfl h0
    | cons c cs =>
      have hc := hd c (by simp)
      simp only [layoutRepr]
      split
      · by_cases h : cs.isEmpty = true
        · simp only [h, if_true]; exact ⟨c, _, rfl, hc⟩
        · simp only [h, Bool.false_eq_true, if_false]; exact ⟨c, _, rfl, hc⟩
      · split
        · exact ⟨'0', _, rfl, by decide⟩
        · split
          · exact ⟨c, _, rfl, hc⟩
          · rename_i h _
            obtain ⟨j, hj⟩ := Int.eq_ofNat_of_zero_le (show 0 ≤ (((c :: cs).length : Int) + d.digits.2) by omega)
            rw [hj]
            simp only [Int.ofNat_eq_natCast, Int.toNat_natCast]
            obtain ⟨j, rfl⟩ : ∃ i, j = i + 1 := ⟨j - 1, by omega⟩
            exact ⟨c, _, rfl, hc⟩

/-- The text of a magnitude reads back as the float. -/
theorem readNumber_reprAbs (d : Dbl) : readNumber d.neg d.reprAbs = some (.float (.fin d)) := by
  unfold Dbl.reprAbs
  split
  · rename_i h
    have := readNumber_frac d.neg (i := ['0']) (f := ['0']) (ex := []) (x := 0) (by decide) (by simp) (by decide) (by simp)
      (.inl rfl) rfl
    simp only [List.cons_append, List.nil_append] at this
    rw [this, show numeral ['0', '0'] = 0 from rfl, ofDecimal_zero]
    obtain ⟨neg, m, e, ok⟩ := d
    simp only at h; subst h
    have : e = 0 := by
      simp [dblOk] at ok; exact ok
    subst this
    rfl
  · rename_i h
    simp only
    rw [readNumber_layout, digits_spec d h]

theorem readToken_digit (neg : Bool) {c : Char} {r : Str} (hc : isDigit c = true) :
    readToken ((if neg then ['-'] else []) ++ c :: r) = readNumber neg (c :: r) := by
  have hne : ∀ x, isDigit x = false → c ≠ x := by rintro x hx rfl; rw [hc] at hx; cases hx
  cases neg with
  | false =>
    simp only [Bool.false_eq_true, if_false, List.nil_append, readToken, List.cons.injEq, hne 'N' (by decide),
      hne 'T' (by decide), hne 'F' (by decide), hne 'n' (by decide), hne 'i' (by decide), hne '-' (by decide), false_and]
    split
    · rename_i h; simp only [List.cons.injEq] at h; exact absurd h.1 (hne '-' (by decide))
    · rfl
  | true =>
    simp only [if_true, List.cons_append, List.nil_append, readToken, List.cons.injEq, hne 'i' (by decide)]
    simp

theorem readToken_repr (f : PyFloat) : readToken f.repr = some (.float f) := by
  cases f with
  | fin d =>
    obtain ⟨c, r, hr, hc⟩ := reprAbs_head d
    simp only [PyFloat.repr]
    rw [hr, readToken_digit d.neg hc, ← hr, readNumber_reprAbs]
  | inf neg => cases neg <;> rfl
  | nan => rfl

theorem readToken_int (i : Int) : readToken (intStr i) = some (.int i) := by
  have key : ∀ (neg : Bool) (n : Nat), readToken ((if neg then ['-'] else []) ++ natStr n) =
      some (.int (if neg then -(n : Int) else n)) := by
    intro neg n
    have hd : ∀ c ∈ natStr n, isDigit c = true := fun c hc => natStr_digits hc
    have h0 := natStr_ne_nil n
    have hv := numeral_natStr n
    generalize natStr n = ds at hd h0 hv ⊢
    subst hv
    cases ds with
    | nil => exact absurd rfl h0
    | cons c cs => rw [readToken_digit neg (hd c (by simp)), readNumber_int neg hd h0]
  cases i with
  | ofNat n => simpa [intStr] using key false n
  | negSucc n =>
    have := key true (n + 1)
    simp only [if_true, List.cons_append, List.nil_append] at this
    simp only [intStr, this]
    congr 2

end Verif
