import Verif.Spec.LegacyDate
import Verif.Lemmas.Date

/-!
# Lemmas: `strptime` reads exactly the accepted texts
-/

namespace Verif

open Spec

variable [D : PyDecimal]

omit D in
theorem asciiDigit_iff {c : Char} : isDigit c = true ↔ ('0' ≤ c ∧ c ≤ '9') := isDigit_iff

omit D in
theorem digit_range {c : Char} (h : '0' ≤ c ∧ c ≤ '9') : 48 ≤ c.toNat ∧ c.toNat ≤ 57 := ⟨h.1, h.2⟩

theorem value_digit {c : Char} (h : '0' ≤ c ∧ c ≤ '9') : D.value c = some (c.toNat - 48) := by
  have hr := digit_range h
  rw [D.ascii c (by omega), if_pos (isDigit_iff.2 h)]

theorem value_other {c : Char} (h : c.toNat < 128) (h' : isDigit c = false) : D.value c = none := by
  rw [D.ascii c h, if_neg (by simp [h'])]

omit D in
theorem digitIn_iff {lo hi n : Nat} {c : Char} :
    digitIn lo hi c = some n ↔ ('0' ≤ c ∧ c ≤ '9') ∧ n = c.toNat - 48 ∧ lo ≤ n ∧ n ≤ hi := by
  unfold digitIn
  constructor
  · intro h
    split at h
    · rename_i hc
      simp only [Bool.and_eq_true, decide_eq_true_eq, isDigit_iff] at hc
      cases h
      exact ⟨hc.1.1, rfl, hc.1.2, hc.2⟩
    · cases h
  · rintro ⟨h1, rfl, h2, h3⟩
    rw [if_pos (by simp only [Bool.and_eq_true, decide_eq_true_eq, isDigit_iff]; exact ⟨⟨h1, h2⟩, h3⟩)]

theorem digitIn_value {lo hi n : Nat} {c : Char} (h : digitIn lo hi c = some n) : D.value c = some n := by
  obtain ⟨h1, rfl, -⟩ := digitIn_iff.1 h
  exact value_digit h1

omit D in
theorem readOne_iff {a : Char → Option Nat} {s r : Str} {n : Nat} :
    readOne a s = some (n, r) ↔ ∃ c, s = c :: r ∧ a c = some n := by
  cases s with
  | nil => simp [readOne]
  | cons c s =>
    simp only [readOne]
    cases h : a c with
    | none => simp [h]
    | some m =>
      constructor
      · intro h'; cases h'; exact ⟨c, rfl, h⟩
      · rintro ⟨d, hd, hv⟩; cases hd; rw [h] at hv; cases hv; rfl

omit D in
theorem readTwo_iff {a b : Char → Option Nat} {s r : Str} {n : Nat} :
    readTwo a b s = some (n, r) ↔ ∃ c d i j, s = c :: d :: r ∧ a c = some i ∧ b d = some j ∧ n = 10 * i + j := by
  match s with
  | [] => simp [readTwo]
  | [c] => simp [readTwo]
  | c :: d :: s =>
    simp only [readTwo]
    constructor
    · intro h
      split at h
      · rename_i i j h1 h2
        cases h; exact ⟨c, d, i, j, rfl, h1, h2, rfl⟩
      · cases h
    · rintro ⟨c', d', i, j, hs, h1, h2, rfl⟩
      cases hs
      rw [h1, h2]

theorem number_one {c : Char} {n : Nat} : Number [c] n ↔ D.value c = some n := by
  constructor
  · rintro ⟨ds, hm, rfl⟩
    rcases ds with _ | ⟨d, _ | ⟨e, ds⟩⟩ <;> simp at hm
    simpa using hm
  · intro h
    exact ⟨[n], by simp [h], by simp⟩

theorem number_two {c d : Char} {n : Nat} :
    Number [c, d] n ↔ ∃ i j, D.value c = some i ∧ D.value d = some j ∧ n = 10 * i + j := by
  constructor
  · rintro ⟨ds, hm, rfl⟩
    rcases ds with _ | ⟨i, _ | ⟨j, _ | ⟨k, ds⟩⟩⟩ <;> simp at hm
    exact ⟨i, j, hm.1, hm.2, by simp⟩
  · rintro ⟨i, j, h1, h2, rfl⟩
    exact ⟨[i, j], by simp [h1, h2], by simp⟩

theorem number_four {a b c d : Char} {n : Nat} : Number [a, b, c, d] n ↔
    ∃ i j k l, D.value a = some i ∧ D.value b = some j ∧ D.value c = some k ∧ D.value d = some l ∧
      n = 1000 * i + 100 * j + 10 * k + l := by
  constructor
  · rintro ⟨ds, hm, rfl⟩
    rcases ds with _ | ⟨i, _ | ⟨j, _ | ⟨k, _ | ⟨l, _ | ⟨m, ds⟩⟩⟩⟩⟩ <;> simp at hm
    refine ⟨i, j, k, l, hm.1, hm.2.1, hm.2.2.1, hm.2.2.2, ?_⟩
    simp only [List.foldl_cons, List.foldl_nil]; omega
  · rintro ⟨i, j, k, l, h1, h2, h3, h4, rfl⟩
    refine ⟨[i, j, k, l], by simp [h1, h2, h3, h4], ?_⟩
    simp only [List.foldl_cons, List.foldl_nil]; omega

/-- The text does not go on with a digit. -/
def NoDigit (r : Str) : Prop := ∀ c s, r = c :: s → D.value c = none

theorem noDigit_nil : NoDigit [] := by intro c s h; cases h

theorem noDigit_mark {m : Char} {s : Str} (h1 : m.toNat < 128) (h2 : isDigit m = false) : NoDigit (m :: s) := by
  intro c s h; cases h; exact value_other h1 h2

theorem readYear_iff {s r : Str} {n : Nat} : readYear s = some (n, r) ↔ ∃ t, s = t ++ r ∧ YearText t n := by
  constructor
  · intro h
    unfold readYear at h
    split at h
    · rename_i a b c d s
      split at h
      · rename_i i j k l h1 h2 h3 h4
        cases h
        exact ⟨[a, b, c, d], rfl, rfl, number_four.2 ⟨i, j, k, l, h1, h2, h3, h4, rfl⟩⟩
      · cases h
    · cases h
  · rintro ⟨t, rfl, ht, hn⟩
    match t, ht with
    | [a, b, c, d], _ =>
      obtain ⟨i, j, k, l, h1, h2, h3, h4, rfl⟩ := number_four.1 hn
      simp only [List.cons_append, List.nil_append, readYear, h1, h2, h3, h4]

omit D in
/-- A reader that, where it succeeds, gives a known result, in front of one that does give it. -/
theorem or_known {α} {x y : Option α} {v : α} (h1 : ∀ w, x = some w → w = v) (h2 : y = some v) : x.or y = some v := by
  cases x with
  | none => simpa using h2
  | some w => rw [h1 w rfl]; rfl

omit D in
theorem or_some_cases {α} {x y : Option α} {v : α} (h : x.or y = some v) : x = some v ∨ y = some v := by
  cases x with
  | none => right; simpa using h
  | some w => left; simpa using h

omit D in
theorem or_first {α} {x y : Option α} {v : α} (h : x = some v) : x.or y = some v := by rw [h]; rfl

omit D in
theorem or_second {α} {x y : Option α} (h : x = none) : x.or y = y := by rw [h]; rfl

theorem readTwo_known {a b : Char → Option Nat} (ha : ∀ c n, a c = some n → D.value c = some n)
    (hb : ∀ c n, b c = some n → D.value c = some n) {c d : Char} {r : Str} {i j : Nat}
    (hc : D.value c = some i) (hd : D.value d = some j) :
    ∀ w, readTwo a b (c :: d :: r) = some w → w = (10 * i + j, r) := by
  rintro ⟨n, r'⟩ h
  obtain ⟨c', d', i', j', hs, h1, h2, rfl⟩ := readTwo_iff.1 h
  cases hs
  have := ha _ _ h1; rw [hc] at this; cases this
  have := hb _ _ h2; rw [hd] at this; cases this
  rfl

theorem readTwo_short {a b : Char → Option Nat} (hb : ∀ c n, b c = some n → D.value c = some n) {c : Char} {r : Str}
    (hr : NoDigit r) : readTwo a b (c :: r) = none := by
  cases h : readTwo a b (c :: r) with
  | none => rfl
  | some p =>
    obtain ⟨n, r'⟩ := p
    obtain ⟨c', d', i, j, hs, h1, h2, -⟩ := readTwo_iff.1 h
    cases hs
    have := hb _ _ h2
    rw [hr _ _ rfl] at this; cases this

omit D in
theorem short_cases {t : Str} (h : Short t) : (∃ c, t = [c]) ∨ ∃ c d, t = [c, d] := by
  match t, h with
  | [], h => rcases h with h | h <;> cases h
  | [c], _ => exact .inl ⟨c, rfl⟩
  | [c, d], _ => exact .inr ⟨c, d, rfl⟩
  | _ :: _ :: _ :: _, h => rcases h with h | h <;> simp at h

omit D in
theorem ascii_one {c : Char} : AsciiDigits [c] ↔ ('0' ≤ c ∧ c ≤ '9') := by simp [AsciiDigits]

omit D in
theorem ascii_two {c d : Char} : AsciiDigits [c, d] ↔ ('0' ≤ c ∧ c ≤ '9') ∧ ('0' ≤ d ∧ d ≤ '9') := by simp [AsciiDigits]

theorem value_id : ∀ c n, D.value c = some n → D.value c = some n := fun _ _ h => h

theorem readMonth_sound {s r : Str} {n : Nat} (h : readMonth s = some (n, r)) : ∃ t, s = t ++ r ∧ MonthText t n := by
  rcases or_some_cases h with h | h
  · obtain ⟨c, d, i, j, rfl, h1, h2, rfl⟩ := readTwo_iff.1 h
    have v1 := digitIn_value h1
    have v2 := digitIn_value h2
    obtain ⟨a1, -, b1, e1⟩ := digitIn_iff.1 h1
    obtain ⟨a2, -, b2, e2⟩ := digitIn_iff.1 h2
    exact ⟨[c, d], rfl, .inr rfl, ascii_two.2 ⟨a1, a2⟩, number_two.2 ⟨i, j, v1, v2, rfl⟩, by omega, by omega⟩
  · rcases or_some_cases h with h | h
    · obtain ⟨c, d, i, j, rfl, h1, h2, rfl⟩ := readTwo_iff.1 h
      have v1 := digitIn_value h1
      have v2 := digitIn_value h2
      obtain ⟨a1, -, b1, e1⟩ := digitIn_iff.1 h1
      obtain ⟨a2, -, b2, e2⟩ := digitIn_iff.1 h2
      exact ⟨[c, d], rfl, .inr rfl, ascii_two.2 ⟨a1, a2⟩, number_two.2 ⟨i, j, v1, v2, rfl⟩, by omega, by omega⟩
    · obtain ⟨c, rfl, h1⟩ := readOne_iff.1 h
      have v1 := digitIn_value h1
      obtain ⟨a1, -, b1, e1⟩ := digitIn_iff.1 h1
      exact ⟨[c], rfl, .inl rfl, ascii_one.2 a1, number_one.2 v1, by omega, by omega⟩

theorem digit_of_value {c : Char} {i : Nat} (hc : '0' ≤ c ∧ c ≤ '9') (hv : D.value c = some i) : i = c.toNat - 48 := by
  rw [value_digit hc] at hv; exact (Option.some.inj hv).symm

theorem digitIn_of_value {lo hi i : Nat} {c : Char} (hc : '0' ≤ c ∧ c ≤ '9') (hv : D.value c = some i) (h1 : lo ≤ i) (h2 : i ≤ hi) :
    digitIn lo hi c = some i := digitIn_iff.2 ⟨hc, digit_of_value hc hv, h1, h2⟩

theorem readMonth_complete {t r : Str} {n : Nat} (h : MonthText t n) (hr : NoDigit r) : readMonth (t ++ r) = some (n, r) := by
  obtain ⟨hs, ha, hn, h1, h2⟩ := h
  rcases short_cases hs with ⟨c, rfl⟩ | ⟨c, d, rfl⟩
  · have hv := number_one.1 hn
    rw [ascii_one] at ha
    have hlt := D.small _ _ hv
    simp only [List.cons_append, List.nil_append, readMonth]
    rw [readTwo_short (fun _ _ => digitIn_value) hr, readTwo_short (fun _ _ => digitIn_value) hr]
    exact readOne_iff.2 ⟨c, rfl, digitIn_of_value ha hv h1 (by omega)⟩
  · obtain ⟨i, j, hi, hj, rfl⟩ := number_two.1 hn
    rw [ascii_two] at ha
    have hlt := D.small _ _ hj
    simp only [List.cons_append, List.nil_append, readMonth]
    by_cases h0 : i = 0
    · refine or_known (readTwo_known (fun _ _ => digitIn_value) (fun _ _ => digitIn_value) hi hj) ?_
      refine or_first ?_
      exact readTwo_iff.2 ⟨c, d, i, j, rfl, digitIn_of_value ha.1 hi (by omega) (by omega),
        digitIn_of_value ha.2 hj (by omega) (by omega), rfl⟩
    · refine or_first ?_
      exact readTwo_iff.2 ⟨c, d, i, j, rfl, digitIn_of_value ha.1 hi (by omega) (by omega),
        digitIn_of_value ha.2 hj (by omega) (by omega), rfl⟩

omit D in
theorem begins_iff {c : Char} {cs : List Char} {t : Str} : BeginsWith cs (c :: t) ↔ c ∈ cs := by
  constructor
  · rintro ⟨c', r, h, hm⟩; cases h; exact hm
  · intro h; exact ⟨c, t, rfl, h⟩

omit D in
theorem digit_cases {c : Char} (h : '0' ≤ c ∧ c ≤ '9') :
    c ∈ ['0', '1', '2', '3', '4', '5', '6', '7', '8', '9'] := by
  have hr := digit_range h
  have hc : c = Char.ofNat c.toNat := (Char.ofNat_toNat c).symm
  generalize hn : c.toNat = n at hr hc
  have key : ∀ n < 58, 48 ≤ n → Char.ofNat n ∈ ['0', '1', '2', '3', '4', '5', '6', '7', '8', '9'] := by decide
  rw [hc]
  exact key n (by omega) hr.1

omit D in
theorem digitIn_low {hi : Nat} {c : Char} : (∃ n, digitIn 0 hi c = some n) ↔ ('0' ≤ c ∧ c ≤ '9') ∧ c.toNat - 48 ≤ hi := by
  constructor
  · rintro ⟨n, h⟩
    obtain ⟨h1, rfl, -, h3⟩ := digitIn_iff.1 h
    exact ⟨h1, h3⟩
  · rintro ⟨h1, h2⟩
    exact ⟨_, digitIn_iff.2 ⟨h1, rfl, Nat.zero_le _, h2⟩⟩

omit D in
theorem sixty_first {c : Char} {i : Nat} : digitIn 0 5 c = some i ↔ c ∈ ['0', '1', '2', '3', '4', '5'] ∧ i = c.toNat - 48 := by
  constructor
  · intro h
    obtain ⟨h1, rfl, -, h3⟩ := digitIn_iff.1 h
    refine ⟨?_, rfl⟩
    have := digit_cases h1
    simp only [List.mem_cons, List.not_mem_nil, or_false] at this
    rcases this with rfl | rfl | rfl | rfl | rfl | rfl | rfl | rfl | rfl | rfl <;> first | decide | (exfalso; revert h3; decide)
  · rintro ⟨h, rfl⟩
    simp only [List.mem_cons, List.not_mem_nil, or_false] at h
    rcases h with rfl | rfl | rfl | rfl | rfl | rfl <;> decide

theorem sixtyText_two {c d : Char} {n : Nat} (h : SixtyText [c, d] n) :
    ∃ i j, digitIn 0 5 c = some i ∧ D.value c = some i ∧ D.value d = some j ∧ n = 10 * i + j := by
  obtain ⟨-, hb, hn, -⟩ := h
  obtain ⟨i, j, hi, hj, rfl⟩ := number_two.1 hn
  have hb : BeginsWith ['0', '1', '2', '3', '4', '5'] [c, d] := by
    rcases hb with hb | hb
    · cases hb
    · exact hb
  have hm := sixty_first.2 ⟨begins_iff.1 hb, rfl⟩
  have hv := digitIn_value hm
  rw [hi] at hv
  cases hv
  exact ⟨_, j, hm, hi, hj, rfl⟩

theorem sixty_two_sound {c d : Char} {i j : Nat} (h1 : digitIn 0 5 c = some i) (h2 : D.value d = some j) :
    SixtyText [c, d] (10 * i + j) := by
  have := D.small _ _ h2
  obtain ⟨-, -, -, h3⟩ := digitIn_iff.1 h1
  exact ⟨.inr rfl, .inr (begins_iff.2 (sixty_first.1 h1).1), number_two.2 ⟨i, j, digitIn_value h1, h2, rfl⟩, by omega⟩

theorem sixty_one_sound {c : Char} {i : Nat} (h : D.value c = some i) : SixtyText [c] i :=
  ⟨.inl rfl, .inl rfl, number_one.2 h, by have := D.small _ _ h; omega⟩

theorem readMinute_sound {s r : Str} {n : Nat} (h : readMinute s = some (n, r)) : ∃ t, s = t ++ r ∧ SixtyText t n := by
  rcases or_some_cases h with h | h
  · obtain ⟨c, d, i, j, rfl, h1, h2, rfl⟩ := readTwo_iff.1 h
    exact ⟨[c, d], rfl, sixty_two_sound h1 h2⟩
  · obtain ⟨c, rfl, h1⟩ := readOne_iff.1 h
    exact ⟨[c], rfl, sixty_one_sound h1⟩

theorem readMinute_complete {t r : Str} {n : Nat} (h : SixtyText t n) (hr : NoDigit r) : readMinute (t ++ r) = some (n, r) := by
  rcases short_cases h.1 with ⟨c, rfl⟩ | ⟨c, d, rfl⟩
  · simp only [List.cons_append, List.nil_append, readMinute]
    rw [readTwo_short value_id hr]
    exact readOne_iff.2 ⟨c, rfl, number_one.1 h.2.2.1⟩
  · obtain ⟨i, j, h1, h2, h3, rfl⟩ := sixtyText_two h
    exact or_first (readTwo_iff.2 ⟨c, d, i, j, rfl, h1, h3, rfl⟩)

/-- Seconds: 60 and 61 are read as well. -/
theorem readSecond_sound {s r : Str} {n : Nat} (h : readSecond s = some (n, r)) (hn : n < 60) :
    ∃ t, s = t ++ r ∧ SixtyText t n := by
  rcases or_some_cases h with h | h
  · obtain ⟨c, d, i, j, rfl, h1, h2, rfl⟩ := readTwo_iff.1 h
    obtain ⟨-, -, h3, -⟩ := digitIn_iff.1 h1
    omega
  · exact readMinute_sound h

theorem readSecond_complete {t r : Str} {n : Nat} (h : SixtyText t n) (hr : NoDigit r) : readSecond (t ++ r) = some (n, r) := by
  have hm := readMinute_complete h hr
  rcases short_cases h.1 with ⟨c, rfl⟩ | ⟨c, d, rfl⟩
  · rw [readSecond]
    simp only [List.cons_append, List.nil_append] at hm ⊢
    rw [readTwo_short (fun _ _ => digitIn_value) hr]
    exact hm
  · obtain ⟨i, j, h1, h2, h3, rfl⟩ := sixtyText_two h
    exact or_known (readTwo_known (fun _ _ => digitIn_value) (fun _ _ => digitIn_value) h2 h3) hm

theorem readHour_sound {s r : Str} {n : Nat} (h : readHour s = some (n, r)) : ∃ t, s = t ++ r ∧ HourText t n := by
  rcases or_some_cases h with h | h
  · obtain ⟨c, d, i, j, rfl, h1, h2, rfl⟩ := readTwo_iff.1 h
    have v1 := digitIn_value h1
    have v2 := digitIn_value h2
    obtain ⟨a1, -, b1, e1⟩ := digitIn_iff.1 h1
    obtain ⟨a2, -, b2, e2⟩ := digitIn_iff.1 h2
    exact ⟨[c, d], rfl, .inr rfl, .inl (ascii_two.2 ⟨a1, a2⟩), number_two.2 ⟨i, j, v1, v2, rfl⟩, by omega⟩
  · rcases or_some_cases h with h | h
    · obtain ⟨c, d, i, j, rfl, h1, h2, rfl⟩ := readTwo_iff.1 h
      have v1 := digitIn_value h1
      obtain ⟨a1, e, b1, e1⟩ := digitIn_iff.1 h1
      have := D.small _ _ h2
      refine ⟨[c, d], rfl, .inr rfl, .inr (.inr (begins_iff.2 ?_)), number_two.2 ⟨i, j, v1, h2, rfl⟩, by omega⟩
      have hc := digit_cases a1
      subst e
      clear h h1 v1 h2
      simp only [List.mem_cons, List.not_mem_nil, or_false] at hc
      rcases hc with rfl | rfl | rfl | rfl | rfl | rfl | rfl | rfl | rfl | rfl <;> first | decide | (exfalso; revert e1; decide)
    · obtain ⟨c, rfl, h1⟩ := readOne_iff.1 h
      have := D.small _ _ h1
      exact ⟨[c], rfl, .inl rfl, .inr (.inl rfl), number_one.2 h1, by omega⟩

theorem readHour_complete {t r : Str} {n : Nat} (h : HourText t n) (hr : NoDigit r) : readHour (t ++ r) = some (n, r) := by
  obtain ⟨hs, ha, hn, h2⟩ := h
  rcases short_cases hs with ⟨c, rfl⟩ | ⟨c, d, rfl⟩
  · simp only [List.cons_append, List.nil_append, readHour]
    rw [readTwo_short (fun _ _ => digitIn_value) hr, readTwo_short value_id hr]
    exact readOne_iff.2 ⟨c, rfl, number_one.1 hn⟩
  · obtain ⟨i, j, hi, hj, rfl⟩ := number_two.1 hn
    have hlt := D.small _ _ hj
    simp only [List.cons_append, List.nil_append, readHour]
    have hc : '0' ≤ c ∧ c ≤ '9' := by
      rcases ha with ha | ha | ha
      · exact (ascii_two.1 ha).1
      · cases ha
      · have hc := begins_iff.1 ha
        simp only [List.mem_cons, List.not_mem_nil, or_false] at hc
        rcases hc with rfl | rfl <;> decide
    by_cases h0 : i ≤ 1
    · refine or_known (readTwo_known (fun _ _ => digitIn_value) (fun _ _ => digitIn_value) hi hj) (or_first ?_)
      exact readTwo_iff.2 ⟨c, d, i, j, rfl, digitIn_of_value hc hi (by omega) (by omega), hj, rfl⟩
    · refine or_first (readTwo_iff.2 ⟨c, d, i, j, rfl, digitIn_of_value hc hi (by omega) (by omega),
        digitIn_of_value ?_ hj (by omega) (by omega), rfl⟩)
      rcases ha with ha | ha | ha
      · exact (ascii_two.1 ha).2
      · cases ha
      · exfalso
        have hc' := begins_iff.1 ha
        have hi' := digit_of_value hc hi
        simp only [List.mem_cons, List.not_mem_nil, or_false] at hc'
        apply h0
        rw [hi']
        rcases hc' with rfl | rfl <;> decide

theorem readDay_sound {s r : Str} {n : Nat} (h : readDay s = some (n, r)) : ∃ t, s = t ++ r ∧ DayText t n := by
  rcases or_some_cases h with h | h
  · obtain ⟨c, d, i, j, rfl, h1, h2, rfl⟩ := readTwo_iff.1 h
    have v1 := digitIn_value h1
    have v2 := digitIn_value h2
    obtain ⟨a1, -, b1, e1⟩ := digitIn_iff.1 h1
    obtain ⟨a2, -, b2, e2⟩ := digitIn_iff.1 h2
    exact ⟨[c, d], rfl, .inl ⟨.inr rfl, .inl (ascii_two.2 ⟨a1, a2⟩), number_two.2 ⟨i, j, v1, v2, rfl⟩, by omega, by omega⟩⟩
  rcases or_some_cases h with h | h
  · obtain ⟨c, d, i, j, rfl, h1, h2, rfl⟩ := readTwo_iff.1 h
    have v1 := digitIn_value h1
    obtain ⟨a1, e, b1, e1⟩ := digitIn_iff.1 h1
    have := D.small _ _ h2
    refine ⟨[c, d], rfl, .inl ⟨.inr rfl, .inr ⟨rfl, begins_iff.2 ?_⟩, number_two.2 ⟨i, j, v1, h2, rfl⟩, by omega, by omega⟩⟩
    have hc := digit_cases a1
    subst e
    clear h h1 v1 h2
    simp only [List.mem_cons, List.not_mem_nil, or_false] at hc
    rcases hc with rfl | rfl | rfl | rfl | rfl | rfl | rfl | rfl | rfl | rfl <;>
      first | decide | (exfalso; revert e1; decide) | (exfalso; revert b1; decide)
  rcases or_some_cases h with h | h
  · obtain ⟨c, d, i, j, rfl, h1, h2, rfl⟩ := readTwo_iff.1 h
    have v1 := digitIn_value h1
    have v2 := digitIn_value h2
    obtain ⟨a1, -, b1, e1⟩ := digitIn_iff.1 h1
    obtain ⟨a2, -, b2, e2⟩ := digitIn_iff.1 h2
    exact ⟨[c, d], rfl, .inl ⟨.inr rfl, .inl (ascii_two.2 ⟨a1, a2⟩), number_two.2 ⟨i, j, v1, v2, rfl⟩, by omega, by omega⟩⟩
  rcases or_some_cases h with h | h
  · obtain ⟨c, rfl, h1⟩ := readOne_iff.1 h
    have v1 := digitIn_value h1
    obtain ⟨a1, -, b1, e1⟩ := digitIn_iff.1 h1
    exact ⟨[c], rfl, .inl ⟨.inl rfl, .inl (ascii_one.2 a1), number_one.2 v1, by omega, by omega⟩⟩
  · unfold readBlankDay at h
    split at h
    · obtain ⟨c, rfl, h1⟩ := readOne_iff.1 h
      obtain ⟨a1, -, b1, e1⟩ := digitIn_iff.1 h1
      exact ⟨[' ', c], rfl, .inr ⟨c, rfl, ascii_one.2 a1, number_one.2 (digitIn_value h1), b1⟩⟩
    · cases h

theorem readTwo_blank {a b : Char → Option Nat} (ha : ∀ c n, a c = some n → D.value c = some n) {r : Str} :
    readTwo a b (' ' :: r) = none := by
  cases h : readTwo a b (' ' :: r) with
  | none => rfl
  | some p =>
    obtain ⟨n, r'⟩ := p
    obtain ⟨c', d', i, j, hs, h1, -⟩ := readTwo_iff.1 h
    cases hs
    have := ha _ _ h1
    rw [value_other (by decide) (by decide)] at this; cases this

theorem readDay_complete {t r : Str} {n : Nat} (h : DayText t n) (hr : NoDigit r) : readDay (t ++ r) = some (n, r) := by
  rcases h with ⟨hs, ha, hn, h1, h2⟩ | ⟨c, rfl, ha, hn, h1⟩
  · rcases short_cases hs with ⟨c, rfl⟩ | ⟨c, d, rfl⟩
    · have hv := number_one.1 hn
      have hc : '0' ≤ c ∧ c ≤ '9' := by
        rcases ha with ha | ⟨ha, -⟩
        · exact ascii_one.1 ha
        · cases ha
      have hlt := D.small _ _ hv
      simp only [List.cons_append, List.nil_append, readDay]
      rw [readTwo_short (fun _ _ => digitIn_value) hr, readTwo_short value_id hr, readTwo_short (fun _ _ => digitIn_value) hr]
      simp only [Option.none_or]
      exact or_first (readOne_iff.2 ⟨c, rfl, digitIn_of_value hc hv h1 (by omega)⟩)
    · obtain ⟨i, j, hi, hj, rfl⟩ := number_two.1 hn
      have hlt := D.small _ _ hj
      have hc : '0' ≤ c ∧ c ≤ '9' := by
        rcases ha with ha | ⟨-, ha⟩
        · exact (ascii_two.1 ha).1
        · have hc := begins_iff.1 ha
          simp only [List.mem_cons, List.not_mem_nil, or_false] at hc
          rcases hc with rfl | rfl <;> decide
      have hd : i = 1 ∨ i = 2 ∨ ('0' ≤ d ∧ d ≤ '9') := by
        rcases ha with ha | ⟨-, ha⟩
        · exact .inr (.inr (ascii_two.1 ha).2)
        · have hc' := begins_iff.1 ha
          rw [digit_of_value hc hi]
          simp only [List.mem_cons, List.not_mem_nil, or_false] at hc'
          rcases hc' with rfl | rfl
          · exact .inl (by decide)
          · exact .inr (.inl (by decide))
      simp only [List.cons_append, List.nil_append, readDay]
      by_cases h12 : i = 1 ∨ i = 2
      · refine or_known (readTwo_known (fun _ _ => digitIn_value) (fun _ _ => digitIn_value) hi hj) (or_first ?_)
        exact readTwo_iff.2 ⟨c, d, i, j, rfl, digitIn_of_value hc hi (by omega) (by omega), hj, rfl⟩
      · have hd : '0' ≤ d ∧ d ≤ '9' := by
          rcases hd with hd | hd | hd
          · exact absurd (.inl hd) h12
          · exact absurd (.inr hd) h12
          · exact hd
        by_cases h3 : i = 3
        · exact or_first (readTwo_iff.2 ⟨c, d, i, j, rfl, digitIn_of_value hc hi (by omega) (by omega),
            digitIn_of_value hd hj (by omega) (by omega), rfl⟩)
        · refine or_known (readTwo_known (fun _ _ => digitIn_value) (fun _ _ => digitIn_value) hi hj)
            (or_known (readTwo_known (fun _ _ => digitIn_value) value_id hi hj) (or_first ?_))
          exact readTwo_iff.2 ⟨c, d, i, j, rfl, digitIn_of_value hc hi (by omega) (by omega),
            digitIn_of_value hd hj (by omega) (by omega), rfl⟩
  · have hv := number_one.1 hn
    have hc := ascii_one.1 ha
    have hlt := D.small _ _ hv
    simp only [List.cons_append, List.nil_append, readDay]
    rw [readTwo_blank (fun _ _ => digitIn_value), readTwo_blank (fun _ _ => digitIn_value), readTwo_blank (fun _ _ => digitIn_value)]
    have h0 : readOne (digitIn 1 9) (' ' :: c :: r) = none := rfl
    rw [h0]
    exact readOne_iff.2 ⟨c, rfl, digitIn_of_value hc hv h1 (by omega)⟩

end Verif
