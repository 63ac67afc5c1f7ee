import Verif.Lemmas.Str
import Verif.Py.Regex

/-!
# Languages of the regular expressions

Membership in `Regex.run` in terms of splittings of the text.
-/

namespace Verif

theorem matches_iff {r : Regex} {s : Str} : r.matches s = true ↔ ∃ t, t ∈ r.run s := by
  simp only [Regex.matches, Bool.not_eq_true', List.isEmpty_eq_false_iff_exists_mem]

theorem mem_run_cls {p : Char → Bool} {s t : Str} :
    t ∈ (Regex.cls p).run s ↔ ∃ c, s = c :: t ∧ p c = true := by
  cases s with
  | nil => simp [Regex.run]
  | cons c cs =>
    simp only [Regex.run]
    split
    · rename_i h
      simp only [List.mem_singleton, List.cons.injEq]
      constructor
      · rintro rfl; exact ⟨c, ⟨rfl, rfl⟩, h⟩
      · rintro ⟨_, ⟨rfl, rfl⟩, _⟩; rfl
    · rename_i h
      simp only [List.not_mem_nil, false_iff]
      rintro ⟨_, h', hp⟩; cases h'; exact h hp

theorem mem_run_chr {d : Char} {s t : Str} : t ∈ (Regex.chr d).run s ↔ s = d :: t := by
  simp [Regex.chr, mem_run_cls]

theorem mem_run_seq {a b : Regex} {s t : Str} :
    t ∈ (Regex.seq a b).run s ↔ ∃ m, m ∈ a.run s ∧ t ∈ b.run m := by
  simp [Regex.run, List.mem_flatMap]

theorem mem_run_alt {a b : Regex} {s t : Str} :
    t ∈ (Regex.alt a b).run s ↔ t ∈ a.run s ∨ t ∈ b.run s := by
  simp [Regex.run]

theorem mem_run_eps {s t : Str} : t ∈ Regex.eps.run s ↔ s = t := by
  simp [Regex.run, eq_comm]

theorem mem_run_opt {a : Regex} {s t : Str} : t ∈ a.opt.run s ↔ t ∈ a.run s ∨ s = t := by
  simp [Regex.opt, mem_run_alt, mem_run_eps]

theorem mem_run_eol {s t : Str} : t ∈ Regex.eol.run s ↔ s = t ∧ (s = [] ∨ s = ['\n']) := by
  simp only [Regex.run]
  by_cases h : atEol s = true
  · rw [if_pos h]
    simp only [atEol, Bool.or_eq_true, beq_iff_eq] at h
    simp [h, eq_comm]
  · rw [if_neg h]
    simp only [atEol, Bool.or_eq_true, beq_iff_eq] at h
    simp [h]

/-- `r` matches exactly one character, of class `p`. -/
def OneChar (r : Regex) (p : Char → Bool) : Prop :=
  ∀ s t, t ∈ r.run s ↔ ∃ c, s = c :: t ∧ p c = true

theorem OneChar.cls (p : Char → Bool) : OneChar (.cls p) p := fun _ _ => mem_run_cls

theorem OneChar.chr (c : Char) : OneChar (.chr c) (· == c) := fun _ _ => mem_run_cls

theorem OneChar.alt {a b : Regex} {p q : Char → Bool} (ha : OneChar a p) (hb : OneChar b q) :
    OneChar (.alt a b) (fun c => p c || q c) := by
  intro s t
  rw [mem_run_alt, ha, hb]
  constructor
  · rintro (⟨c, h, hp⟩ | ⟨c, h, hp⟩) <;> exact ⟨c, h, by simp [hp]⟩
  · rintro ⟨c, h, hp⟩
    simp at hp
    rcases hp with hp | hp
    · exact .inl ⟨c, h, hp⟩
    · exact .inr ⟨c, h, hp⟩

theorem mem_starRun {r : Regex} {p : Char → Bool} (h : OneChar r p) : ∀ (n : Nat) (s t : Str),
    s.length ≤ n → (t ∈ starRun r.run n s ↔ ∃ u, s = u ++ t ∧ ∀ c ∈ u, p c = true) := by
  intro n
  induction n with
  | zero =>
    intro s t hs
    have : s = [] := by simpa using hs
    subst this
    simp only [starRun, List.mem_singleton]
    constructor
    · rintro rfl; exact ⟨[], rfl, by simp⟩
    · rintro ⟨u, hu, _⟩; simp at hu; exact hu.2
  | succ n ih =>
    intro s t hs
    simp only [starRun, List.mem_append, List.mem_flatMap, List.mem_filter, List.mem_singleton]
    constructor
    · rintro (⟨m, ⟨hm, hl⟩, ht⟩ | rfl)
      · obtain ⟨c, rfl, hc⟩ := (h _ _).1 hm
        simp only [List.length_cons] at hs
        obtain ⟨u, rfl, hu⟩ := (ih _ _ (by omega)).1 ht
        exact ⟨c :: u, rfl, by simp only [List.mem_cons, forall_eq_or_imp]; exact ⟨hc, hu⟩⟩
      · exact ⟨[], rfl, by simp⟩
    · rintro ⟨u, rfl, hu⟩
      cases u with
      | nil => exact .inr rfl
      | cons c u =>
        simp only [List.mem_cons, forall_eq_or_imp] at hu
        refine .inl ⟨u ++ t, ⟨(h _ _).2 ⟨c, rfl, hu.1⟩, by simp⟩, ?_⟩
        rw [ih _ _ (by simp at hs ⊢; omega)]
        exact ⟨u, rfl, hu.2⟩

theorem mem_run_star {r : Regex} {p : Char → Bool} (h : OneChar r p) {s t : Str} :
    t ∈ (Regex.star r).run s ↔ ∃ u, s = u ++ t ∧ ∀ c ∈ u, p c = true :=
  mem_starRun h _ s t (Nat.le_refl _)

theorem mem_run_plus {r : Regex} {p : Char → Bool} (h : OneChar r p) {s t : Str} :
    t ∈ (Regex.plus r).run s ↔ ∃ u, s = u ++ t ∧ u ≠ [] ∧ ∀ c ∈ u, p c = true := by
  simp only [Regex.plus, mem_run_seq, h _ _, mem_run_star h]
  constructor
  · rintro ⟨_, ⟨c, rfl, hc⟩, u, rfl, hu⟩
    exact ⟨c :: u, rfl, by simp, by simp only [List.mem_cons, forall_eq_or_imp]; exact ⟨hc, hu⟩⟩
  · rintro ⟨u, rfl, hne, hu⟩
    cases u with
    | nil => exact absurd rfl hne
    | cons c u =>
      simp only [List.mem_cons, forall_eq_or_imp] at hu
      exact ⟨u ++ t, ⟨c, rfl, hu.1⟩, u, rfl, hu.2⟩

end Verif
