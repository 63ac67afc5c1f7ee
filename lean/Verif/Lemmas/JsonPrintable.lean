import Verif.Lemmas.Json
import Verif.Lemmas.Plain

/-!
# Lemmas: the characters of a JSON text
-/

namespace Verif

/-- A character of a JSON text: printable ASCII, or a new line if the text is indented. -/
def Shown (pretty : Bool) (c : Char) : Prop := (32 ≤ c.toNat ∧ c.toNat ≤ 126) ∨ (pretty = true ∧ c = '\n')

theorem hexChar_shown (n : Nat) (h : n < 16) : 32 ≤ (hexChar n).toNat ∧ (hexChar n).toNat ≤ 126 := by
  have key : ∀ n : Fin 16, 32 ≤ (hexChar n).toNat ∧ (hexChar n).toNat ≤ 126 := by decide
  exact key ⟨n, h⟩

theorem hexEscape_shown (n : Nat) : ∀ c ∈ hexEscape n, 32 ≤ c.toNat ∧ c.toNat ≤ 126 := by
  intro c hc
  simp only [hexEscape, List.mem_cons, List.not_mem_nil, or_false] at hc
  rcases hc with rfl | rfl | rfl | rfl | rfl | rfl
  · decide
  · decide
  all_goals exact hexChar_shown _ (by omega)

theorem jsonChar_shown (x : Char) : ∀ c ∈ jsonChar x, 32 ≤ c.toNat ∧ c.toNat ≤ 126 := by
  intro c hc
  unfold jsonChar at hc
  repeat' split at hc
  all_goals first
    | exact hexEscape_shown _ c hc
    | (rw [List.mem_append] at hc; rcases hc with hc | hc <;> exact hexEscape_shown _ c hc)
    | (rename_i h; rw [List.mem_singleton] at hc; subst hc; exact h)
    | (simp only [List.mem_cons, List.not_mem_nil, or_false] at hc; rcases hc with rfl | rfl <;> decide)

theorem jsonStr_shown (pretty : Bool) (s : Str) : ∀ c ∈ jsonStr s, Shown pretty c := by
  intro c hc
  left
  simp only [jsonStr, List.mem_append, List.mem_singleton, List.mem_flatMap] at hc
  rcases hc with (rfl | ⟨x, _, hc⟩) | rfl
  · decide
  · exact jsonChar_shown x c hc
  · decide

theorem digit_shown {c : Char} (h : isDigit c = true) : 32 ≤ c.toNat ∧ c.toNat ≤ 126 := by
  simp only [isDigit, Bool.and_eq_true, decide_eq_true_eq] at h
  exact ⟨le_trans (by decide) (Char.le_def.1 h.1), le_trans (Char.le_def.1 h.2) (by decide)⟩

theorem floatChar_shown {c : Char} (h : floatChar c = true) : 32 ≤ c.toNat ∧ c.toNat ≤ 126 := by
  simp only [floatChar, Bool.or_eq_true, beq_iff_eq] at h
  rcases h with (((((((h | rfl) | rfl) | rfl) | rfl) | rfl) | rfl) | rfl) | rfl
  · exact digit_shown h
  all_goals decide

theorem edge_shown (pretty : Bool) (n : Nat) : ∀ c ∈ jsonEdge pretty n, Shown pretty c := by
  intro c hc
  unfold jsonEdge newlineIndent at hc
  split at hc
  · rename_i h
    rcases List.mem_cons.1 hc with rfl | hc
    · exact .inr ⟨h, rfl⟩
    · rw [(List.mem_replicate.1 hc).2]; left; decide
  · cases hc

theorem sep_shown (pretty : Bool) (n : Nat) : ∀ c ∈ jsonSep pretty n, Shown pretty c := by
  intro c hc
  rcases List.mem_cons.1 hc with rfl | hc
  · left; decide
  · have := edge_shown pretty n c
    unfold jsonEdge at this
    split at hc
    · rename_i h; rw [if_pos h] at this; exact this hc
    · rw [List.mem_singleton] at hc; subst hc; left; decide

theorem more_shown {pretty : Bool} (n : Nat) : ∀ {xs : List Json}, (∀ x ∈ xs, ∀ n, ∀ c ∈ encodeJson pretty n x, Shown pretty c) →
    ∀ c ∈ encodeMore pretty n xs, Shown pretty c
  | [], _, c, hc => by cases hc
  | x :: xs, h, c, hc => by
    simp only [encodeMore, List.mem_append] at hc
    rcases hc with (hc | hc) | hc
    · exact sep_shown _ _ c hc
    · exact h x (by simp) n c hc
    · exact more_shown n (fun y hy => h y (by simp [hy])) c hc

theorem entries_shown {pretty : Bool} (n : Nat) : ∀ {xs : List (Str × Json)}, (∀ p ∈ xs, ∀ n, ∀ c ∈ encodeJson pretty n p.2, Shown pretty c) →
    ∀ c ∈ encodeEntries pretty n xs, Shown pretty c
  | [], _, c, hc => by cases hc
  | (k, x) :: xs, h, c, hc => by
    simp only [encodeEntries, List.mem_append] at hc
    rcases hc with (((hc | hc) | hc) | hc) | hc
    · exact sep_shown _ _ c hc
    · exact jsonStr_shown _ _ c hc
    · left; revert c; decide
    · exact h (k, x) (by simp) n c hc
    · exact entries_shown n (fun y hy => h y (by simp [hy])) c hc

theorem encodeJson_shown (pretty : Bool) : ∀ j : Json, ∀ n, ∀ c ∈ encodeJson pretty n j, Shown pretty c := by
  intro j
  induction j using Json.ind with
  | null => intro n c hc; left; revert c; simp only [encodeJson]; decide
  | bool b => intro n c hc; left; revert c; cases b <;> simp only [encodeJson] <;> decide
  | int i =>
    intro n c hc
    left
    simp only [encodeJson, intStr] at hc
    split at hc
    · exact digit_shown (natStr_digits hc)
    · rcases List.mem_cons.1 hc with rfl | hc
      · decide
      · exact digit_shown (natStr_digits hc)
  | float f =>
    intro n c hc
    left
    simp only [encodeJson] at hc
    cases f with
    | fin d => exact floatChar_shown (repr_chars (.fin d) c hc)
    | inf b => revert c; cases b <;> simp only [jsonFloat] <;> decide
    | nan => revert c; simp only [jsonFloat]; decide
  | str s => intro n c hc; exact jsonStr_shown _ _ c (by simpa only [encodeJson] using hc)
  | arr xs ih =>
    intro n c hc
    cases xs with
    | nil => left; revert c; simp only [encodeJson]; decide
    | cons x xs =>
      simp only [encodeJson, List.mem_append, List.mem_singleton] at hc
      rcases hc with ((((rfl | hc) | hc) | hc) | hc) | rfl
      · left; decide
      · exact edge_shown _ _ c hc
      · exact ih x (by simp) _ c hc
      · exact more_shown _ (fun y hy => ih y (by simp [hy])) c hc
      · exact edge_shown _ _ c hc
      · left; decide
  | obj kvs ih =>
    intro n c hc
    cases kvs with
    | nil => left; revert c; simp only [encodeJson]; decide
    | cons p xs =>
      obtain ⟨k, x⟩ := p
      simp only [encodeJson, List.mem_append, List.mem_singleton] at hc
      rcases hc with ((((((rfl | hc) | hc) | hc) | hc) | hc) | hc) | rfl
      · left; decide
      · exact edge_shown _ _ c hc
      · exact jsonStr_shown _ _ c hc
      · left; revert c; decide
      · exact ih (k, x) (by simp) _ c hc
      · exact entries_shown _ (fun y hy => ih y (by simp [hy])) c hc
      · exact edge_shown _ _ c hc
      · left; decide

end Verif
