import Verif.Lemmas.Regex
import Verif.Spec.Names
import Verif.Model.Function

namespace Verif
open Spec

theorem optNewline_iff {L : Str → Prop} {s : Str} :
    OptNewline L s ↔ ∃ b t, L b ∧ s = b ++ t ∧ (t = [] ∨ t = ['\n']) := by
  constructor
  · rintro (h | ⟨b, h, rfl⟩)
    · exact ⟨s, [], h, by simp, .inl rfl⟩
    · exact ⟨b, _, h, rfl, .inr rfl⟩
  · rintro ⟨b, t, h, rfl, rfl | rfl⟩
    · left; simpa using h
    · exact .inr ⟨b, h, rfl⟩

section
variable [U : PyUnicode]

/-- The characters after the first one in a column name. -/
theorem colChars : OneChar
    (.alt (.cls U.isWord) (.alt (.chr '.') (.alt (.chr ':') (.alt (.chr '/') (.chr '@')))))
    (fun c => U.isWord c || (c == '.' || (c == ':' || (c == '/' || c == '@')))) :=
  .alt (.cls _) (.alt (.chr _) (.alt (.chr _) (.alt (.chr _) (.chr _))))

theorem columnNameRe_iff {s : Str} : columnNameRe.matches s = true ↔ OptNewline ColName s := by
  rw [matches_iff, optNewline_iff]
  simp only [columnNameRe, mem_run_seq, mem_run_cls, mem_run_star colChars, mem_run_opt, mem_run_chr,
    mem_run_star (OneChar.cls _), mem_run_eol]
  constructor
  · rintro ⟨t, _, ⟨h, rfl, hh⟩, _, ⟨u, rfl, hu⟩, t', ht', rfl, he⟩
    have hid : ColIdent (h :: u) := ⟨h, u, rfl, by simpa using hh, by simpa using hu⟩
    rcases ht' with ⟨m, rfl, m', ⟨k, rfl, hk⟩, rfl⟩ | rfl
    · refine ⟨(h :: u) ++ '[' :: k ++ [']'], t', .inr ⟨_, k, hid, ?_, rfl⟩, by simp, he⟩
      constructor
      · intro hm; have := hk _ hm; simp at this
      · intro hm; have := hk _ hm; simp at this
    · exact ⟨h :: u, _, .inl hid, rfl, he⟩
  · rintro ⟨b, t, hb, rfl, he⟩
    rcases hb with ⟨h, u, rfl, hh, hu⟩ | ⟨i, k, ⟨h, u, rfl, hh, hu⟩, hk, rfl⟩
    · exact ⟨t, u ++ t, ⟨h, rfl, by simpa using hh⟩, t, ⟨u, rfl, by simpa using hu⟩, t, .inr rfl, rfl, he⟩
    · refine ⟨t, u ++ '[' :: k ++ [']'] ++ t, ⟨h, rfl, by simpa using hh⟩, '[' :: k ++ [']'] ++ t,
        ⟨u, by simp, by simpa using hu⟩, t, .inl ⟨k ++ [']'] ++ t, by simp, ']' :: t,
          ⟨k, by simp, ?_⟩, rfl⟩, rfl, he⟩
      intro c hc
      have h1 : c ≠ '[' := by rintro rfl; exact hk.1 hc
      have h2 : c ≠ ']' := by rintro rfl; exact hk.2 hc
      simp [h1, h2]

theorem colIdent_no_bracket {s : Str} (h : ColIdent s) : '[' ∉ s ∧ ']' ∉ s ∧ '\n' ∉ s := by
  obtain ⟨h, u, rfl, hh, hu⟩ := h
  have key : ∀ d : Char, d.toNat < 128 → (isAlpha d || isDigit d || d == '_') = false →
      d ≠ '.' → d ≠ ':' → d ≠ '/' → d ≠ '@' → d ∉ h :: u := by
    intro d hd hw h1 h2 h3 h4 hm
    have hw' := U.ascii d hd
    rw [hw] at hw'
    simp only [Bool.or_eq_false_iff] at hw
    rcases List.mem_cons.1 hm with rfl | hm
    · rcases hh with hh | rfl
      · rw [hw.1.1] at hh; cases hh
      · simp at hw
    · rcases hu d hm with hx | hx | hx | hx | hx
      · rw [hw'] at hx; cases hx
      all_goals contradiction
  refine ⟨key _ (by decide) (by decide) (by decide) (by decide) (by decide) (by decide),
    key _ (by decide) (by decide) (by decide) (by decide) (by decide) (by decide),
    key _ (by decide) (by decide) (by decide) (by decide) (by decide) (by decide)⟩

end

theorem splitOnce_none {c : Char} : ∀ {s : Str}, c ∉ s → splitOnce c s = none
  | [], _ => rfl
  | x :: xs, h => by
    simp only [List.mem_cons, not_or] at h
    simp [splitOnce, splitOnce_none h.2, Ne.symm h.1]

theorem splitOnce_append {c : Char} : ∀ {a b : Str}, c ∉ a → splitOnce c (a ++ c :: b) = some (a, b)
  | [], b, _ => by simp [splitOnce]
  | x :: xs, b, h => by
    simp only [List.mem_cons, not_or] at h
    simp [splitOnce, splitOnce_append h.2, Ne.symm h.1]

theorem dropWhile_eq_self {α} {p : α → Bool} : ∀ {l : List α}, (∀ x ∈ l.head?, p x = false) → l.dropWhile p = l
  | [], _ => rfl
  | x :: xs, h => by simp [h x (by simp)]

theorem strip_bracket {k : Str} (h : ']' ∉ k) : stripP (· == ']') (k ++ [']']) = k := by
  have h2 : k.reverse.dropWhile (· == ']') = k.reverse := by
    apply dropWhile_eq_self
    intro x hx
    have : x ∈ k := by
      have := List.mem_of_mem_head? hx; simpa using this
    simp; rintro rfl; exact h this
  cases k with
  | nil => rfl
  | cons x xs =>
    have hx : x ≠ ']' := by rintro rfl; simp at h
    have h1 : ((x :: xs) ++ [']']).dropWhile (· == ']') = (x :: xs) ++ [']'] := by
      apply dropWhile_eq_self
      intro y hy; simp at hy; subst hy; simpa using hx
    simp only [stripP, lstripP, rstripP, h1, List.reverse_append, List.reverse_cons, List.reverse_nil,
      List.nil_append, List.singleton_append, List.dropWhile_cons, beq_self_eq_true, if_true]
    simp only [List.reverse_cons] at h2
    rw [h2]; simp

theorem strip_bracket_newline {k : Str} (h : ']' ∉ k) :
    stripP (· == ']') (k ++ [']', '\n']) = if k = [] then ['\n'] else k ++ [']', '\n'] := by
  cases k with
  | nil => rfl
  | cons x xs =>
    have hx : x ≠ ']' := by rintro rfl; simp at h
    have h1 : ((x :: xs) ++ [']', '\n']).dropWhile (· == ']') = (x :: xs) ++ [']', '\n'] := by
      apply dropWhile_eq_self
      intro y hy; simp at hy; subst hy; simpa using hx
    simp only [stripP, lstripP, rstripP, h1]
    simp

theorem identifierRe_iff {s : Str} : identifierRe.matches s = true ↔ OptNewline IdentName s := by
  rw [matches_iff, optNewline_iff]
  simp only [identifierRe, mem_run_seq, mem_run_cls, mem_run_star (OneChar.cls _), mem_run_eol]
  constructor
  · rintro ⟨t, _, ⟨h, rfl, hh⟩, _, ⟨u, rfl, hu⟩, rfl, he⟩
    exact ⟨h :: u, _, ⟨h, u, rfl, by simpa using hh, by simpa [or_assoc] using hu⟩, rfl, he⟩
  · rintro ⟨b, t, ⟨h, u, rfl, hh, hu⟩, rfl, he⟩
    exact ⟨t, u ++ t, ⟨h, rfl, by simpa using hh⟩, t, ⟨u, rfl, by simpa [or_assoc] using hu⟩, rfl, he⟩

theorem entityNameRe_iff {s : Str} : entityNameRe.matches s = true ↔ OptNewline EntityName s := by
  rw [matches_iff, optNewline_iff]
  simp only [entityNameRe, mem_run_seq, mem_run_plus (OneChar.cls _), mem_run_eol]
  constructor
  · rintro ⟨t, _, ⟨u, rfl, hne, hu⟩, rfl, he⟩
    exact ⟨u, _, ⟨hne, by simpa using hu⟩, rfl, he⟩
  · rintro ⟨u, t, ⟨hne, hu⟩, rfl, he⟩
    exact ⟨t, t, ⟨u, rfl, hne, by simpa using hu⟩, rfl, he⟩

theorem ALIAS_RE_iff {s : Str} :
    ALIAS_RE.matches s = true ↔ OptNewline (fun b => ∀ c ∈ b, aliasChar c = true) s := by
  rw [matches_iff, optNewline_iff]
  simp only [ALIAS_RE, mem_run_seq, mem_run_star (OneChar.cls _), mem_run_eol]
  constructor
  · rintro ⟨t, _, ⟨u, rfl, hu⟩, rfl, he⟩; exact ⟨u, _, hu, rfl, he⟩
  · rintro ⟨u, t, hu, rfl, he⟩; exact ⟨t, t, ⟨u, rfl, hu⟩, rfl, he⟩

/-- Characters allowed in aliases are printable ASCII other than the quoting characters. -/
theorem aliasChar_safe {c : Char} (h : aliasChar c = true) :
    c ≠ '`' ∧ c ≠ '\'' ∧ c ≠ '"' ∧ c ≠ '\\' ∧ c ≠ ',' ∧ isSpace c = false := by
  refine ⟨?_, ?_, ?_, ?_, ?_, ?_⟩
  iterate 5 (rintro rfl; revert h; decide)
  have hn : 33 ≤ c.toNat ∧ c.toNat < 128 := by
    simp only [aliasChar, isAlpha, isDigit, Bool.or_eq_true, Bool.and_eq_true, decide_eq_true_eq,
      beq_iff_eq, Char.le_def] at h
    have e : ∀ d : Char, d.toNat = d.val.toNat := fun _ => rfl
    simp only [UInt32.le_iff_toNat_le] at h
    simp only [e]
    rcases h with ((((((((((((((h | h) | h) | h) | h) | h) | h) | h) | h) | h) | h) | h) | h) | h) | h)
    all_goals first
      | (subst h; decide)
      | skip
    · exact ⟨Nat.le_trans (by decide) h.1, Nat.lt_of_le_of_lt h.2 (by decide)⟩
    · exact ⟨Nat.le_trans (by decide) h.1, Nat.lt_of_le_of_lt h.2 (by decide)⟩
    · exact ⟨Nat.le_trans (by decide) h.1, Nat.lt_of_le_of_lt h.2 (by decide)⟩
  simp [isSpace]
  omega

end Verif
