import Verif.Lemmas.MqlReads

/-!
# Texts of queries neither begin nor end with blanks
-/

namespace Verif

open Spec (Arg argsText addFilters addGroups chainText Link)

/-- The text begins with a character that is no blank. -/
def Front (t : Str) : Prop := ∃ c r, t = c :: r ∧ isSpace c = false

/-- The text ends with a character that is no blank. -/
def Back (t : Str) : Prop := ∃ r c, t = r ++ [c] ∧ isSpace c = false

theorem Front.append {a : Str} (h : Front a) (b : Str) : Front (a ++ b) := by
  obtain ⟨c, r, rfl, h⟩ := h
  exact ⟨c, r ++ b, rfl, h⟩

theorem Back.append {b : Str} (h : Back b) (a : Str) : Back (a ++ b) := by
  obtain ⟨r, c, rfl, h⟩ := h
  exact ⟨a ++ r, c, by simp, h⟩

theorem Back.cons {b : Str} (h : Back b) (a : Char) : Back (a :: b) := h.append [a]

theorem strip_trim {t : Str} (h1 : Front t) (h2 : Back t) : stripP isSpace t = t := by
  have hl : lstripP isSpace t = t := by
    obtain ⟨c, r, rfl, h⟩ := h1
    simp [lstripP, h]
  rw [stripP, hl]
  obtain ⟨r, c, rfl, h⟩ := h2
  simp [rstripP, h]

theorem visible_space {c : Char} (h1 : 33 ≤ c.toNat) (h2 : c.toNat < 127) : isSpace c = false := pySpace.visible c h1 h2

theorem keyChar_space {c : Char} (h : (isAlpha c || isDigit c || c == '_' || c == '.') = true) : isSpace c = false := by
  have h' : isKeyChar c = true := h
  exact visible_space (isKeyChar_bounds h').1 (isKeyChar_bounds h').2

section
variable [S : RegexSpace]

omit S in
theorem front_of {p : Char → Bool} {t : Str} (hne : t ≠ []) (h : ∀ c ∈ t, p c = true) (hp : ∀ c, p c = true → isSpace c = false) : Front t := by
  cases t with
  | nil => exact absurd rfl hne
  | cons c r => exact ⟨c, r, rfl, hp c (h c (by simp))⟩

omit S in
theorem back_of {p : Char → Bool} {t : Str} (hne : t ≠ []) (h : ∀ c ∈ t, p c = true) (hp : ∀ c, p c = true → isSpace c = false) : Back t := by
  obtain ⟨r, c, rfl⟩ : ∃ r c, t = r ++ [c] := ⟨t.dropLast, t.getLast hne, (List.dropLast_concat_getLast hne).symm⟩
  exact ⟨r, c, rfl, hp c (h c (by simp))⟩

theorem KeyText.back {k : Str} (h : KeyText k) : Back k := back_of h.ne h.chars fun _ => keyChar_space

theorem NameText.front {k : Str} (h : NameText k) : Front k :=
  front_of h.ne h.chars fun _ hc => keyChar_space (by simp only [Bool.or_eq_true] at hc ⊢; exact .inl hc)

theorem NumText.trim {t : Str} {x : PyFloat} (h : NumText t x) : Front t ∧ Back t := by
  have hd : ∀ c, isDigit c = true → isSpace c = false := fun c hc => keyChar_space (by simp [hc])
  obtain ⟨a, f, hne, ha, hf, ht, _⟩ := h
  rcases ht with ⟨rfl, _⟩ | ⟨hf0, rfl⟩
  · exact ⟨front_of hne ha hd, back_of hne ha hd⟩
  · exact ⟨(front_of hne ha hd).append _, ((back_of hf0 hf hd).cons '.').append a⟩

theorem KeysText.back {r : Str} {ks : List Str} (h : KeysText r ks) : Back r := by
  induction h with
  | nil => exact ⟨_, ')', rfl, rfl⟩
  | cons _ _ _ _ ih => exact (((ih.append _).append _).cons _).append _

theorem GroupText.back {g : Str} {gs : List Val} (h : GroupText g gs) : g = [] ∨ Back g := by
  cases h with
  | none => exact .inl rfl
  | one _ _ _ hk => exact .inr (((hk.back.append _).append _).append _)
  | many _ _ _ _ hr => exact .inr ((((((hr.back.append _).append _).cons _).append _).append _).append _)

theorem BlockText.back {g : Str} {gs : List Val} (h : BlockText g gs) : g = [] ∨ Back g := by
  cases h with
  | none => exact .inl rfl
  | empty => exact .inr ⟨['{'], '}', rfl, rfl⟩
  | @some w w' t v ls => exact .inr ⟨'{' :: (w ++ (Spec.filterChain t ls ++ w')), '}', by simp, rfl⟩

omit S in
theorem back_opt {a b : Str} (ha : Back a) (hb : b = [] ∨ Back b) : Back (a ++ b) := by
  rcases hb with rfl | hb
  · simpa using ha
  · exact hb.append a

/-- Texts of queries neither begin nor end with blanks. -/
theorem reads_trim {k : Level} {t : Str} {x : MVal} (h : Reads k t x) : Front t ∧ Back t := by
  induction h with
  | number h => exact h.trim
  | @aggregate n p w i o ps fs gs hn hp hw hi =>
    exact ⟨hn.front.append _, ⟨n ++ (p ++ '(' :: (w ++ i)), ')', by simp, rfl⟩⟩
  | @function n p w t w' ps x as hn =>
    exact ⟨hn.front.append _, ⟨n ++ (p ++ '(' :: (w ++ (t ++ (argsText as ++ w')))), ')', by simp, rfl⟩⟩
  | plainCall _ hg ih => exact ⟨ih.1.append _, back_opt ih.2 hg.back⟩
  | filteredCall _ hg hb hne hg' ih =>
    refine ⟨ih.1.append _, ?_⟩
    rcases hb.back with h | h
    · exact absurd h hne
    · exact ((back_opt h hg'.back).append _).append _
  | @paren w w' t b g x fs gs hw hw' hx hq hb hg ih =>
    refine ⟨⟨'(', _, rfl, rfl⟩, ?_⟩
    have h : Back ([')'] ++ b) := back_opt ⟨[], ')', rfl, rfl⟩ hb.back
    have := ((back_opt h hg.back).append (w ++ (t ++ w'))).cons '('
    simpa using this
  | plain _ ih => exact ih
  | minus _ _ ih => exact ⟨⟨'-', _, rfl, rfl⟩, ih.2.cons _⟩
  | @chain t x ls tr hx hl hb htr hflat ih ihl =>
    refine ⟨ih.1.append _, ?_⟩
    rw [chainText]
    refine back_opt ih.2 ?_
    clear hl hb hflat
    induction ls with
    | nil => exact .inl rfl
    | cons l ls ihs =>
      simp only [List.mem_cons, forall_eq_or_imp] at ihl
      rw [List.flatMap_cons]
      exact .inr (back_opt ((ihl.1.2.append _).cons _ |>.append _) (ihs ihl.2))

/-- The parser returns the value of the text. -/
theorem parseMql_text [PyUnicode] {t : Str} {x : MVal} (h : Reads .expr t x) (hq : IsQuery x) : parseMql t = .ok x :=
  parseMql_reads (strip_trim (reads_trim h).1 (reads_trim h).2) h hq

end

end Verif
