import Verif.Model.Translate

/-!
# Lemmas on strings
-/

namespace Verif

theorem ensure_eq_ok {b : Bool} {e : Err} {u : Unit} : ensure b e = .ok u ↔ b = true := by
  cases b <;> simp [ensure]

theorem ensure_eq_error {b : Bool} {e e' : Err} : ensure b e = .error e' ↔ b = false ∧ e = e' := by
  cases b <;> simp [ensure]

@[simp] theorem ok_bind {ε α β : Type} (a : α) (f : α → Except ε β) : (Except.ok a >>= f) = f a := rfl
@[simp] theorem error_bind {ε α β : Type} (e : ε) (f : α → Except ε β) :
    (Except.error e >>= f) = .error e := rfl

theorem bind_eq_ok {ε α β : Type} {x : Except ε α} {f : α → Except ε β} {b : β} :
    (x >>= f) = .ok b ↔ ∃ a, x = .ok a ∧ f a = .ok b := by
  cases x <;> simp

theorem bind_eq_error {ε α β : Type} {x : Except ε α} {f : α → Except ε β} {e : ε} :
    (x >>= f) = .error e ↔ x = .error e ∨ ∃ a, x = .ok a ∧ f a = .error e := by
  cases x <;> simp

theorem joinWith_cons (sep p : Str) (ps : List Str) :
    joinWith sep (p :: ps) = p ++ (match ps with | [] => [] | _ => sep ++ joinWith sep ps) := by
  cases ps <;> simp [joinWith]

theorem mem_joinWith {c : Char} {sep : Str} : ∀ {ps : List Str}, c ∈ joinWith sep ps →
    c ∈ sep ∨ ∃ p ∈ ps, c ∈ p
  | [], h => by simp [joinWith] at h
  | [p], h => by simp [joinWith] at h; exact .inr ⟨p, by simp, h⟩
  | p :: q :: ps, h => by
    simp only [joinWith, List.mem_append] at h
    rcases h with (h | h) | h
    · exact .inr ⟨p, by simp, h⟩
    · exact .inl h
    · rcases mem_joinWith h with h | ⟨r, hr, hc⟩
      · exact .inl h
      · exact .inr ⟨r, List.mem_cons_of_mem _ hr, hc⟩

/-- The three chained replacements act character by character. -/
def esc1 (q c : Char) : Str :=
  if c = '\\' then ['\\', '\\'] else if c = q then ['\\', q] else if c = '\n' then ['\\', 'n'] else [c]

theorem escapeStr_eq (q : Char) (h1 : q ≠ '\\') (h2 : q ≠ '\n') (s : Str) :
    escapeStr q s = s.flatMap (esc1 q) := by
  unfold escapeStr replaceChar
  rw [List.flatMap_assoc, List.flatMap_assoc]
  congr 1
  funext c
  unfold esc1
  by_cases hb : c = '\\'
  · subst hb; simp [h1.symm]
  · by_cases hq : c = q
    · subst hq; simp [hb, h2]
    · by_cases hn : c = '\n'
      · subst hn; simp [hq]
      · simp [hb, hq, hn]

theorem digitChar_isDigit : ∀ d < 10, isDigit (digitChar d) = true := by decide

theorem natStrAux_digits : ∀ f n, ∀ c ∈ natStrAux f n, isDigit c = true
  | 0, _, c, h => by simp [natStrAux] at h
  | f + 1, n, c, h => by
    unfold natStrAux at h
    split at h
    · simp only [List.mem_singleton] at h; subst h; exact digitChar_isDigit _ ‹_›
    · simp only [List.mem_append, List.mem_singleton] at h
      rcases h with h | h
      · exact natStrAux_digits f _ c h
      · subst h; exact digitChar_isDigit _ (Nat.mod_lt _ (by decide))

theorem natStr_digits {n : Nat} {c : Char} (h : c ∈ natStr n) : isDigit c = true :=
  natStrAux_digits _ _ c h

theorem padNat_digits {w n : Nat} {c : Char} (h : c ∈ padNat w n) : isDigit c = true := by
  unfold padNat at h
  simp only [List.mem_append, List.mem_replicate] at h
  rcases h with ⟨_, h⟩ | h
  · subst h; decide
  · exact natStr_digits h

theorem intStr_chars {i : Int} {c : Char} (h : c ∈ intStr i) : isDigit c = true ∨ c = '-' := by
  cases i with
  | ofNat n => exact .inl (natStr_digits h)
  | negSucc n =>
    simp only [intStr, List.mem_cons] at h
    rcases h with h | h
    · exact .inr h
    · exact .inl (natStr_digits h)

end Verif
