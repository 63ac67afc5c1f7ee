import Verif.Model.Repr
import Verif.Spec.Repr
import Verif.Lemmas.JsonStr
import Verif.Lemmas.Scalar
import Verif.Lemmas.Json

/-!
# Lemmas on `repr`
-/

namespace Verif
open Spec

section
variable [W : PyShow]

/-! ### Characters -/

omit W in
theorem pyHexDigit_hexChar {n : Nat} (h : n < 16) : pyHexDigit (hexChar n) = some n := by
  have : ∀ k : Fin 16, pyHexDigit (hexChar k.val) = some k.val := by decide
  exact this ⟨n, h⟩

omit W in
theorem readPyHex_step (k n m : Nat) (h : m < 16) (s : Str) : readPyHex (k + 1) n (hexChar m :: s) = readPyHex k (n * 16 + m) s := by
  simp [readPyHex, pyHexDigit_hexChar h]

omit W in
theorem readPyHex_two (k n m : Nat) (s : Str) : readPyHex (k + 2) n (hexTwo m ++ s) = readPyHex k (n * 256 + m % 256) s := by
  simp only [hexTwo, List.cons_append, List.nil_append]
  rw [readPyHex_step _ _ _ (by omega), readPyHex_step _ _ _ (by omega)]
  congr 1
  omega

omit W in
theorem readPyHex_four (k n m : Nat) (s : Str) : readPyHex (k + 4) n (hexFour m ++ s) = readPyHex k (n * 65536 + m % 65536) s := by
  simp only [hexFour, List.append_assoc]
  have e : (n * 256 + m / 256 % 256) * 256 + m % 256 = n * 65536 + m % 65536 := by omega
  rw [readPyHex_two (k + 2), readPyHex_two, e]

omit W in
theorem readPyCode_of {k : Nat} {c : Char} {s r : Str} (h : readPyHex k 0 s = some (c.toNat, r)) : readPyCode k s = some (c, r) := by
  have hv : c.toNat.isValidChar := c.valid
  simp [readPyCode, h, hv, Char.ofNat_toNat]

theorem readPyChar_repr (q c : Char) (hq : q = '\'' ∨ q = '"') (r : Str) : readPyChar (reprChar q c ++ r) = some (c, r) := by
  have hr := char_range c
  unfold reprChar
  split
  · rename_i h
    rcases h with h | h
    · subst h; rcases hq with hq | hq <;> subst hq <;> rfl
    · subst h; rfl
  rename_i hn
  split
  · subst c; rfl
  split
  · subst c; rfl
  split
  · subst c; rfl
  split
  · simp only [List.cons_append, List.nil_append, readPyChar, readPyEscape]
    apply readPyCode_of
    rw [readPyHex_two 0]
    simp only [readPyHex]
    congr 2; omega
  split
  · rename_i h1 h2 h3 _ _
    have hb : c ≠ '\\' := fun h => hn (.inr h)
    simp only [List.cons_append, List.nil_append]
    rw [readPyChar]
    · rw [if_neg (by simp [h2, h3])]
    · exact fun h => hb h
  split
  · simp only [List.cons_append, List.nil_append, readPyChar, readPyEscape]
    apply readPyCode_of
    rw [readPyHex_two 0]
    simp only [readPyHex]
    congr 2; omega
  split
  · simp only [List.cons_append, List.nil_append, readPyChar, readPyEscape]
    apply readPyCode_of
    rw [readPyHex_four 0]
    simp only [readPyHex]
    congr 2; omega
  · simp only [List.cons_append, List.nil_append, List.append_assoc, readPyChar, readPyEscape]
    apply readPyCode_of
    rw [readPyHex_four 4, readPyHex_four 0]
    simp only [readPyHex]
    congr 2; omega

theorem reprChar_head (q c : Char) (hq : q = '\'' ∨ q = '"') : ∃ x t, reprChar q c = x :: t ∧ x ≠ q := by
  have hb : '\\' ≠ q := by rcases hq with h | h <;> subst h <;> decide
  unfold reprChar
  repeat' split
  all_goals first
    | exact ⟨_, _, rfl, hb⟩
    | (rename_i h _ _ _ _ _; exact ⟨_, _, rfl, fun e => h (.inl e)⟩)

theorem readPyStr_repr (q : Char) (hq : q = '\'' ∨ q = '"') (s r : Str) : ∀ f, s.length < f →
    readPyStr q f (s.flatMap (reprChar q) ++ q :: r) = some (s, r) := by
  induction s with
  | nil => intro f hf; cases f with
    | zero => cases hf
    | succ f => simp [readPyStr]
  | cons c s ih =>
    intro f hf
    cases f with
    | zero => cases hf
    | succ f =>
      obtain ⟨x, t, hx, hne⟩ := reprChar_head q c hq
      have h1 := readPyChar_repr q c hq (s.flatMap (reprChar q) ++ q :: r)
      have e : (c :: s).flatMap (reprChar q) ++ q :: r = x :: (t ++ (s.flatMap (reprChar q) ++ q :: r)) := by
        simp [hx]
      rw [hx] at h1
      rw [e, readPyStr, if_neg hne]
      simp only [List.cons_append] at h1
      rw [h1]
      simp only [Option.bind_eq_bind, Option.bind_some]
      rw [ih f (by simpa using hf)]
      rfl

omit W in
/-- Plain text between single quotes. -/
theorem readPyStr_plain (s r : Str) (h : PlainText s) : ∀ f, s.length < f →
    readPyStr '\'' f (s ++ '\'' :: r) = some (s, r) := by
  induction s with
  | nil => intro f hf; cases f with
    | zero => cases hf
    | succ f => simp [readPyStr]
  | cons c s ih =>
    intro f hf
    cases f with
    | zero => cases hf
    | succ f =>
      obtain ⟨h1, h2, h3, h4⟩ := h c (List.mem_cons_self ..)
      have e : readPyChar (c :: (s ++ '\'' :: r)) = some (c, s ++ '\'' :: r) := by
        rw [readPyChar]
        · rw [if_neg (by simp [h3, h4])]
        · exact fun h => h2 h
      rw [List.cons_append, readPyStr, if_neg h1, e]
      simp only [Option.bind_eq_bind, Option.bind_some]
      rw [ih (fun x hx => h x (List.mem_cons_of_mem _ hx)) f (by simpa using hf)]
      rfl

omit W in
theorem reprQuote_cases (s : Str) : reprQuote s = '\'' ∨ reprQuote s = '"' := by
  unfold reprQuote
  split <;> simp

theorem reprChar_length (q c : Char) : 1 ≤ (reprChar q c).length := by
  unfold reprChar
  repeat' split
  all_goals simp

theorem flatMap_reprChar_length (q : Char) (s : Str) : s.length ≤ (s.flatMap (reprChar q)).length := by
  induction s with
  | nil => simp
  | cons c s ih =>
    have := reprChar_length q c
    simp only [List.flatMap_cons, List.length_append, List.length_cons]
    omega

theorem readPyLit_str (f : Nat) (s r : Str) : readPyLit (f + 1) (reprStr s ++ r) = some (.str s, r) := by
  have hq := reprQuote_cases s
  have hl := flatMap_reprChar_length (reprQuote s) s
  have h := readPyStr_repr (reprQuote s) hq s r ((s.flatMap (reprChar (reprQuote s)) ++ reprQuote s :: r).length + 1)
    (by simp only [List.length_append]; omega)
  have e : reprStr s ++ r = reprQuote s :: (s.flatMap (reprChar (reprQuote s)) ++ reprQuote s :: r) := by simp [reprStr]
  rw [e]
  generalize reprQuote s = q at *
  rcases hq with hq | hq <;> subst hq <;> (unfold readPyLit; simp only [h, Option.map_some])

omit W in
theorem readPy_plain (s r : Str) (h : PlainText s) : readPy ('\'' :: (s ++ '\'' :: r)) = some (.str s, r) := by
  have h' := readPyStr_plain s r h ((s ++ '\'' :: r).length + 1) (by simp only [List.length_append]; omega)
  unfold readPy readPyLit
  simp only [h', Option.map_some]

/-! ### Words -/

omit W in
theorem pyWordChar_of_float {c : Char} (h : floatChar c = true) : pyWordChar c = true := by
  simp only [floatChar, Bool.or_eq_true, beq_iff_eq] at h
  rcases h with (((((((h | h) | h) | h) | h) | h) | h) | h) | h
  · have : c.isDigit = true := h
    simp [pyWordChar, Char.isAlphanum, this]
  all_goals (subst h; decide)

omit W in
theorem readPyLit_word (f : Nat) {t r : Str} {l : PyLit} (h0 : t ≠ []) (ht : ∀ c ∈ t, pyWordChar c = true)
    (hr : ∀ c ∈ r.head?, pyWordChar c = false) (hl : readPyWord t = some l) : readPyLit (f + 1) (t ++ r) = some (l, r) := by
  cases t with
  | nil => exact absurd rfl h0
  | cons c t =>
    have hc := ht c (List.mem_cons_self ..)
    have e1 : (c :: t ++ r).takeWhile pyWordChar = c :: t := by
      rw [List.takeWhile_append_of_pos ht]
      cases r with
      | nil => simp
      | cons a r => simp [hr a (by simp)]
    have e2 : (c :: t ++ r).dropWhile pyWordChar = r := by
      rw [List.dropWhile_append_of_pos ht]
      cases r with
      | nil => simp
      | cons a r => simp [hr a (by simp)]
    rw [List.cons_append] at *
    have n1 : c ≠ '"' := by rintro rfl; revert hc; decide
    have n2 : c ≠ '[' := by rintro rfl; revert hc; decide
    have n3 : c ≠ '{' := by rintro rfl; revert hc; decide
    have n4 : c ≠ '(' := by rintro rfl; revert hc; decide
    have n5 : c ≠ '\'' := by rintro rfl; revert hc; decide
    unfold readPyLit
    split
    · simp_all
    · simp_all
    · simp_all
    · simp_all
    · simp_all
    · rw [e1, e2, hl]
      rfl

omit W in
theorem readPyWord_int (i : Int) : readPyWord (intStr i) = some (.int i) := by
  have h := readToken_int i
  unfold readPyWord
  rw [if_neg, if_neg, if_neg, h]
  · intro e; rw [e, show readToken c!"False" = none from rfl] at h; cases h
  · intro e; rw [e, show readToken c!"True" = none from rfl] at h; cases h
  · intro e; rw [e, show readToken c!"None" = none from rfl] at h; cases h

omit W in
theorem readPyWord_float (f : PyFloat) : readPyWord f.repr = some (.float f) := by
  have h := readToken_repr f
  unfold readPyWord
  rw [if_neg, if_neg, if_neg, h]
  · intro e; rw [e, show readToken c!"False" = none from rfl] at h; cases h
  · intro e; rw [e, show readToken c!"True" = none from rfl] at h; cases h
  · intro e; rw [e, show readToken c!"None" = none from rfl] at h; cases h

omit W in
theorem repr_ne_nil (f : PyFloat) : f.repr ≠ [] := by
  intro e
  have h := readToken_repr f
  rw [e, show readToken [] = none from rfl] at h
  cases h

/-! ### The text of a literal -/

mutual
/-- The text of a literal. -/
def litText : PyLit → Str
  | .none => c!"None"
  | .bool b => reprBool b
  | .int i => intStr i
  | .float f => f.repr
  | .str s => reprStr s
  | .list ls => ['['] ++ joinWith c!", " (litTexts ls) ++ [']']
  | .tuple ls => reprTuple (litTexts ls)
  | .dict kvs => ['{'] ++ joinWith c!", " (entryTexts kvs) ++ ['}']

/-- The texts of items. -/
def litTexts : List PyLit → List Str
  | [] => []
  | l :: ls => litText l :: litTexts ls

/-- The texts of entries. -/
def entryTexts : List (Str × PyLit) → List Str
  | [] => []
  | (k, l) :: ls => (reprStr k ++ c!": " ++ litText l) :: entryTexts ls
end

omit W in
/-- Induction on literals. -/
theorem Spec.PyLit.ind {P : PyLit → Prop} (none : P .none) (bool : ∀ b, P (.bool b)) (int : ∀ i, P (.int i))
    (float : ∀ f, P (.float f)) (str : ∀ s, P (.str s)) (list : ∀ xs, (∀ x ∈ xs, P x) → P (.list xs))
    (tuple : ∀ xs, (∀ x ∈ xs, P x) → P (.tuple xs)) (dict : ∀ kvs, (∀ p ∈ kvs, P p.2) → P (.dict kvs)) : ∀ l, P l := by
  intro l
  refine PyLit.rec (motive_1 := P) (motive_2 := fun xs => ∀ x ∈ xs, P x) (motive_3 := fun kvs => ∀ p ∈ kvs, P p.2)
    (motive_4 := fun p => P p.2) none bool int float str list tuple dict (by simp) ?_ (by simp) ?_ (fun _ _ h => h) l
  · intro x xs hx hxs y hy
    rcases List.mem_cons.1 hy with rfl | hy
    · exact hx
    · exact hxs y hy
  · intro x xs hx hxs y hy
    rcases List.mem_cons.1 hy with rfl | hy
    · exact hx
    · exact hxs y hy

theorem reprVals_lits : ∀ (xs : List Val) (ls : List PyLit), xs.length = ls.length → (∀ p ∈ xs.zip ls, p.1.repr = litText p.2) →
    reprVals xs = litTexts ls := by
  intro xs
  induction xs with
  | nil => intro ls hl _; cases ls with
    | nil => rfl
    | cons l ls => cases hl
  | cons x xs ih => intro ls hl h; cases ls with
    | nil => cases hl
    | cons l ls =>
      simp only [reprVals, litTexts]
      rw [h (x, l) (by simp), ih ls (by simpa using hl) fun p hp => h p (by simp [hp])]

theorem reprItems_lits : ∀ (xs : List Data) (ls : List PyLit), xs.length = ls.length → (∀ p ∈ xs.zip ls, p.1.repr = litText p.2) →
    reprItems xs = litTexts ls := by
  intro xs
  induction xs with
  | nil => intro ls hl _; cases ls with
    | nil => rfl
    | cons l ls => cases hl
  | cons x xs ih => intro ls hl h; cases ls with
    | nil => cases hl
    | cons l ls =>
      simp only [reprItems, litTexts]
      rw [h (x, l) (by simp), ih ls (by simpa using hl) fun p hp => h p (by simp [hp])]

theorem reprEntries_lits : ∀ (xs : List (Str × Data)) (ls : List (Str × PyLit)), xs.map (·.1) = ls.map (·.1) →
    (∀ p ∈ xs.zip ls, p.1.2.repr = litText p.2.2) → reprEntries xs = entryTexts ls := by
  intro xs
  induction xs with
  | nil => intro ls hl _; cases ls with
    | nil => rfl
    | cons l ls => cases hl
  | cons x xs ih => intro ls hl h; cases ls with
    | nil => cases hl
    | cons l ls =>
      obtain ⟨k, x⟩ := x
      obtain ⟨k', l⟩ := l
      simp only [List.map_cons, List.cons.injEq] at hl
      obtain ⟨rfl, hl⟩ := hl
      simp only [reprEntries, entryTexts]
      rw [h ((k, x), (k, l)) (by simp), ih ls hl fun p hp => h p (by simp [hp])]

theorem LitOf.text {v : Val} {l : PyLit} (h : LitOf v l) : v.repr = litText l := by
  induction h with
  | list xs ls hl _ ih => simp only [Val.repr, litText]; rw [reprVals_lits xs ls hl ih]
  | tuple xs ls hl _ ih => simp only [Val.repr, litText]; rw [reprVals_lits xs ls hl ih]
  | _ => simp only [Val.repr, litText]

theorem LitFor.text {d : Data} {l : PyLit} (h : LitFor d l) : d.repr = litText l := by
  induction h with
  | val v l h => simp only [Data.repr]; exact LitOf.text h
  | list xs ls hl _ ih => simp only [Data.repr, litText]; rw [reprItems_lits xs ls hl ih]
  | dict xs ls hl _ ih => simp only [Data.repr, litText]; rw [reprEntries_lits xs ls hl ih]

/-! ### Reading it back -/

/-- The text of the literal is read back, whatever follows. -/
def LitReads (l : PyLit) : Prop :=
  ∀ (f : Nat) (r : Str), (∀ c ∈ r.head?, pyWordChar c = false) → 2 * (litText l).length < f →
    readPyLit f (litText l ++ r) = some (l, r)

omit W in
theorem intStr_words (i : Int) : ∀ c ∈ intStr i, pyWordChar c = true := by
  intro c hc
  apply pyWordChar_of_float
  rcases intStr_chars hc with h | h <;> simp [floatChar, h]

omit W in
theorem float_words (f : PyFloat) : ∀ c ∈ f.repr, pyWordChar c = true := fun c hc => pyWordChar_of_float (repr_chars f c hc)

theorem litText_head (l : PyLit) : ∃ c t, litText l = c :: t ∧ c ≠ ']' ∧ c ≠ ')' ∧ c ≠ '}' := by
  have tok : ∀ t : Str, t ≠ [] → (∀ c ∈ t, pyWordChar c = true) → ∃ c t', t = c :: t' ∧ c ≠ ']' ∧ c ≠ ')' ∧ c ≠ '}' := by
    intro t h0 ht
    cases t with
    | nil => exact absurd rfl h0
    | cons c t =>
      have hc := ht c (List.mem_cons_self ..)
      exact ⟨c, t, rfl, by rintro rfl; revert hc; decide, by rintro rfl; revert hc; decide, by rintro rfl; revert hc; decide⟩
  cases l with
  | none => exact ⟨'N', _, rfl, by decide, by decide, by decide⟩
  | bool b => cases b <;> exact ⟨_, _, rfl, by decide, by decide, by decide⟩
  | int i => unfold litText; exact tok _ (intStr_ne_nil i) (intStr_words i)
  | float f => unfold litText; exact tok _ (repr_ne_nil f) (float_words f)
  | str s =>
    refine ⟨reprQuote s, _, rfl, ?_⟩
    rcases reprQuote_cases s with h | h <;> rw [h] <;> decide
  | list xs => unfold litText; exact ⟨'[', _, rfl, by decide, by decide, by decide⟩
  | tuple xs =>
    unfold litText reprTuple
    split <;> exact ⟨'(', _, rfl, by decide, by decide, by decide⟩
  | dict kvs => unfold litText; exact ⟨'{', _, rfl, by decide, by decide, by decide⟩

theorem litText_length (l : PyLit) : 1 ≤ (litText l).length := by
  obtain ⟨c, t, h, _⟩ := litText_head l
  simp [h]

omit W in
theorem joinWith_cons_cons (sep a b : Str) (ts : List Str) : joinWith sep (a :: b :: ts) = a ++ sep ++ joinWith sep (b :: ts) := rfl

omit W in
/-- After the last item. -/
theorem readPyItems_last (f : Nat) (close : Char) {s r : Str} {l : PyLit} (hs : s.head? ≠ some close)
    (hl : readPyLit f s = some (l, r)) (hr : ∀ t, r ≠ ',' :: ' ' :: t) : readPyItems (f + 1) close s = some ([l], r) := by
  unfold readPyItems
  rw [if_neg hs, hl]
  simp only [Option.bind_eq_bind, Option.bind_some]

theorem readPyItems_lits (close : Char) (hc : close = ']' ∨ close = ')') (r : Str) (hr : ∀ c ∈ r.head?, pyWordChar c = false)
    (hn : ∀ t, r ≠ ',' :: ' ' :: t) : ∀ (ls : List PyLit) (l : PyLit) (f : Nat), (∀ x ∈ l :: ls, LitReads x) →
    2 * (joinWith c!", " (litTexts (l :: ls))).length + 1 < f →
    readPyItems f close (joinWith c!", " (litTexts (l :: ls)) ++ r) = some (l :: ls, r) := by
  intro ls
  induction ls with
  | nil =>
    intro l f hx hf
    cases f with
    | zero => omega
    | succ f =>
      simp only [litTexts, joinWith] at *
      refine readPyItems_last f close ?_ (hx l (List.mem_cons_self ..) f r hr (by omega)) hn
      obtain ⟨c, t, h, h1, h2, _⟩ := litText_head l
      rw [h]
      rcases hc with rfl | rfl <;> simp [h1, h2]
  | cons l' ls ih =>
    intro l f hx hf
    cases f with
    | zero => omega
    | succ f =>
      have e : joinWith c!", " (litTexts (l :: l' :: ls)) ++ r =
          litText l ++ (',' :: ' ' :: (joinWith c!", " (litTexts (l' :: ls)) ++ r)) := by
        simp only [litTexts, joinWith_cons_cons]
        simp
      have el : (joinWith c!", " (litTexts (l :: l' :: ls))).length =
          (litText l).length + 2 + (joinWith c!", " (litTexts (l' :: ls))).length := by
        simp only [litTexts, joinWith_cons_cons]
        simp only [List.length_append, List.length_cons, List.length_nil]
      have hs : (litText l ++ (',' :: ' ' :: (joinWith c!", " (litTexts (l' :: ls)) ++ r))).head? ≠ some close := by
        obtain ⟨c, t, h, h1, h2, _⟩ := litText_head l
        rw [h]
        rcases hc with rfl | rfl <;> simp [h1, h2]
      rw [e]
      unfold readPyItems
      rw [if_neg hs, hx l (List.mem_cons_self ..) f _ (by simp; decide) (by omega)]
      simp only [Option.bind_eq_bind, Option.bind_some]
      rw [ih l' f (fun x h => hx x (List.mem_cons_of_mem _ h)) (by omega)]
      rfl

theorem readPyEntries_lits (r : Str) : ∀ (ls : List (Str × PyLit)) (k : Str) (l : PyLit) (f : Nat), (∀ x ∈ (k, l) :: ls, LitReads x.2) →
    2 * (joinWith c!", " (entryTexts ((k, l) :: ls))).length + 1 < f →
    readPyEntries f (joinWith c!", " (entryTexts ((k, l) :: ls)) ++ '}' :: r) = some ((k, l) :: ls, '}' :: r) := by
  intro ls
  induction ls with
  | nil =>
    intro k l f hx hf
    match f, hf with
    | 0, hf => omega
    | 1, hf => omega
    | f + 2, hf =>
      simp only [entryTexts, joinWith, List.append_assoc] at *
      have hs : (reprStr k ++ (c!": " ++ (litText l ++ '}' :: r))).head? ≠ some '}' := by
        simp only [reprStr, List.cons_append, List.nil_append, List.head?_cons]
        rcases reprQuote_cases k with h | h <;> rw [h] <;> decide
      unfold readPyEntries
      rw [if_neg hs, readPyLit_str]
      simp only [Option.bind_eq_bind, Option.bind_some, List.cons_append, List.nil_append]
      rw [hx (k, l) (List.mem_cons_self ..) (f + 1) _ (by simp; decide)
        (by simp only [List.length_append, List.length_cons, List.length_nil] at hf ⊢; omega)]
      rfl
  | cons p ls ih =>
    intro k l f hx hf
    obtain ⟨k', l'⟩ := p
    match f, hf with
    | 0, hf => omega
    | 1, hf => omega
    | f + 2, hf =>
      have e : joinWith c!", " (entryTexts ((k, l) :: (k', l') :: ls)) ++ '}' :: r =
          reprStr k ++ (c!": " ++ (litText l ++ (',' :: ' ' :: (joinWith c!", " (entryTexts ((k', l') :: ls)) ++ '}' :: r)))) := by
        simp only [entryTexts, joinWith_cons_cons]
        simp
      have el : (joinWith c!", " (entryTexts ((k, l) :: (k', l') :: ls))).length =
          (reprStr k).length + 2 + (litText l).length + 2 + (joinWith c!", " (entryTexts ((k', l') :: ls))).length := by
        simp only [entryTexts, joinWith_cons_cons]
        simp only [List.length_append, List.length_cons, List.length_nil]
      rw [e]
      generalize ht : joinWith c!", " (entryTexts ((k', l') :: ls)) ++ '}' :: r = t
      have hs : (reprStr k ++ (c!": " ++ (litText l ++ (',' :: ' ' :: t)))).head? ≠ some '}' := by
        simp only [reprStr, List.cons_append, List.nil_append, List.head?_cons]
        rcases reprQuote_cases k with h | h <;> rw [h] <;> decide
      unfold readPyEntries
      rw [if_neg hs, readPyLit_str]
      simp only [Option.bind_eq_bind, Option.bind_some, List.cons_append, List.nil_append]
      rw [hx (k, l) (List.mem_cons_self ..) (f + 1) _ (by simp; decide) (by simp only; omega)]
      simp only [Option.bind_some]
      rw [← ht, ih k' l' (f + 1) (fun x h => hx x (List.mem_cons_of_mem _ h)) (by omega)]
      rfl

theorem litReads (l : PyLit) : LitReads l := by
  induction l using PyLit.ind with
  | none => intro f r hr hf; cases f with
    | zero => omega
    | succ f => exact readPyLit_word f (t := c!"None") (by simp) (by decide) hr rfl
  | bool b => intro f r hr hf; cases f with
    | zero => omega
    | succ f =>
      cases b
      · exact readPyLit_word f (t := c!"False") (by simp) (by decide) hr rfl
      · exact readPyLit_word f (t := c!"True") (by simp) (by decide) hr rfl
  | int i => intro f r hr hf; cases f with
    | zero => omega
    | succ f => unfold litText; exact readPyLit_word f (intStr_ne_nil i) (intStr_words i) hr (readPyWord_int i)
  | float x => intro f r hr hf; cases f with
    | zero => omega
    | succ f => unfold litText; exact readPyLit_word f (repr_ne_nil x) (float_words x) hr (readPyWord_float x)
  | str s => intro f r hr hf; cases f with
    | zero => omega
    | succ f => unfold litText; exact readPyLit_str f s r
  | list ls ih =>
    intro f r hr hf
    match f, ls, ih, hf with
    | 0, _, _, hf => omega
    | 1, _, _, hf => simp [litText] at hf
    | f + 2, [], _, _ => simp [litText, litTexts, joinWith, readPyLit, readPyItems]
    | f + 2, l :: ls, ih, hf =>
      have e : litText (.list (l :: ls)) ++ r = '[' :: (joinWith c!", " (litTexts (l :: ls)) ++ ']' :: r) := by simp [litText]
      have el : (litText (.list (l :: ls))).length = 2 + (joinWith c!", " (litTexts (l :: ls))).length := by
        simp only [litText, List.length_append, List.length_cons, List.length_nil]; omega
      rw [e]
      unfold readPyLit
      simp only
      rw [readPyItems_lits ']' (.inl rfl) (']' :: r) (by simp; decide) (by simp) ls l (f + 1) ih (by omega)]
      rfl
  | tuple ls ih =>
    intro f r hr hf
    match f, ls, ih, hf with
    | 0, _, _, hf => omega
    | 1, ls, _, hf =>
      have := litText_length (.tuple ls)
      omega
    | f + 2, [], _, _ => simp [litText, litTexts, reprTuple, joinWith, readPyLit, readPyItems]
    | f + 2, [l], ih, hf =>
      have e : litText (.tuple [l]) ++ r = '(' :: (joinWith c!", " (litTexts [l]) ++ ',' :: ')' :: r) := by
        simp [litText, litTexts, reprTuple, joinWith]
      have el : (litText (.tuple [l])).length = 3 + (joinWith c!", " (litTexts [l])).length := by
        simp only [litText, litTexts, reprTuple, joinWith, List.length_append, List.length_cons, List.length_nil]; omega
      rw [e]
      unfold readPyLit
      simp only
      rw [readPyItems_lits ')' (.inr rfl) (',' :: ')' :: r) (by simp; decide) (by simp) [] l (f + 1) ih (by omega)]
      rfl
    | f + 2, l :: l' :: ls, ih, hf =>
      have e : litText (.tuple (l :: l' :: ls)) ++ r = '(' :: (joinWith c!", " (litTexts (l :: l' :: ls)) ++ ')' :: r) := by
        simp [litText, litTexts, reprTuple]
      have el : (litText (.tuple (l :: l' :: ls))).length = 2 + (joinWith c!", " (litTexts (l :: l' :: ls))).length := by
        simp only [litText, litTexts, reprTuple, List.length_append, List.length_cons, List.length_nil]; omega
      rw [e]
      unfold readPyLit
      simp only
      rw [readPyItems_lits ')' (.inr rfl) (')' :: r) (by simp; decide) (by simp) (l' :: ls) l (f + 1) ih (by omega)]
      rfl
  | dict ls ih =>
    intro f r hr hf
    match f, ls, ih, hf with
    | 0, _, _, hf => omega
    | 1, _, _, hf => simp [litText] at hf
    | f + 2, [], _, _ => simp [litText, entryTexts, joinWith, readPyLit, readPyEntries]
    | f + 2, (k, l) :: ls, ih, hf =>
      have e : litText (.dict ((k, l) :: ls)) ++ r = '{' :: (joinWith c!", " (entryTexts ((k, l) :: ls)) ++ '}' :: r) := by
        simp [litText]
      have el : (litText (.dict ((k, l) :: ls))).length = 2 + (joinWith c!", " (entryTexts ((k, l) :: ls))).length := by
        simp only [litText, List.length_append, List.length_cons, List.length_nil]; omega
      rw [e]
      unfold readPyLit
      simp only
      rw [readPyEntries_lits r ls k l (f + 1) ih (by omega)]
      rfl

/-- Whatever follows the text, if it does not continue a word. -/
theorem readPy_lit (l : PyLit) (r : Str) (hr : ∀ c ∈ r.head?, pyWordChar c = false) : readPy (litText l ++ r) = some (l, r) :=
  litReads l _ r hr (by simp only [List.length_append]; omega)

end

end Verif
