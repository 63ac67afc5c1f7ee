import Verif.Lemmas.JsonStr
import Verif.Lemmas.JsonNumber

/-!
# Lemmas on JSON texts
-/

namespace Verif
open Spec

mutual
/-- Induction on JSON values. -/
theorem Json.ind {P : Json → Prop} (null : P .null) (bool : ∀ b, P (.bool b)) (int : ∀ i, P (.int i)) (float : ∀ f, P (.float f))
    (str : ∀ s, P (.str s)) (arr : ∀ xs, (∀ x ∈ xs, P x) → P (.arr xs)) (obj : ∀ kvs, (∀ p ∈ kvs, P p.2) → P (.obj kvs)) :
    ∀ j, P j
  | .null => null
  | .bool b => bool b
  | .int i => int i
  | .float f => float f
  | .str s => str s
  | .arr xs => arr xs (Json.indList null bool int float str arr obj xs)
  | .obj kvs => obj kvs (Json.indEntries null bool int float str arr obj kvs)

theorem Json.indList {P : Json → Prop} (null : P .null) (bool : ∀ b, P (.bool b)) (int : ∀ i, P (.int i)) (float : ∀ f, P (.float f))
    (str : ∀ s, P (.str s)) (arr : ∀ xs, (∀ x ∈ xs, P x) → P (.arr xs)) (obj : ∀ kvs, (∀ p ∈ kvs, P p.2) → P (.obj kvs)) :
    ∀ xs : List Json, ∀ x ∈ xs, P x
  | [], _, h => by cases h
  | y :: ys, x, h => by
    rcases List.mem_cons.mp h with h | h
    · rw [h]; exact Json.ind null bool int float str arr obj y
    · exact Json.indList null bool int float str arr obj ys x h

theorem Json.indEntries {P : Json → Prop} (null : P .null) (bool : ∀ b, P (.bool b)) (int : ∀ i, P (.int i)) (float : ∀ f, P (.float f))
    (str : ∀ s, P (.str s)) (arr : ∀ xs, (∀ x ∈ xs, P x) → P (.arr xs)) (obj : ∀ kvs, (∀ p ∈ kvs, P p.2) → P (.obj kvs)) :
    ∀ kvs : List (Str × Json), ∀ p ∈ kvs, P p.2
  | [], _, h => by cases h
  | (k, y) :: ys, p, h => by
    rcases List.mem_cons.mp h with h | h
    · rw [h]; exact Json.ind null bool int float str arr obj y
    · exact Json.indEntries null bool int float str arr obj ys p h
end

/-! ### White space -/

theorem jsonSkip_append {w : Str} (hw : ∀ c ∈ w, jsonSpace c = true) (s : Str) : skip (w ++ s) = skip s := by
  unfold skip
  exact List.dropWhile_append_of_pos hw

theorem jsonSkip_cons {c : Char} (hc : jsonSpace c = false) (s : Str) : skip (c :: s) = c :: s := by
  simp [skip, hc]

theorem newlineIndent_space (n : Nat) : ∀ c ∈ newlineIndent n, jsonSpace c = true := by
  intro c hc
  rcases List.mem_cons.mp hc with h | h
  · rw [h]; decide
  · rw [List.eq_of_mem_replicate h]; decide

theorem jsonEdge_space (p : Bool) (n : Nat) : ∀ c ∈ jsonEdge p n, jsonSpace c = true := by
  intro c hc
  unfold jsonEdge at hc
  split at hc
  · exact newlineIndent_space n c hc
  · cases hc

theorem jsonSep_eq (p : Bool) (n : Nat) : ∃ w, jsonSep p n = ',' :: w ∧ (∀ c ∈ w, jsonSpace c = true) := by
  refine ⟨_, rfl, ?_⟩
  split
  · exact newlineIndent_space n
  · decide

theorem readJson_skip (l : Bool) (f : Nat) {w : Str} (hw : ∀ c ∈ w, jsonSpace c = true) (s : Str) :
    readJson l f (w ++ s) = readJson l f s := by
  cases f with
  | zero => rfl
  | succ f => unfold readJson; rw [jsonSkip_append hw]

theorem readElements_skip (l : Bool) (f : Nat) {w : Str} (hw : ∀ c ∈ w, jsonSpace c = true) (s : Str) :
    readElements l f (w ++ s) = readElements l f s := by
  cases f with
  | zero => rfl
  | succ f => unfold readElements; rw [readJson_skip l f hw]

theorem readMembers_skip (l : Bool) (f : Nat) {w : Str} (hw : ∀ c ∈ w, jsonSpace c = true) (s : Str) :
    readMembers l f (w ++ s) = readMembers l f s := by
  cases f with
  | zero => rfl
  | succ f => unfold readMembers; rw [jsonSkip_append hw]

/-! ### Words and numbers -/

theorem tokenChar_false {c : Char} (h : tokenChar c = false) :
    c = ' ' ∨ c = '\t' ∨ c = '\n' ∨ c = '\r' ∨ c = ',' ∨ c = ':' ∨ c = '[' ∨ c = ']' ∨ c = '{' ∨ c = '}' ∨ c = '"' := by
  simp only [tokenChar, jsonSpace, Bool.not_eq_false', Bool.or_eq_true, decide_eq_true_eq, beq_iff_eq] at h
  rcases h with ((((((((h | h | h | h) | h) | h) | h) | h) | h) | h) | h) <;> simp [h]

theorem tokenChar_of_float {c : Char} (h : floatChar c = true) : tokenChar c = true := by
  cases hc : tokenChar c with
  | true => rfl
  | false =>
    have := tokenChar_false hc
    rcases this with h' | h' | h' | h' | h' | h' | h' | h' | h' | h' | h' <;> (subst h'; revert h; decide)

theorem tokenChar_space {c : Char} (h : tokenChar c = true) : jsonSpace c = false := by
  cases hc : jsonSpace c with
  | false => rfl
  | true => simp [tokenChar, hc] at h

theorem readJson_token (l : Bool) (f : Nat) {t r : Str} {j : Json} (h0 : t ≠ []) (ht : ∀ c ∈ t, tokenChar c = true)
    (hr : ∀ c ∈ r.head?, tokenChar c = false) (hj : jsonToken l t = some j) : readJson l (f + 1) (t ++ r) = some (j, r) := by
  cases t with
  | nil => exact absurd rfl h0
  | cons c t =>
    have hc := ht c (List.mem_cons_self ..)
    have e1 : (c :: t ++ r).takeWhile tokenChar = c :: t := by
      rw [List.takeWhile_append_of_pos ht]
      cases r with
      | nil => simp
      | cons a r => simp [hr a (by simp)]
    have e2 : (c :: t ++ r).dropWhile tokenChar = r := by
      rw [List.dropWhile_append_of_pos ht]
      cases r with
      | nil => simp
      | cons a r => simp [hr a (by simp)]
    rw [List.cons_append] at *
    unfold readJson
    rw [jsonSkip_cons (tokenChar_space hc)]
    have n1 : c ≠ '"' := by rintro rfl; revert hc; decide
    have n2 : c ≠ '[' := by rintro rfl; revert hc; decide
    have n3 : c ≠ '{' := by rintro rfl; revert hc; decide
    split
    · simp_all
    · simp_all
    · simp_all
    · rw [e1, e2, hj]
      rfl

theorem jsonFloat_chars (f : PyFloat) : ∀ c ∈ jsonFloat f, tokenChar c = true := by
  intro c hc
  cases f with
  | fin d => exact tokenChar_of_float (repr_chars (.fin d) c hc)
  | inf neg =>
    have : ∀ c ∈ jsonFloat (.inf neg), tokenChar c = true := by cases neg <;> decide
    exact this c hc
  | nan =>
    have : ∀ c ∈ jsonFloat .nan, tokenChar c = true := by decide
    exact this c hc

theorem jsonFloat_ne_nil (f : PyFloat) : jsonFloat f ≠ [] := by
  cases f with
  | fin d =>
    obtain ⟨c, r, hr, _⟩ := reprAbs_head d
    simp [jsonFloat, PyFloat.repr, hr]
  | inf neg => cases neg <;> simp [jsonFloat]
  | nan => simp [jsonFloat]

theorem intStr_token (i : Int) : ∀ c ∈ intStr i, tokenChar c = true := by
  intro c hc
  apply tokenChar_of_float
  rcases intStr_chars hc with h | h <;> simp [floatChar, h]

theorem intStr_ne_nil (i : Int) : intStr i ≠ [] := by
  cases i with
  | ofNat n => exact natStr_ne_nil n
  | negSucc n => simp [intStr]

/-! ### Values -/

theorem readString (r s : Str) (f : Nat) (hf : s.length < f) : readJsonStr f (s.flatMap jsonChar ++ ['"'] ++ r) = some (s, r) := by
  have := readJsonStr_flatMap s r f hf
  simpa using this

/-- The first character of a value. -/
theorem encodeJson_head (p : Bool) (n : Nat) (j : Json) :
    ∃ c t, encodeJson p n j = c :: t ∧ jsonSpace c = false ∧ c ≠ ']' ∧ c ≠ '}' := by
  have tok : ∀ t : Str, t ≠ [] → (∀ c ∈ t, tokenChar c = true) → ∃ c t', t = c :: t' ∧ jsonSpace c = false ∧ c ≠ ']' ∧ c ≠ '}' := by
    intro t h0 ht
    cases t with
    | nil => exact absurd rfl h0
    | cons c t =>
      have hc := ht c (List.mem_cons_self ..)
      exact ⟨c, t, rfl, tokenChar_space hc, by rintro rfl; revert hc; decide, by rintro rfl; revert hc; decide⟩
  cases j with
  | null => exact ⟨'n', _, rfl, by decide, by decide, by decide⟩
  | bool b => cases b <;> exact ⟨_, _, rfl, by decide, by decide, by decide⟩
  | int i => unfold encodeJson; exact tok _ (intStr_ne_nil i) (intStr_token i)
  | float f => unfold encodeJson; exact tok _ (jsonFloat_ne_nil f) (jsonFloat_chars f)
  | str s => exact ⟨'"', _, rfl, by decide, by decide, by decide⟩
  | arr xs => cases xs with
    | nil => exact ⟨'[', _, rfl, by decide, by decide, by decide⟩
    | cons x xs => unfold encodeJson; exact ⟨'[', _, rfl, by decide, by decide, by decide⟩
  | obj kvs => cases kvs with
    | nil => exact ⟨'{', _, rfl, by decide, by decide, by decide⟩
    | cons x xs => obtain ⟨k, x⟩ := x; unfold encodeJson; exact ⟨'{', _, rfl, by decide, by decide, by decide⟩

theorem encodeJson_length (p : Bool) (n : Nat) (j : Json) : 1 ≤ (encodeJson p n j).length := by
  obtain ⟨c, t, h, _⟩ := encodeJson_head p n j
  simp [h]

/-- The encoded text of the value is read back, whatever follows. -/
def Reads1 (l p : Bool) (j : Json) : Prop :=
  ∀ (n f : Nat) (r : Str), (∀ c ∈ r.head?, tokenChar c = false) → 2 * (encodeJson p n j).length < f →
    readJson l f (encodeJson p n j ++ r) = some (j, r)

theorem edge_boundary (p : Bool) (n : Nat) {c : Char} (hc : tokenChar c = false) (r : Str) :
    ∀ x ∈ (jsonEdge p n ++ c :: r).head?, tokenChar x = false := by
  intro x hx
  unfold jsonEdge newlineIndent at hx
  split at hx
  · simp at hx; subst hx; decide
  · simp at hx; subst hx; exact hc

theorem readElements_encode (l p : Bool) (n m : Nat) (r : Str) : ∀ (xs : List Json) (x : Json) (f : Nat),
    (∀ y ∈ x :: xs, Reads1 l p y) → 2 * (encodeJson p n x ++ encodeMore p n xs).length + 1 < f →
    readElements l f (encodeJson p n x ++ encodeMore p n xs ++ jsonEdge p m ++ ']' :: r) = some (x :: xs, r) := by
  intro xs
  induction xs with
  | nil =>
    intro x f hx hf
    cases f with
    | zero => omega
    | succ f =>
      simp only [encodeMore, List.append_nil, List.append_assoc] at *
      unfold readElements
      rw [hx x (List.mem_cons_self ..) n f _ (edge_boundary p m (by decide) r) (by omega)]
      simp only [Option.bind_eq_bind, Option.bind_some]
      rw [jsonSkip_append (jsonEdge_space p m), jsonSkip_cons (by decide)]
      rfl
  | cons y ys ih =>
    intro x f hx hf
    cases f with
    | zero => omega
    | succ f =>
      obtain ⟨w, hw, hws⟩ := jsonSep_eq p n
      have e : encodeJson p n x ++ encodeMore p n (y :: ys) ++ jsonEdge p m ++ ']' :: r =
          encodeJson p n x ++ (',' :: (w ++ (encodeJson p n y ++ encodeMore p n ys ++ jsonEdge p m ++ ']' :: r))) := by
        simp [encodeMore, hw]
      have el : (encodeJson p n x ++ encodeMore p n (y :: ys)).length =
          (encodeJson p n x).length + 1 + w.length + (encodeJson p n y ++ encodeMore p n ys).length := by
        simp [encodeMore, hw]; omega
      have := encodeJson_length p n x
      rw [e]
      unfold readElements
      rw [hx x (List.mem_cons_self ..) n f _ (by simp; decide) (by omega)]
      simp only [Option.bind_eq_bind, Option.bind_some]
      rw [jsonSkip_cons (by decide)]
      simp only
      rw [readElements_skip l f hws, ih y f (fun z hz => hx z (List.mem_cons_of_mem _ hz)) (by omega)]
      rfl

theorem readMembers_encode (l p : Bool) (n m : Nat) (r : Str) : ∀ (xs : List (Str × Json)) (k : Str) (x : Json) (f : Nat),
    (∀ y ∈ (k, x) :: xs, Reads1 l p y.2) →
    2 * (jsonStr k ++ c!": " ++ encodeJson p n x ++ encodeEntries p n xs).length + 1 < f →
    readMembers l f (jsonStr k ++ c!": " ++ encodeJson p n x ++ encodeEntries p n xs ++ jsonEdge p m ++ '}' :: r) =
      some ((k, x) :: xs, r) := by
  intro xs
  induction xs with
  | nil =>
    intro k x f hx hf
    cases f with
    | zero => omega
    | succ f =>
      have e : jsonStr k ++ c!": " ++ encodeJson p n x ++ encodeEntries p n [] ++ jsonEdge p m ++ '}' :: r =
          '"' :: (k.flatMap jsonChar ++ ['"'] ++ (':' :: ([' '] ++ (encodeJson p n x ++ (jsonEdge p m ++ '}' :: r))))) := by
        simp [jsonStr, encodeEntries]
      have hl : k.length < (k.flatMap jsonChar ++ ['"'] ++ (':' :: ([' '] ++ (encodeJson p n x ++ (jsonEdge p m ++ '}' :: r))))).length + 1 := by
        have := flatMap_jsonChar_length k
        simp only [List.length_append, List.length_cons]; omega
      have hf' : 2 * (encodeJson p n x).length < f := by
        simp at hf; omega
      rw [e]
      unfold readMembers
      rw [jsonSkip_cons (by decide)]
      simp only
      rw [readString _ k _ hl]
      simp only [Option.bind_eq_bind, Option.bind_some]
      rw [jsonSkip_cons (by decide)]
      simp only
      rw [readJson_skip l f (w := [' ']) (by decide), hx (k, x) (List.mem_cons_self ..) n f _ (edge_boundary p m (by decide) r) hf']
      simp only [Option.bind_some]
      rw [jsonSkip_append (jsonEdge_space p m), jsonSkip_cons (by decide)]
      rfl
  | cons y ys ih =>
    intro k x f hx hf
    obtain ⟨k', y⟩ := y
    cases f with
    | zero => omega
    | succ f =>
      obtain ⟨w, hw, hws⟩ := jsonSep_eq p n
      have e : jsonStr k ++ c!": " ++ encodeJson p n x ++ encodeEntries p n ((k', y) :: ys) ++ jsonEdge p m ++ '}' :: r =
          '"' :: (k.flatMap jsonChar ++ ['"'] ++ (':' :: ([' '] ++ (encodeJson p n x ++ (',' :: (w ++
            (jsonStr k' ++ c!": " ++ encodeJson p n y ++ encodeEntries p n ys ++ jsonEdge p m ++ '}' :: r))))))) := by
        simp [jsonStr, encodeEntries, hw]
      have el : (jsonStr k ++ c!": " ++ encodeJson p n x ++ encodeEntries p n ((k', y) :: ys)).length =
          (jsonStr k).length + 2 + (encodeJson p n x).length + 1 + w.length +
            (jsonStr k' ++ c!": " ++ encodeJson p n y ++ encodeEntries p n ys).length := by
        simp [encodeEntries, hw]; omega
      rw [e]
      generalize ht : jsonStr k' ++ c!": " ++ encodeJson p n y ++ encodeEntries p n ys ++ jsonEdge p m ++ '}' :: r = t
      have hl : k.length < (k.flatMap jsonChar ++ ['"'] ++ (':' :: ([' '] ++ (encodeJson p n x ++ (',' :: (w ++ t)))))).length + 1 := by
        have := flatMap_jsonChar_length k
        simp only [List.length_append, List.length_cons]; omega
      unfold readMembers
      rw [jsonSkip_cons (by decide)]
      simp only
      rw [readString _ k _ hl]
      simp only [Option.bind_eq_bind, Option.bind_some]
      rw [jsonSkip_cons (by decide)]
      simp only
      rw [readJson_skip l f (w := [' ']) (by decide), hx (k, x) (List.mem_cons_self ..) n f _ (by simp; decide) (by simp only; omega)]
      simp only [Option.bind_some]
      rw [jsonSkip_cons (by decide)]
      simp only
      rw [readMembers_skip l f hws, ← ht, ih k' y f (fun z hz => hx z (List.mem_cons_of_mem _ hz)) (by omega)]
      rfl

theorem readArray_more (l : Bool) (f : Nat) {c : Char} {s : Str} (hc : c ≠ ']') :
    readArray l (f + 1) (c :: s) = (readElements l f (c :: s)).bind fun p => some (.arr p.1, p.2) := by
  rw [readArray]
  · rfl
  · simp_all

theorem readObject_more (l : Bool) (f : Nat) {c : Char} {s : Str} (hc : c ≠ '}') :
    readObject l (f + 1) (c :: s) = (readMembers l f (c :: s)).bind fun p => some (.obj p.1, p.2) := by
  rw [readObject]
  · rfl
  · simp_all

theorem reads1_arr (l p : Bool) (xs : List Json) (h : ∀ x ∈ xs, Reads1 l p x) : Reads1 l p (.arr xs) := by
  intro n f r hr hf
  cases xs with
  | nil =>
    match f, hf with
    | 0, hf => omega
    | 1, hf => simp [encodeJson] at hf
    | f + 2, hf =>
      have : encodeJson p n (.arr []) ++ r = '[' :: ']' :: r := rfl
      rw [this]
      unfold readJson
      rw [jsonSkip_cons (by decide)]
      simp only
      rw [jsonSkip_cons (by decide)]
      rfl
  | cons x xs =>
    match f, hf with
    | 0, hf => omega
    | 1, hf => simp [encodeJson] at hf
    | f + 2, hf =>
      obtain ⟨c, t, hc, hs, hn, _⟩ := encodeJson_head p (n + 1) x
      have e : encodeJson p n (.arr (x :: xs)) ++ r = '[' :: (jsonEdge p (n + 1) ++ (encodeJson p (n + 1) x ++
          encodeMore p (n + 1) xs ++ jsonEdge p n ++ ']' :: r)) := by
        simp [encodeJson]
      have el : (encodeJson p n (.arr (x :: xs))).length ≥ 2 + (encodeJson p (n + 1) x ++ encodeMore p (n + 1) xs).length := by
        simp [encodeJson]; omega
      have hm := readElements_encode l p (n + 1) n r xs x f h (by omega)
      rw [e]
      unfold readJson
      rw [jsonSkip_cons (by decide)]
      simp only
      rw [jsonSkip_append (jsonEdge_space p (n + 1))]
      rw [hc] at hm ⊢
      simp only [List.cons_append] at hm ⊢
      rw [jsonSkip_cons hs, readArray_more l f hn, hm]
      rfl

theorem reads1_obj (l p : Bool) (xs : List (Str × Json)) (h : ∀ x ∈ xs, Reads1 l p x.2) : Reads1 l p (.obj xs) := by
  intro n f r hr hf
  cases xs with
  | nil =>
    match f, hf with
    | 0, hf => omega
    | 1, hf => simp [encodeJson] at hf
    | f + 2, hf =>
      have : encodeJson p n (.obj []) ++ r = '{' :: '}' :: r := rfl
      rw [this]
      unfold readJson
      rw [jsonSkip_cons (by decide)]
      simp only
      rw [jsonSkip_cons (by decide)]
      rfl
  | cons x xs =>
    obtain ⟨k, x⟩ := x
    match f, hf with
    | 0, hf => omega
    | 1, hf => simp [encodeJson] at hf
    | f + 2, hf =>
      have e : encodeJson p n (.obj ((k, x) :: xs)) ++ r = '{' :: (jsonEdge p (n + 1) ++ (jsonStr k ++ c!": " ++ encodeJson p (n + 1) x ++
          encodeEntries p (n + 1) xs ++ jsonEdge p n ++ '}' :: r)) := by
        simp [encodeJson]
      have el : (encodeJson p n (.obj ((k, x) :: xs))).length ≥
          2 + (jsonStr k ++ c!": " ++ encodeJson p (n + 1) x ++ encodeEntries p (n + 1) xs).length := by
        simp [encodeJson]; omega
      have hm := readMembers_encode l p (n + 1) n r xs k x f h (by omega)
      have hk : jsonStr k = '"' :: (k.flatMap jsonChar ++ ['"']) := by simp [jsonStr]
      rw [e]
      unfold readJson
      rw [jsonSkip_cons (by decide)]
      simp only
      rw [jsonSkip_append (jsonEdge_space p (n + 1))]
      rw [hk] at hm ⊢
      simp only [List.cons_append] at hm ⊢
      rw [jsonSkip_cons (by decide), readObject_more l f (by decide), hm]
      rfl

theorem reads1 (l p : Bool) (j : Json) : (l = true ∨ Finite j) → Reads1 l p j := by
  induction j using Json.ind with
  | null => intro _ n f r hr hf; cases f with
    | zero => omega
    | succ f => exact readJson_token l f (t := c!"null") (by simp) (by decide) hr rfl
  | bool b => intro _ n f r hr hf; cases f with
    | zero => omega
    | succ f =>
      cases b
      · exact readJson_token l f (t := c!"false") (by simp) (by decide) hr rfl
      · exact readJson_token l f (t := c!"true") (by simp) (by decide) hr rfl
  | int i => intro _ n f r hr hf; cases f with
    | zero => omega
    | succ f =>
      unfold encodeJson
      exact readJson_token l f (intStr_ne_nil i) (intStr_token i) hr (jsonToken_int l i)
  | float x => intro h n f r hr hf; cases f with
    | zero => omega
    | succ f =>
      unfold encodeJson
      refine readJson_token l f (jsonFloat_ne_nil x) (jsonFloat_chars x) hr (jsonToken_float l x ?_)
      rcases h with h | h
      · exact .inl h
      · cases h; exact .inr ⟨_, rfl⟩
  | str s => intro _ n f r hr hf; cases f with
    | zero => omega
    | succ f =>
      have e : encodeJson p n (.str s) ++ r = '"' :: (s.flatMap jsonChar ++ ['"'] ++ r) := by simp [encodeJson, jsonStr]
      have hl : s.length < (s.flatMap jsonChar ++ ['"'] ++ r).length + 1 := by
        have := flatMap_jsonChar_length s
        simp only [List.length_append, List.length_cons]; omega
      rw [e]
      unfold readJson
      rw [jsonSkip_cons (by decide)]
      simp only
      rw [readString r s _ hl]
      rfl
  | arr xs ih =>
    intro h
    apply reads1_arr
    intro x hx
    apply ih x hx
    rcases h with h | h
    · exact .inl h
    · cases h with | arr _ h => exact .inr (h x hx)
  | obj kvs ih =>
    intro h
    apply reads1_obj
    intro x hx
    apply ih x hx
    rcases h with h | h
    · exact .inl h
    · cases h with | obj _ h => exact .inr (h x hx)

theorem readJsonText_encode (l p : Bool) (j : Json) (h : l = true ∨ Finite j) : readJsonText l (encodeJson p 0 j) = some j := by
  have := reads1 l p j h 0 (2 * (encodeJson p 0 j).length + 2) [] (by simp) (by omega)
  unfold readJsonText
  rw [List.append_nil] at this
  rw [this]
  rfl

end Verif
