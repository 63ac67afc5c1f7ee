import Verif.Spec.MqlFilterRead
import Verif.Props.Scalars
import Verif.Props.MqlFilter

/-!
# Reading the filters of metrics queries: lemmas
-/

namespace Verif
open Spec

/-- What may follow a value in a filter. -/
def StopText (rest : Str) : Prop := ∀ c, rest.head? = some c → stops c = true

/-- A text that is not a date, a string or a sequence. -/
structure MqlToken (t : Str) : Prop where
  inner : ∀ c ∈ t, stops c = false
  first : ∃ c r, t = c :: r ∧ c ≠ 't' ∧ c ≠ '[' ∧ c ≠ '"'

theorem takeWhile_stop {t rest : Str} (ht : ∀ c ∈ t, stops c = false) (hr : StopText rest) :
    (t ++ rest).takeWhile (fun c => !stops c) = t ∧ (t ++ rest).dropWhile (fun c => !stops c) = rest := by
  have hin : ∀ x ∈ t, (!stops x) = true := fun x hx => by simp [ht x hx]
  rw [List.takeWhile_append_of_pos hin, List.dropWhile_append_of_pos hin]
  cases rest with
  | nil => simp
  | cons c r => simp [hr c rfl]

theorem readMqlAtom_token {t rest : Str} (ht : MqlToken t) (hr : StopText rest) :
    readMqlAtom (t ++ rest) = (readToken t).map fun v => (v, rest) := by
  obtain ⟨e1, e2⟩ := takeWhile_stop ht.inner hr
  obtain ⟨c, r, rfl, h1, h2, h3⟩ := ht.first
  unfold readMqlAtom
  simp only [e1, e2]
  simp only [List.cons_append, readText_ne h1, readQuoted, h3, if_false]

/-- The text is read as the value, in every context. -/
def MqlValueText (t : Str) (v : Val) : Prop :=
  (∃ c r, t = c :: r ∧ stops c = false) ∧
  ∀ rest, StopText rest → ∀ f, 2 * t.length + 2 ≤ f → readMqlValue f (t ++ rest) = some (untuple v, rest)

theorem mqlAtom_text {t : Str} {v : Val} (hv : untuple v = v) (h0 : ∃ c r, t = c :: r ∧ stops c = false ∧ c ≠ '[')
    (h : ∀ rest, StopText rest → readMqlAtom (t ++ rest) = some (v, rest)) : MqlValueText t v := by
  obtain ⟨c, r, rfl, hc, hb⟩ := h0
  refine ⟨⟨c, r, rfl, hc⟩, fun rest hr f hf => ?_⟩
  obtain ⟨f, rfl⟩ : ∃ g, f = g + 1 := ⟨f - 1, by omega⟩
  have : readText c!"[" (c :: r ++ rest) = none := readText_ne hb
  rw [readMqlValue, this, hv]
  exact h rest hr

theorem mqlToken_text {t : Str} {v : Val} (hv : untuple v = v) (ht : MqlToken t) (h : readToken t = some v) : MqlValueText t v := by
  obtain ⟨c, r, e, h1, h2, _⟩ := ht.first
  refine mqlAtom_text hv ⟨c, r, e, ht.inner c (by simp [e]), h2⟩ ?_
  intro rest hr; rw [readMqlAtom_token ht hr, h]; rfl

theorem floatChar_stops {c : Char} (h : floatChar c = true) : stops c = false := by
  have : ∀ x, floatChar x = false → c ≠ x := by rintro x hx rfl; rw [h] at hx; cases hx
  simp [stops, this ',' (by decide), this ']' (by decide), this ' ' (by decide), this ')' (by decide), this '}' (by decide)]

theorem digit_floatChar {c : Char} (h : isDigit c = true) : floatChar c = true := by simp [floatChar, h]

theorem mql_float_token (f : PyFloat) : MqlToken f.repr := by
  refine ⟨fun c hc => floatChar_stops (repr_chars f c hc), ?_⟩
  cases f with
  | fin d =>
    obtain ⟨c, r, hr, hc⟩ := reprAbs_head d
    have hne : ∀ x, isDigit x = false → c ≠ x := by rintro x hx rfl; rw [hc] at hx; cases hx
    simp only [PyFloat.repr, hr]
    cases d.neg with
    | false => exact ⟨c, r, rfl, hne _ (by decide), hne _ (by decide), hne _ (by decide)⟩
    | true => exact ⟨'-', c :: r, rfl, by decide, by decide, by decide⟩
  | inf neg => cases neg <;> exact ⟨_, _, rfl, by decide, by decide, by decide⟩
  | nan => exact ⟨_, _, rfl, by decide, by decide, by decide⟩

theorem mql_int_token (i : Int) : MqlToken (intStr i) := by
  refine ⟨fun c hc => ?_, ?_⟩
  · rcases intStr_chars hc with h | rfl
    · exact floatChar_stops (digit_floatChar h)
    · decide
  · have key : ∀ n, ∃ c r, natStr n = c :: r ∧ isDigit c = true := fun n => by
      have hd : ∀ c ∈ natStr n, isDigit c = true := fun c hc => natStr_digits hc
      have h0 := natStr_ne_nil n
      cases hn : natStr n with
      | nil => exact absurd hn h0
      | cons c r => exact ⟨c, r, rfl, hd c (by rw [hn]; simp)⟩
    cases i with
    | ofNat n =>
      obtain ⟨c, r, hr, hc⟩ := key n
      have hne : ∀ x, isDigit x = false → c ≠ x := by rintro x hx rfl; rw [hc] at hx; cases hx
      exact ⟨c, r, hr, hne _ (by decide), hne _ (by decide), hne _ (by decide)⟩
    | negSucc n => exact ⟨'-', _, rfl, by decide, by decide, by decide⟩

theorem mql_moment_text {iso : Str} {v : Val} (hv : untuple v = v)
    (h : ∀ rest, readMoment (iso ++ (c!"')" ++ rest)) = some (v, rest)) : MqlValueText (toDateTimeLit iso) v := by
  unfold toDateTimeLit
  refine mqlAtom_text hv ⟨'t', _, rfl, by decide, by decide⟩ ?_
  intro rest _
  unfold readMqlAtom
  rw [List.append_assoc, List.append_assoc, readText_append]
  exact h rest

theorem mql_str_text (s : Str) : MqlValueText (strLit .mql s) (.str s) := by
  obtain ⟨r, hr⟩ : ∃ r, strLit .mql s = '"' :: r := ⟨_, rfl⟩
  refine mqlAtom_text rfl ⟨'"', r, hr, by decide, by decide⟩ ?_
  intro rest _
  have := read_strLit .mql s rest
  have hq : Cfg.mql.quote = '"' := rfl
  rw [hq] at this
  unfold readMqlAtom
  rw [this]
  rw [hr]
  simp [readText]

/-- Corresponding texts and values. -/
inductive MqlValueTexts : List Str → List Val → Prop
  | nil : MqlValueTexts [] []
  | cons (t v ts vs) : MqlValueText t v → MqlValueTexts ts vs → MqlValueTexts (t :: ts) (v :: vs)

theorem commaTail_stop (ts : List Str) (rest : Str) : StopText (commaTail ts ++ (']' :: rest)) := by
  cases ts with
  | nil => intro c hc; cases hc; rfl
  | cons t ts => intro c hc; cases hc; rfl

theorem moreMqlItems_spec {ts : List Str} {vs : List Val} (h : MqlValueTexts ts vs) (rest : Str) :
    ∀ f, 2 * (commaTail ts).length + 1 ≤ f → moreMqlItems f (commaTail ts ++ (']' :: rest)) = some (untuples vs, rest) := by
  induction h with
  | nil =>
    intro f hf
    obtain ⟨f, rfl⟩ : ∃ g, f = g + 1 := ⟨f - 1, by omega⟩
    simp [moreMqlItems, commaTail, readText, untuples]
  | cons t v ts vs hv _ ih =>
    intro f hf
    simp only [commaTail, List.length_append, List.length_cons, List.length_nil] at hf
    obtain ⟨f, rfl⟩ : ∃ g, f = g + 1 := ⟨f - 1, by omega⟩
    have e : commaTail (t :: ts) ++ (']' :: rest) = c!", " ++ (t ++ (commaTail ts ++ (']' :: rest))) := by simp [commaTail]
    have hp : readText c!"]" (c!", " ++ (t ++ (commaTail ts ++ (']' :: rest)))) = none := readText_ne (by decide)
    rw [e, moreMqlItems, hp]
    simp only [readText_append, Option.bind_eq_bind, Option.bind_some,
      hv.2 _ (commaTail_stop ts rest) f (by omega), ih f (by omega), untuples]

theorem readMqlItems_spec {ts : List Str} {vs : List Val} (h : MqlValueTexts ts vs) (rest : Str) (f : Nat)
    (hf : 2 * (joinWith c!", " ts).length + 3 ≤ f) :
    readMqlItems f (joinWith c!", " ts ++ (']' :: rest)) = some (untuples vs, rest) := by
  obtain ⟨f, rfl⟩ : ∃ g, f = g + 1 := ⟨f - 1, by omega⟩
  cases h with
  | nil => simp [readMqlItems, joinWith, readText, untuples]
  | cons t v ts vs hv hvs =>
    rw [joinWith_comma] at hf ⊢
    simp only [List.length_append] at hf
    obtain ⟨c, r, rfl, hc⟩ := hv.1
    have hc' : c ≠ ']' := by rintro rfl; revert hc; decide
    have hp : readText c!"]" (c :: r ++ (commaTail ts ++ (']' :: rest))) = none := readText_ne hc'
    rw [List.append_assoc, readMqlItems, hp]
    simp only [Option.bind_eq_bind, Option.bind_some,
      hv.2 _ (commaTail_stop ts rest) f (by omega), moreMqlItems_spec hvs rest f (by omega), untuples]

theorem mql_seq_text {ts : List Str} {vs : List Val} (h : MqlValueTexts ts vs) {v : Val} (hv : untuple v = .list (untuples vs)) :
    MqlValueText (c!"[" ++ joinWith c!", " ts ++ c!"]") v := by
  refine ⟨⟨'[', _, rfl, by decide⟩, fun rest hr f hf => ?_⟩
  simp only [List.length_append, List.length_cons, List.length_nil] at hf
  obtain ⟨f, rfl⟩ : ∃ g, f = g + 1 := ⟨f - 1, by omega⟩
  have e : c!"[" ++ joinWith c!", " ts ++ c!"]" ++ rest = c!"[" ++ (joinWith c!", " ts ++ (']' :: rest)) := by simp
  rw [e, readMqlValue, readText_append]
  simp only [readMqlItems_spec h rest f (by omega), Option.map_some, hv]

theorem translateAll_mqlTexts : ∀ {xs : List Val} {ps : List Str}, translateAll .mql xs = .ok ps →
    (∀ x ∈ xs, ∀ t, translate .mql x = .ok t → MqlValueText t x) → MqlValueTexts ps xs
  | [], ps, h, _ => by cases h; exact .nil
  | x :: xs, ps, h, hx => by
    simp only [translateAll, bind_eq_ok, Except.ok.injEq] at h
    obtain ⟨t, ht, ts, hts, rfl⟩ := h
    exact .cons _ _ _ _ (hx x (by simp) t ht) (translateAll_mqlTexts hts fun y hy => hx y (by simp [hy]))

theorem pure_mqlText {v : Val} (hv : Spec.Pure v) : ∀ t, translate .mql v = .ok t → MqlValueText t v := by
  induction hv with
  | none =>
    intro t h; simp only [translate, Except.ok.injEq] at h; subst h
    exact mqlToken_text rfl ⟨by decide, _, _, rfl, by decide, by decide, by decide⟩ rfl
  | bool b =>
    intro t h; simp only [translate, Except.ok.injEq] at h; subst h
    cases b <;> exact mqlToken_text rfl ⟨by decide, _, _, rfl, by decide, by decide, by decide⟩ rfl
  | int i =>
    intro t h; simp only [translate, Except.ok.injEq] at h; subst h
    exact mqlToken_text rfl (mql_int_token i) (readToken_int i)
  | float f =>
    intro t h; simp only [translate, Except.ok.injEq] at h; subst h
    exact mqlToken_text rfl (mql_float_token f) (readToken_repr f)
  | str s =>
    intro t h; simp only [translate, Except.ok.injEq] at h; subst h
    exact mql_str_text s
  | date d =>
    intro t h; simp only [translate, Except.ok.injEq] at h; subst h
    exact mql_moment_text rfl (readMoment_date d)
  | datetime d hd =>
    intro t h
    simp only [translate, Datetime.toNaiveUtc, hd, ok_bind, Except.ok.injEq] at h; subst h
    exact mql_moment_text rfl (readMoment_datetime d hd)
  | list xs _ ih =>
    intro t h
    simp only [translate, bind_eq_ok, Except.ok.injEq] at h
    obtain ⟨_, _, ps, hps, rfl⟩ := h
    exact mql_seq_text (translateAll_mqlTexts hps ih) rfl
  | tuple xs _ ih =>
    intro t h
    simp only [translate, bind_eq_ok, Except.ok.injEq] at h
    obtain ⟨_, _, ps, hps, rfl⟩ := h
    exact mql_seq_text (translateAll_mqlTexts hps ih) rfl

/-! ### Names -/

theorem upTo_append {c : Char} {a b : Str} (h : c ∉ a) : upTo c (a ++ c :: b) = some (a, b) := by
  have hin : ∀ x ∈ a, (x != c) = true := fun x hx => by
    have : x ≠ c := by rintro rfl; exact h hx
    simpa using this
  simp [upTo, List.takeWhile_append_of_pos hin, List.dropWhile_append_of_pos hin]

theorem dropWhile_found {c : Char} : ∀ {z : Str}, c ∈ z → z.dropWhile (· != c) ≠ []
  | x :: z, h => by
    by_cases hx : x = c
    · simp [List.dropWhile, hx]
    · have hm : c ∈ z := by
        rcases List.mem_cons.1 h with h | h
        · exact absurd h.symm hx
        · exact h
      have : (x != c) = true := by simpa using hx
      rw [List.dropWhile_cons, if_pos this]
      exact dropWhile_found hm

theorem readFilterName_plain {n rest : Str} (h1 : ':' ∉ n) (h2 : '[' ∉ n) : readFilterName (n ++ ':' :: rest) = some (n, rest) := by
  simp [readFilterName, upTo_append h1, h2]

theorem readFilterName_subscript {i k n rest : Str} (h1 : ':' ∉ i) (h2 : '[' ∉ i) (h3 : ']' ∉ k) (h4 : ':' ∉ n) :
    readFilterName ((i ++ '[' :: k ++ ']' :: n) ++ ':' :: rest) = some (i ++ '[' :: k ++ ']' :: n, rest) := by
  have e : (i ++ '[' :: k ++ ']' :: n) ++ ':' :: rest = i ++ '[' :: (k ++ ']' :: (n ++ ':' :: rest)) := by simp
  have hu : ∃ n' r', upTo ':' (i ++ '[' :: (k ++ ']' :: (n ++ ':' :: rest))) = some (n', r') ∧ '[' ∈ n' := by
    have hin : ∀ x ∈ i ++ ['['], (x != ':') = true := fun x hx => by
      simp only [List.mem_append, List.mem_singleton] at hx
      have : x ≠ ':' := by
        rintro rfl
        rcases hx with hx | hx
        · exact h1 hx
        · cases hx
      simpa using this
    have e' : i ++ '[' :: (k ++ ']' :: (n ++ ':' :: rest)) = (i ++ ['[']) ++ ((k ++ ']' :: n) ++ ':' :: rest) := by simp
    have hmem : ':' ∈ (k ++ ']' :: n) ++ ':' :: rest := by simp
    rw [e']
    unfold upTo
    rw [List.takeWhile_append_of_pos hin, List.dropWhile_append_of_pos hin]
    generalize (k ++ ']' :: n) ++ ':' :: rest = z at hmem
    cases hz : z.dropWhile (· != ':') with
    | nil => exact absurd hz (dropWhile_found hmem)
    | cons y ys => exact ⟨_, _, rfl, by simp⟩
  obtain ⟨n', r', hu, hm⟩ := hu
  rw [e]
  simp only [readFilterName, hu, hm, if_true, upTo_append h2, upTo_append h3, upTo_append h4, Option.bind_eq_bind, Option.bind_some]

end Verif
