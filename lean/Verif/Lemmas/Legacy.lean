import Verif.Lemmas.LegacyMoment
import Verif.Spec.Legacy
import Verif.Props.Names
import Verif.Props.Construct

/-!
# Lemmas: conversion of legacy expressions and conditions
-/

namespace Verif

open Spec

variable [U : PyUnicode] [D : PyDecimal]

omit U D in
theorem truthy_false_iff {v : Val} : v.truthy = false ↔ Falsy v := by
  constructor
  · intro h
    cases v <;> simp only [Val.truthy, reduceCtorEq, Bool.not_eq_false', List.isEmpty_iff, bne_eq_false_iff_eq] at h
    case none => exact .none
    case bool => subst h; exact .no
    case int => subst h; exact .zero
    case float f =>
      cases f <;> simp only [PyFloat.truthy, reduceCtorEq, bne_eq_false_iff_eq] at h
      exact .zeroFloat h
    case str => subst h; exact .str
    case bytes => subst h; exact .bytes
    case list => subst h; exact .list
    case tuple => subst h; exact .tuple
  · intro h
    cases h <;> try rfl
    rename_i h
    simp [Val.truthy, PyFloat.truthy, h]

omit U D in
theorem truthy_true_iff {v : Val} : v.truthy = true ↔ ¬ Falsy v := by
  rw [← truthy_false_iff]; simp

omit D in
theorem functionNameRe_iff {n : Str} : functionNameRe.matches n = true ↔ OptNewline FunctionName n := by
  have hfn : OneChar (.alt (.cls U.isWord)
    (.alt (.cls fun c => c == '(' || c == ')' || c == '.' || c == ',' || c == '+' || c == '\'' ||
        c == '"' || c == ':')
      (.alt (.chr ' ') (.alt (.chr '[') (.alt (.chr ']') (.chr '-')))))) _ :=
    .alt (.cls _) (.alt (.cls _) (.alt (.chr _) (.alt (.chr _) (.alt (.chr _) (.chr _)))))
  rw [matches_iff, optNewline_iff]
  simp only [functionNameRe, mem_run_seq, mem_run_cls, mem_run_plus hfn, mem_run_eol]
  constructor
  · rintro ⟨t, _, ⟨h, rfl, hh⟩, _, ⟨u, rfl, hne, hu⟩, rfl, he⟩
    refine ⟨h :: u, _, ⟨h, u, rfl, hh, hne, ?_⟩, rfl, he⟩
    intro c hc
    have := hu c hc
    simp at this ⊢
    rcases this with h | h | h | h | h | h
    · exact .inl h
    · rcases h with ((((((h | h) | h) | h) | h) | h) | h) | h <;> simp [h]
    all_goals simp [h]
  · rintro ⟨_, r, ⟨h, u, rfl, hh, hne, hu⟩, rfl, he⟩
    refine ⟨r, u ++ r, ⟨h, rfl, hh⟩, r, ⟨u, rfl, hne, ?_⟩, rfl, he⟩
    intro c hc
    have := hu c hc
    simp at this ⊢
    rcases this with h | h
    · exact .inl h
    · rcases h with h | h | h | h | h | h | h | h | h | h | h | h <;> simp [h]

omit U D in
theorem aliasFor_iff {v : Val} {a : Option Str} {e : Err} : checkAlias v e = .ok a ↔ AliasFor v a := by
  rw [checkAlias_iff]
  constructor
  · rintro (⟨rfl, rfl⟩ | ⟨s, rfl, h1, h2, rfl⟩)
    · exact .none
    · exact .text h1 h2
  · rintro (_ | ⟨h1, h2⟩)
    · exact .inl ⟨rfl, rfl⟩
    · exact .inr ⟨_, rfl, h1, h2, rfl⟩

omit D in
theorem functionName_ne {f : Str} (h : OptNewline FunctionName f) : f ≠ [] := by
  rcases h with ⟨_, _, rfl, _⟩ | ⟨_, ⟨_, _, rfl, _⟩, rfl⟩ <;> simp

omit D in
theorem mkFunction_seq {f : Str} {v alias x : Val} {k : SeqKind} {ps : List Val} (hv : v.seq? = some (k, ps)) :
    mkFunction (.str f) v alias = .ok x ↔ FunctionFor f k ps alias x := by
  have h1 : checkOptSeq checkParams v = (checkParams ps >>= fun _ => .ok (k, ps)) := by
    cases v <;> simp only [Val.seq?, reduceCtorEq, Option.some.injEq, Prod.mk.injEq] at hv <;>
      obtain ⟨rfl, rfl⟩ := hv <;> rfl
  simp only [mkFunction, checkCurried, h1, asStr, checkFunctionName, bind_eq_ok, ensure_eq_ok, aliasFor_iff, functionNameRe_iff]
  constructor
  · rintro ⟨_, ⟨_, hn, _, ⟨_, _, hf⟩, _, hi, a, ha, p, ⟨_, hp, hp'⟩, hr⟩, hx⟩
    cases hn; cases hi; cases hp'; cases hr; cases hx
    exact .mk hf ha (checkParams_iff.1 hp)
  · rintro ⟨hf, ha, hp⟩
    refine ⟨_, ⟨f, rfl, (), ⟨(), ?_, hf⟩, (.absent, []), rfl, _, ha, (k, ps), ⟨(), checkParams_iff.2 hp, rfl⟩, rfl⟩, rfl⟩
    have := functionName_ne hf
    cases f <;> simp_all

omit D in
theorem mkFunction_none {f : Str} {alias x : Val} : mkFunction (.str f) .none alias = .ok x ↔ FunctionFor f .absent [] alias x := by
  simp only [mkFunction, checkCurried, checkOptSeq, asStr, checkFunctionName, bind_eq_ok, ensure_eq_ok, aliasFor_iff, functionNameRe_iff]
  constructor
  · rintro ⟨_, ⟨_, hn, _, ⟨_, _, hf⟩, _, hi, a, ha, p, hp, hr⟩, hx⟩
    cases hn; cases hi; cases hp; cases hr; cases hx
    exact .mk hf ha (by simp)
  · rintro ⟨hf, ha, hp⟩
    refine ⟨_, ⟨f, rfl, (), ⟨(), ?_, hf⟩, (.absent, []), rfl, _, ha, (.absent, []), rfl, rfl⟩, rfl⟩
    have := functionName_ne hf
    cases f <;> simp_all

omit D in
theorem mkColumn_plain {s : Str} {x : Val} (hm : OptNewline ColName s) :
    mkColumn (.str s) .none = .ok x ↔ x = .column (ColumnObj.setSubscript ⟨s, none, none, none⟩) := by
  have := columnNameRe_iff.2 hm
  simp only [mkColumn, asStr, ok_bind, this, ensure, if_true, asEntity, ColumnObj.validate]
  exact ⟨fun h => by cases h; rfl, fun h => by subst h; rfl⟩

omit D in
theorem columnFor_iff {s : Str} {x : Val} : mkColumn (.str s) .none = .ok x ↔ ∃ c, ColumnFor s c ∧ x = .column c := by
  constructor
  · intro h
    have hm : OptNewline ColName s := by
      simp only [mkColumn, asStr, bind_eq_ok, ensure_eq_ok] at h
      obtain ⟨_, hs, _, hm, _⟩ := h
      cases hs; exact columnNameRe_iff.1 hm
    rw [mkColumn_plain hm] at h
    refine ⟨_, ?_, h⟩
    clear h
    rcases hm with (hi | ⟨i, k, hi, hk, rfl⟩) | ⟨b, (hi | ⟨i, k, hi, hk, rfl⟩), rfl⟩
    · have : ColumnObj.setSubscript ⟨s, none, none, none⟩ = ⟨s, none, none, none⟩ := by
        simp [ColumnObj.setSubscript, splitSubscript, splitOnce_none (colIdent_no_bracket hi).1]
      rw [this]; exact .plain (.inl hi)
    · have : splitOnce '[' (i ++ '[' :: k ++ [']']) = some (i, k ++ [']']) := by
        rw [List.append_assoc]; exact splitOnce_append (colIdent_no_bracket hi).1
      simp only [ColumnObj.setSubscript, splitSubscript, this, Option.map_some, strip_bracket hk.2]
      exact .subscript hi hk
    · have hb := (colIdent_no_bracket hi).1
      have : ColumnObj.setSubscript ⟨b ++ ['\n'], none, none, none⟩ = ⟨b ++ ['\n'], none, none, none⟩ := by
        have : '[' ∉ b ++ ['\n'] := by simp [hb]
        simp [ColumnObj.setSubscript, splitSubscript, splitOnce_none this]
      rw [this]; exact .plain (.inr ⟨b, hi, rfl⟩)
    · have e : i ++ '[' :: k ++ [']'] ++ ['\n'] = i ++ '[' :: (k ++ [']', '\n']) := by simp
      have : splitOnce '[' (i ++ '[' :: k ++ [']'] ++ ['\n']) = some (i, k ++ [']', '\n']) := by
        rw [e]; exact splitOnce_append (colIdent_no_bracket hi).1
      simp only [ColumnObj.setSubscript, splitSubscript, this, Option.map_some, strip_bracket_newline hk.2]
      have e' : i ++ '[' :: k ++ [']'] ++ ['\n'] = i ++ '[' :: k ++ [']', '\n'] := by simp
      rw [e']
      split
      · rename_i hk0
        subst hk0
        rw [show i ++ ['['] ++ [']', '\n'] = i ++ ['[', ']', '\n'] by simp]
        exact .newlineOnly hi
      · rename_i hk0
        exact .newline hi hk hk0
  · rintro ⟨c, hc, rfl⟩
    rw [mkColumn_plain]
    · congr 1
      cases hc with
      | plain h =>
        have hb : '[' ∉ s := by
          rcases h with h | ⟨b, h, rfl⟩
          · exact (colIdent_no_bracket h).1
          · simp [(colIdent_no_bracket h).1]
        simp [ColumnObj.setSubscript, splitSubscript, splitOnce_none hb]
      | @subscript i k hi hk =>
        have : splitOnce '[' (i ++ '[' :: k ++ [']']) = some (i, k ++ [']']) := by
          rw [List.append_assoc]; exact splitOnce_append (colIdent_no_bracket hi).1
        simp only [ColumnObj.setSubscript, splitSubscript, this, Option.map_some, strip_bracket hk.2]
      | @newline i k hi hk hk0 =>
        have : splitOnce '[' (i ++ '[' :: k ++ [']', '\n']) = some (i, k ++ [']', '\n']) := by
          rw [List.append_assoc]; exact splitOnce_append (colIdent_no_bracket hi).1
        simp only [ColumnObj.setSubscript, splitSubscript, this, Option.map_some, strip_bracket_newline hk.2, if_neg hk0]
      | @newlineOnly i hi =>
        have : splitOnce '[' (i ++ ['[', ']', '\n']) = some (i, [']', '\n']) := splitOnce_append (colIdent_no_bracket hi).1
        simp only [ColumnObj.setSubscript, splitSubscript, this, Option.map_some]
        rfl
    · cases hc with
      | plain h =>
        rcases h with h | ⟨b, h, rfl⟩
        · exact .inl (.inl h)
        · exact .inr ⟨b, .inl h, rfl⟩
      | subscript hi hk => exact .inl (.inr ⟨_, _, hi, hk, rfl⟩)
      | newline hi hk hk0 => exact .inr ⟨_, .inr ⟨_, _, hi, hk, rfl⟩, by simp⟩
      | newlineOnly hi => exact .inr ⟨_, .inr ⟨_, [], hi, ⟨by simp, by simp⟩, rfl⟩, by simp⟩

omit U D in
theorem conditionFor_iff {l r x : Val} {o : Op} : mkCondition l (.op o) r = .ok x ↔ ConditionFor l o r x := by
  rw [C11_condition_accepts_iff]
  constructor
  · rintro ⟨o', ho, h1, h2, h3, rfl⟩; cases ho; exact .mk h1 h2 h3
  · rintro ⟨h1, h2, h3⟩; exact ⟨o, rfl, h1, h2, h3, rfl⟩

/-! ### Texts -/

omit U D in
theorem endsWith_iff {s t : Str} : endsWith s t = true ↔ EndsWith s t := by
  simp only [endsWith, List.isPrefixOf_iff_prefix, List.reverse_prefix]
  exact ⟨fun ⟨r, h⟩ => ⟨r, h.symm⟩, fun ⟨r, h⟩ => ⟨r, h.symm⟩⟩

omit U D in
theorem between_iff {q : Char} {s t : Str} : (startsWith s [q] && endsWith s [q]) = true ∧ slice1m1 s = t ↔ Between q s t := by
  rw [Bool.and_eq_true, endsWith_iff]
  unfold Between
  constructor
  · rintro ⟨⟨h1, r, rfl⟩, rfl⟩
    cases r with
    | nil => exact .inr ⟨rfl, rfl⟩
    | cons c r =>
      simp only [startsWith, List.cons_append, List.isPrefixOf_cons_cons, List.isPrefixOf_nil_left, Bool.and_true, beq_iff_eq] at h1
      subst h1
      left; simp [slice1m1]
  · rintro (rfl | ⟨rfl, rfl⟩)
    · refine ⟨⟨by simp [startsWith], q :: t, rfl⟩, by simp [slice1m1]⟩
    · exact ⟨⟨by simp [startsWith], [], rfl⟩, rfl⟩

omit U D in
theorem not_between_iff {q : Char} {s : Str} : (startsWith s [q] && endsWith s [q]) = false ↔ ∀ t, ¬ Between q s t := by
  constructor
  · intro h t hb; rw [(between_iff.2 hb).1] at h; cases h
  · intro h
    cases hb : (startsWith s [q] && endsWith s [q])
    · rfl
    · exact absurd (between_iff.1 ⟨hb, rfl⟩) (h _)

omit U D in
theorem dropWhile_split {α} (p : α → Bool) : ∀ s : List α, ∃ a, s = a ++ s.dropWhile p ∧ (∀ c ∈ a, p c = true) ∧
    ∀ c r, s.dropWhile p = c :: r → p c = false
  | [] => ⟨[], rfl, by simp, by simp⟩
  | c :: s => by
    obtain ⟨a, h1, h2, h3⟩ := dropWhile_split p s
    cases hc : p c
    · refine ⟨[], by simp [hc], by simp, ?_⟩
      intro d r h
      simp only [List.dropWhile_cons, hc] at h
      cases h; exact hc
    · refine ⟨c :: a, ?_, ?_, ?_⟩
      · simp only [List.dropWhile_cons, hc, if_true, List.cons_append, List.cons.injEq, true_and]; exact h1
      · intro d hd
        rcases List.mem_cons.1 hd with rfl | hd
        · exact hc
        · exact h2 d hd
      · simpa only [List.dropWhile_cons, hc, if_true] using h3

omit U D in
theorem dropWhile_all {α} {p : α → Bool} : ∀ {a s : List α}, (∀ c ∈ a, p c = true) → (∀ c r, s = c :: r → p c = false) →
    (a ++ s).dropWhile p = s
  | [], [], _, _ => rfl
  | [], c :: s, _, h => by simp [h c s rfl]
  | c :: a, s, h1, h2 => by
    simp only [List.cons_append, List.dropWhile_cons, h1 c (List.mem_cons_self ..), if_true]
    exact dropWhile_all (fun d hd => h1 d (List.mem_cons_of_mem _ hd)) h2

omit U D in
theorem stripP_iff {p : Char → Bool} {s t : Str} : stripP p s = t ↔
    ∃ a b, s = a ++ t ++ b ∧ (∀ c ∈ a ++ b, p c = true) ∧ (∀ c r, t = c :: r → p c = false) ∧ ∀ c r, t = r ++ [c] → p c = false := by
  constructor
  · intro h
    subst h
    obtain ⟨a, h1, h2, h3⟩ := dropWhile_split p s
    obtain ⟨b, h4, h5, h6⟩ := dropWhile_split p (s.dropWhile p).reverse
    have h7 : s.dropWhile p = stripP p s ++ b.reverse := by
      simp only [stripP, rstripP, lstripP]
      rw [← List.reverse_append, ← h4, List.reverse_reverse]
    refine ⟨a, b.reverse, ?_, ?_, ?_, ?_⟩
    · rw [List.append_assoc, ← h7]; exact h1
    · intro c hc
      rcases List.mem_append.1 hc with hc | hc
      · exact h2 c hc
      · exact h5 c (List.mem_reverse.1 hc)
    · intro c r hr
      rw [hr] at h7
      exact h3 c _ h7
    · intro c r hr
      refine h6 c r.reverse ?_
      have : (stripP p s).reverse = (r ++ [c]).reverse := by rw [hr]
      simpa [stripP, rstripP, lstripP] using this
  · rintro ⟨a, b, rfl, h1, h2, h3⟩
    have ha : ∀ c ∈ a, p c = true := fun c hc => h1 c (List.mem_append_left _ hc)
    have hb : ∀ c ∈ b, p c = true := fun c hc => h1 c (List.mem_append_right _ hc)
    simp only [stripP, lstripP, rstripP]
    cases t with
    | nil =>
      have : (a ++ [] ++ b).dropWhile p = [] := by
        have := dropWhile_all (p := p) (a := a ++ [] ++ b) (s := []) (by simpa using h1) (by simp)
        simpa using this
      rw [this]; rfl
    | cons c t =>
      have e1 : (a ++ (c :: t) ++ b).dropWhile p = (c :: t) ++ b := by
        rw [List.append_assoc]
        refine dropWhile_all ha ?_
        intro d r hd
        cases hd; exact h2 _ _ rfl
      rw [e1, List.reverse_append]
      have e2 : (b.reverse ++ (c :: t).reverse).dropWhile p = (c :: t).reverse := by
        refine dropWhile_all (fun d hd => hb d (List.mem_reverse.1 hd)) ?_
        intro d r hd
        refine h3 d r.reverse ?_
        have := congrArg List.reverse hd
        simpa using this
      rw [e2, List.reverse_reverse]

omit U D in
theorem bare_iff {f n : Str} : stripP (fun c => c == '(' || c == ')') f = n ↔ Bare f n := by
  rw [stripP_iff]
  simp only [Bare, Bool.or_eq_true, beq_iff_eq, Bool.or_eq_false_iff, beq_eq_false_iff_ne]

/-! ### Values -/

section
omit U
mutual
theorem scalarOf_sound (k : Bool) : ∀ v : Val, ScalarOf (k = true) v (parseScalar k v)
  | .list xs => by simp only [parseScalar]; exact .list (scalarsOf_sound k xs)
  | .tuple xs => by simp only [parseScalar]; exact .tuple (scalarsOf_sound k xs)
  | .str s => by
    simp only [parseScalar, parseScalarText]
    split
    · rename_i h; exact .text (.inl h)
    · rename_i h
      split
      · rename_i t ht; exact .date h (parseDatetime_iff.1 ht)
      · rename_i hn
        refine .text (.inr fun t ht => ?_)
        rw [parseDatetime_iff.2 ht] at hn; cases hn
  | .none | .bool _ | .int _ | .float _ | .bytes _ | .date _ | .datetime _ | .column _ | .curried .. | .ident _ | .lam .. |
    .aliased .. | .cond .. | .boolCond .. | .orderby .. | .limitby .. | .limit _ | .offset _ | .granularity _ | .totals _ |
    .extrapolate _ | .entity _ | .storage _ | .rel _ | .join .. | .op _ | .boolOp _ |
    .direction _ | .dataModel _ | .other _ => by
    simp only [parseScalar]
    exact .other (by simp) (by simp) (by simp)

theorem scalarsOf_sound (k : Bool) : ∀ vs : List Val, ScalarsOf (k = true) vs (parseScalars k vs)
  | [] => by simp only [parseScalars]; exact .nil
  | v :: vs => by simp only [parseScalars]; exact .cons (scalarOf_sound k v) (scalarsOf_sound k vs)
end

mutual
theorem scalarOf_unique {P : Prop} {k : Bool} (hk : P ↔ k = true) : ∀ (v : Val) {x : Val}, ScalarOf P v x → parseScalar k v = x
  | .list xs, x, h => by
    cases h with
    | list h => simp only [parseScalar, scalarsOf_unique hk xs h]
    | other h1 h2 h3 => exact absurd rfl (h2 xs)
  | .tuple xs, x, h => by
    cases h with
    | tuple h => simp only [parseScalar, scalarsOf_unique hk xs h]
    | other h1 h2 h3 => exact absurd rfl (h3 xs)
  | .str s, x, h => by
    simp only [parseScalar, parseScalarText]
    cases h with
    | date h1 h2 => rw [if_neg (fun h => h1 (hk.2 h)), parseDatetime_iff.2 h2]
    | text h =>
      split
      · rfl
      · rename_i hn
        rcases h with h | h
        · exact absurd (hk.1 h) hn
        · split
          · rename_i t ht; exact absurd (parseDatetime_iff.1 ht) (h t)
          · rfl
    | other h1 h2 h3 => exact absurd rfl (h1 s)
  | .none, _, h | .bool _, _, h | .int _, _, h | .float _, _, h | .bytes _, _, h | .date _, _, h | .datetime _, _, h | .column _, _, h
  | .curried .., _, h | .ident _, _, h | .lam .., _, h | .aliased .., _, h | .cond .., _, h | .boolCond .., _, h | .orderby .., _, h
  | .limitby .., _, h | .limit _, _, h | .offset _, _, h | .granularity _, _, h | .totals _, _, h | .extrapolate _, _, h
  | .entity _, _, h | .storage _, _, h | .rel _, _, h | .join .., _, h | .op _, _, h | .boolOp _, _, h | .direction _, _, h
  | .dataModel _, _, h | .other _, _, h => by cases h; rfl

theorem scalarsOf_unique {P : Prop} {k : Bool} (hk : P ↔ k = true) : ∀ (vs : List Val) {xs : List Val}, ScalarsOf P vs xs →
    parseScalars k vs = xs
  | [], _, h => by cases h; rfl
  | v :: vs, _, h => by
    cases h with
    | cons h1 h2 => simp only [parseScalars, scalarOf_unique hk v h1, scalarsOf_unique hk vs h2]
end

theorem scalarOf_iff {P : Prop} {k : Bool} (hk : P ↔ k = true) {v x : Val} : parseScalar k v = x ↔ ScalarOf P v x := by
  refine ⟨?_, scalarOf_unique hk v⟩
  rintro rfl
  have := scalarOf_sound k v
  rwa [show (k = true) = P from propext hk.symm] at this

theorem scalarsOf_iff {P : Prop} {k : Bool} (hk : P ↔ k = true) {vs xs : List Val} : parseScalars k vs = xs ↔ ScalarsOf P vs xs := by
  refine ⟨?_, scalarsOf_unique hk vs⟩
  rintro rfl
  have := scalarsOf_sound k vs
  rwa [show (k = true) = P from propext hk.symm] at this

theorem false_iff_ft : False ↔ false = true := by simp

omit D in
theorem keepsText_iff {c : ColumnObj} : c.keepsText = true ↔ TagOrRelease c := by
  simp only [ColumnObj.keepsText, TagOrRelease, Bool.or_eq_true, beq_iff_eq]

omit D in
theorem textSide_iff {l : Val} : TextSide l ↔ onlyStringsFor l = true := by
  constructor
  · rintro (⟨h⟩ | ⟨h⟩)
    · exact keepsText_iff.2 h
    · simp only [onlyStringsFor, keepsText_iff.2 h, Bool.and_true]; rfl
  · intro h
    unfold onlyStringsFor at h
    split at h
    · exact .column (keepsText_iff.1 h)
    · simp only [Bool.and_eq_true, beq_iff_eq] at h
      obtain ⟨rfl, h⟩ := h
      exact .ifNull (keepsText_iff.1 h)
    · cases h

/-! ### Operators -/

omit D in
theorem opOf_iff {v : Val} {o : Op} : opOf v = .ok o ↔ OpFor v o := by
  constructor
  · intro h
    unfold opOf at h
    split at h
    · cases h; exact .object
    · split at h
      · rename_i o' ho
        cases h
        have := List.find?_some ho
        simp only [beq_iff_eq] at this
        subst this; exact .text
      · cases h
    · cases h
  · rintro (_ | _)
    · revert o; intro o; cases o <;> rfl
    · rfl

omit D in
theorem compares_iff {o : Op} {f : Str} : opFunction o = .ok f ↔ Compares o f := by
  constructor
  · intro h; cases o <;> cases h <;> constructor
  · rintro (_ | _) <;> rfl

omit D in
theorem capital_iff {c d : Char} : upperChar c = d ↔ Capital c d := by
  unfold upperChar Capital
  split
  · rename_i h
    simp only [Bool.and_eq_true, decide_eq_true_eq] at h
    have h1 : 97 ≤ c.toNat := h.1
    have h2 : c.toNat ≤ 122 := h.2
    have hv : (c.toNat - 32).isValidChar := .inl (by omega)
    have hn : (Char.ofNat (c.toNat - 32)).toNat = c.toNat - 32 := by
      rw [Char.ofNat, dif_pos hv]; rfl
    constructor
    · rintro rfl
      refine .inr (.inl ⟨?_, ?_, ?_⟩)
      · show 65 ≤ (Char.ofNat (c.toNat - 32)).toNat; omega
      · show (Char.ofNat (c.toNat - 32)).toNat ≤ 90; omega
      · omega
    · rintro (⟨_, h', _⟩ | ⟨_, _, h'⟩ | ⟨rfl, _⟩ | ⟨rfl, _⟩)
      · exact absurd h h'
      · apply Char.toNat_inj.1; omega
      · exact absurd h2 (by decide)
      · exact absurd h2 (by decide)
  · rename_i h
    have h' : ¬ ('a' ≤ c ∧ c ≤ 'z') := by simpa using h
    have low : ∀ {d : Char}, 'A' ≤ d → d ≤ 'Z' → c.toNat = d.toNat + 32 → False := by
      intro d h1 h2 h3
      have h1 : 65 ≤ d.toNat := h1
      have h2 : d.toNat ≤ 90 := h2
      exact h' ⟨show 97 ≤ c.toNat by omega, show c.toNat ≤ 122 by omega⟩
    split
    · rename_i hc
      have := beq_iff_eq.1 hc; subst this
      constructor
      · rintro rfl; exact .inr (.inr (.inl ⟨rfl, rfl⟩))
      · rintro (⟨_, _, h1, _⟩ | ⟨h1, h2, h3⟩ | ⟨_, rfl⟩ | ⟨h1, _⟩)
        · exact absurd rfl h1
        · exact (low h1 h2 h3).elim
        · rfl
        · cases h1
    · rename_i hc
      have hc' : c ≠ 'ı' := by simpa using hc
      split
      · rename_i hd
        have := beq_iff_eq.1 hd; subst this
        constructor
        · rintro rfl; exact .inr (.inr (.inr ⟨rfl, rfl⟩))
        · rintro (⟨_, _, _, h1⟩ | ⟨h1, h2, h3⟩ | ⟨h1, _⟩ | ⟨_, rfl⟩)
          · exact absurd rfl h1
          · exact (low h1 h2 h3).elim
          · cases h1
          · rfl
      · rename_i hd
        have hd' : c ≠ 'ſ' := by simpa using hd
        constructor
        · rintro rfl; exact .inl ⟨rfl, h', hc', hd'⟩
        · rintro (⟨h1, _⟩ | ⟨h1, h2, h3⟩ | ⟨h1, _⟩ | ⟨h1, _⟩)
          · exact h1
          · exact (low h1 h2 h3).elim
          · exact absurd h1 hc'
          · exact absurd h1 hd'

omit D in
theorem capitals_iff : ∀ {s t : Str}, s.map upperChar = t ↔ Capitals s t
  | [], t => ⟨fun h => by subst h; exact .nil, fun h => by cases h; rfl⟩
  | c :: s, t => by
    constructor
    · rintro rfl; exact .cons (capital_iff.1 rfl) (capitals_iff.1 rfl)
    · intro h
      cases h with
      | cons h1 h2 => rw [List.map_cons, capital_iff.2 h1, capitals_iff.2 h2]

omit D in
theorem mem_operators {s : Str} : s ∈ CONDITION_OPERATORS ↔ ∃ o : Op, o.value = s := by
  simp only [CONDITION_OPERATORS, List.mem_map]
  refine ⟨fun ⟨o, _, h⟩ => ⟨o, h⟩, fun ⟨o, h⟩ => ⟨o, ?_, h⟩⟩
  cases o <;> decide

omit D in
theorem conditionShape_iff {xs : List Val} : isLegacyCondition xs = true ↔ ConditionShape xs := by
  constructor
  · intro h
    unfold isLegacyCondition at h
    split at h
    · rename_i a b c
      simp only [Bool.and_eq_true] at h
      obtain ⟨h1, h2⟩ := h
      unfold isOperatorText at h1
      split at h1
      · rename_i t
        simp only [List.contains_iff_mem, mem_operators] at h1
        obtain ⟨o, ho⟩ := h1
        refine .mk (capitals_iff.1 ho.symm) ?_
        cases a <;> simp only [isTextOrSequence, Bool.false_eq_true] at h2
        · exact .inl ⟨_, rfl⟩
        · exact .inr (.list _)
        · exact .inr (.tuple _)
      · cases h1
    · cases h
  · rintro ⟨h1, h2⟩
    simp only [isLegacyCondition, Bool.and_eq_true, isOperatorText, List.contains_iff_mem, mem_operators]
    refine ⟨⟨_, (capitals_iff.2 h1).symm⟩, ?_⟩
    rcases h2 with ⟨s, rfl⟩ | (_ | _) <;> rfl

omit D in
theorem isNullText_iff {v : Val} : isNullText v = true ↔ v = .str Op.isNull.value ∨ v = .str Op.isNotNull.value := by
  constructor
  · intro h
    unfold isNullText at h
    split at h
    · simp only [Bool.or_eq_true, beq_iff_eq] at h
      rcases h with rfl | rfl
      · exact .inl rfl
      · exact .inr rfl
    · cases h
  · rintro (rfl | rfl) <;> rfl

theorem rhsFor_iff {l op r : Val} {rest : List Val} : conditionRhs l op rest = .ok r ↔ RhsFor l op rest r := by
  unfold conditionRhs
  constructor
  · intro h
    split at h
    · rename_i hn
      cases h
      rcases isNullText_iff.1 hn with rfl | rfl
      · exact .null (.inl rfl)
      · exact .null (.inr rfl)
    · rename_i hn
      rw [isNullText_iff, not_or] at hn
      split at h
      · cases h
      · rename_i c cs
        cases h
        exact .value hn.1 hn.2 ((scalarOf_iff textSide_iff).1 rfl)
  · intro h
    cases h with
    | null ho =>
      rw [if_pos]
      rcases ho with rfl | rfl <;> rfl
    | value h1 h2 h3 =>
      rw [if_neg (fun h => (isNullText_iff.1 h).elim h1 h2)]
      simp only
      rw [(scalarOf_iff textSide_iff).2 h3]

theorem conditionParts_iff {lhs : Except Err Val} {op l r : Val} {o : Op} {rest : List Val} :
    conditionParts lhs op rest = .ok (l, o, r) ↔ lhs = .ok l ∧ OpFor op o ∧ RhsFor l op rest r := by
  simp only [conditionParts, bind_eq_ok, rhsFor_iff, opOf_iff]
  constructor
  · rintro ⟨_, h1, _, h2, _, h3, h⟩; cases h; exact ⟨h1, h3, h2⟩
  · rintro ⟨h1, h3, h2⟩; exact ⟨_, h1, _, h2, _, h3, rfl⟩

omit D in
theorem textMethod_iff {v : Val} {s : Str} : textMethod v = .ok s ↔ v = .str s := by
  constructor
  · intro h; cases v <;> simp only [textMethod, reduceCtorEq, Except.ok.injEq] at h; rw [h]
  · rintro rfl; rfl

omit D in
theorem aliasItem_iff {rest : List Val} {a : Val} : legacyAlias rest = .ok a ↔ AliasItem rest a := by
  cases rest with
  | nil => exact ⟨fun h => by cases h; exact .none, fun h => by cases h; rfl⟩
  | cons v rest =>
    simp only [legacyAlias, stripAlias]
    constructor
    · intro h
      split at h
      · rename_i hv
        simp only [bind_eq_ok, textMethod_iff] at h
        obtain ⟨s, rfl, h⟩ := h
        cases h
        split
        · rename_i hb; exact .quoted (between_iff.1 ⟨hb, rfl⟩)
        · rename_i hb
          refine .text ?_ (not_between_iff.1 (by simpa using hb))
          rintro rfl; cases hv
      · rename_i hv
        cases h
        exact .falsy (truthy_false_iff.1 (by simpa using hv))
    · intro h
      cases h with
      | falsy h => rw [if_neg (by rw [truthy_false_iff.2 h]; simp)]
      | @quoted s t _ h =>
        have hb := between_iff.2 h
        have ht : (Val.str s).truthy = true := by
          rcases h with rfl | ⟨rfl, rfl⟩ <;> rfl
        rw [if_pos ht]
        simp only [textMethod, ok_bind, hb.1, if_true, hb.2]
      | @text s _ h1 h2 =>
        have ht : (Val.str s).truthy = true := by cases s <;> simp_all [Val.truthy]
        rw [if_pos ht]
        simp only [textMethod, ok_bind, not_between_iff.2 h2, Bool.false_eq_true, if_false]

end

theorem conditionFunction_iff {lhs : Except Err Val} {op x : Val} {rest : List Val} : conditionFunction lhs op rest = .ok x ↔
    ∃ l o r f, lhs = .ok l ∧ OpFor op o ∧ RhsFor l op rest r ∧ Compares o f ∧ FunctionFor f .tuple [l, r] .none x := by
  simp only [conditionFunction, bind_eq_ok]
  constructor
  · rintro ⟨⟨l, o, r⟩, h1, f, h2, h3⟩
    obtain ⟨h1, h4, h5⟩ := conditionParts_iff.1 h1
    exact ⟨l, o, r, f, h1, h4, h5, compares_iff.1 h2, (mkFunction_seq rfl).1 h3⟩
  · rintro ⟨l, o, r, f, h1, h4, h5, h2, h3⟩
    exact ⟨(l, o, r), conditionParts_iff.2 ⟨h1, h4, h5⟩, f, compares_iff.2 h2, (mkFunction_seq rfl).2 h3⟩

omit D in
theorem legacyCall_iff {f : Str} {args alias x : Val} {children : Except Err Val} :
    legacyCall (.str f) args alias children = .ok x ↔
      (Falsy args ∧ EndsWith f ['(', ')'] ∧ ∃ n, Bare f n ∧ FunctionFor n .list [] alias x) ∨
      (Falsy args ∧ ¬ EndsWith f [')'] ∧ FunctionFor f .list [] alias x) ∨
      ((¬ Falsy args ∨ (EndsWith f [')'] ∧ ¬ EndsWith f ['(', ')'])) ∧ ∃ ch, children = .ok ch ∧ mkFunction (.str f) ch alias = .ok x) := by
  have hsub : EndsWith f ['(', ')'] → EndsWith f [')'] := by
    rintro ⟨r, rfl⟩; exact ⟨r ++ ['('], by simp⟩
  simp only [legacyCall, textMethod, ok_bind]
  by_cases hf : Falsy args
  · have ht : (!args.truthy) = true := by rw [truthy_false_iff.2 hf]; rfl
    simp only [ht, Bool.and_true, hf, true_and, not_true_eq_false, false_or]
    by_cases h1 : EndsWith f ['(', ')']
    · rw [if_pos (endsWith_iff.2 h1)]
      simp only [h1, true_and, hsub h1, not_true_eq_false, and_false, false_and, or_false]
      rw [mkFunction_seq (v := .list []) rfl]
      exact ⟨fun h => ⟨_, bare_iff.1 rfl, h⟩, fun ⟨n, hn, h⟩ => by rw [bare_iff.2 hn]; exact h⟩
    · rw [if_neg (fun h => h1 (endsWith_iff.1 h))]
      by_cases h2 : EndsWith f [')']
      · have : (!endsWith f [')']) = false := by rw [endsWith_iff.2 h2]; rfl
        simp only [this, Bool.false_eq_true, if_false, h1, h2, false_and, not_true_eq_false, false_or, not_false_eq_true, and_true,
          true_and, bind_eq_ok]
      · have : (!endsWith f [')']) = true := by
          cases h : endsWith f [')']
          · rfl
          · exact absurd (endsWith_iff.1 h) h2
        simp only [this, if_true, h1, h2, false_and, not_false_eq_true, true_and, false_or, or_false]
        exact mkFunction_seq (v := .list []) rfl
  · have ht : (!args.truthy) = false := by rw [truthy_true_iff.2 hf]; rfl
    simp only [ht, Bool.and_false, hf, false_and, not_false_eq_true, true_or, true_and, false_or, Bool.false_eq_true, if_false, bind_eq_ok]

theorem legacyList_iff {a b x : Val} {rest : List Val} {lhs children : Except Err Val} :
    legacyList a b rest lhs children = .ok x ↔
      (ConditionShape (a :: b :: rest) ∧ ∃ l o r f, lhs = .ok l ∧ OpFor b o ∧ RhsFor l b rest r ∧ Compares o f ∧
        FunctionFor f .tuple [l, r] .none x) ∨
      (¬ ConditionShape (a :: b :: rest) ∧ ∃ f alias, a = .str f ∧ AliasItem rest alias ∧
        legacyCall (.str f) b alias children = .ok x) := by
  unfold legacyList
  split
  · rename_i h
    have h := conditionShape_iff.1 h
    rw [conditionFunction_iff]
    simp only [h, true_and, not_true_eq_false, false_and, or_false]
  · rename_i h
    have h : ¬ ConditionShape (a :: b :: rest) := fun h' => h (conditionShape_iff.2 h')
    simp only [h, false_and, not_false_eq_true, true_and, false_or, bind_eq_ok, aliasItem_iff]
    constructor
    · rintro ⟨alias, h1, h2⟩
      have h3 := h2
      simp only [legacyCall, bind_eq_ok, textMethod_iff] at h3
      obtain ⟨f, rfl, _⟩ := h3
      exact ⟨f, alias, rfl, h1, h2⟩
    · rintro ⟨f, alias, rfl, h1, h2⟩; exact ⟨alias, h1, h2⟩

theorem parseExps_iff {ys : List Val} (h : ∀ y ∈ ys, ∀ z, parseExp y = .ok z ↔ Converts y z) :
    ∀ {zs}, parseExps ys = .ok zs ↔ ConvertsAll ys zs := by
  induction ys with
  | nil => intro zs; exact ⟨fun h => by cases h; exact .nil, fun h => by cases h; rfl⟩
  | cons y ys ih =>
    intro zs
    have ih := @ih (fun y hy => h y (List.mem_cons_of_mem _ hy))
    simp only [parseExps, bind_eq_ok, h y (List.mem_cons_self ..), ih]
    constructor
    · rintro ⟨z, h1, zs', h2, h3⟩; cases h3; exact .cons h1 h2
    · intro h; cases h with
      | cons h1 h2 => exact ⟨_, h1, _, h2, rfl⟩

omit D in
theorem parseExpText_iff {s : Str} {x : Val} : parseExpText s = .ok x ↔ (s = [] ∧ x = .str []) ∨ (∃ t, Between '\'' s t ∧ x = .str t) ∨
    (s ≠ [] ∧ (∀ t, ¬ Between '\'' s t) ∧ ∃ c, ColumnFor s c ∧ x = .column c) := by
  unfold parseExpText
  cases s with
  | nil =>
    have hb : ∀ t, ¬ Between '\'' [] t := by
      rintro t (h | ⟨h, _⟩) <;> cases h
    simp only [List.isEmpty_nil, if_true, true_and, hb, false_and, exists_false, ne_eq, not_true_eq_false, or_false]
    exact ⟨fun h => by cases h; rfl, fun h => by subst h; rfl⟩
  | cons c s =>
    simp only [List.isEmpty_cons, Bool.false_eq_true, if_false, reduceCtorEq, false_and, false_or, ne_eq, not_false_eq_true, true_and]
    split
    · rename_i h
      have hb := between_iff.1 ⟨h, rfl⟩
      constructor
      · intro h; cases h; exact .inl ⟨_, hb, rfl⟩
      · rintro (⟨t, h1, rfl⟩ | ⟨h1, _⟩)
        · rw [(between_iff.2 h1).2]
        · exact absurd hb (h1 _)
    · rename_i h
      have hb := not_between_iff.1 (Bool.not_eq_true _ ▸ h)
      rw [columnFor_iff]
      constructor
      · intro h; exact .inr ⟨hb, h⟩
      · rintro (⟨t, h1, rfl⟩ | ⟨_, h1⟩)
        · exact absurd h1 (hb t)
        · exact h1

theorem converts_aux : ∀ (n : Nat) (v : Val), sizeOf v ≤ n → ∀ x, parseExp v = .ok x ↔ Converts v x
  | 0, v, hn => by cases v <;> simp at hn <;> omega
  | n + 1, v, hn => by
    intro x
    have scalar : (∀ s, v ≠ .str s) → (∀ xs, v ≠ .list xs) → parseExp v = .ok (parseScalar false v) →
        (parseExp v = .ok x ↔ Converts v x) := by
      intro h1 h2 h3
      rw [h3]
      constructor
      · intro h; cases h; exact .scalar h1 h2 ((scalarOf_iff false_iff_ft).1 rfl)
      · intro h
        cases h with
        | scalar _ _ h => rw [(scalarOf_iff false_iff_ft).2 h]
        | empty | quoted | column => exact absurd rfl (h1 _)
        | condition | emptyCall | noCall | call | callOne | bracketed => exact absurd rfl (h2 _)
    cases v with
    | str s =>
      clear scalar
      simp only [parseExp]
      rw [parseExpText_iff]
      constructor
      · rintro (⟨rfl, rfl⟩ | ⟨t, h, rfl⟩ | ⟨h1, h2, c, h3, rfl⟩)
        · exact .empty
        · exact .quoted h
        · exact .column h1 h2 h3
      · intro h
        cases h with
        | empty => exact .inl ⟨rfl, rfl⟩
        | quoted h => exact .inr (.inl ⟨_, h, rfl⟩)
        | column h1 h2 h3 => exact .inr (.inr ⟨h1, h2, _, h3, rfl⟩)
        | scalar h => exact absurd rfl (h s)
    | list xs =>
      clear scalar
      match xs with
      | [] =>
        simp only [parseExp, reduceCtorEq, false_iff]
        intro h
        cases h with
        | scalar _ h => exact absurd rfl (h [])
      | [a] =>
        constructor
        · intro h
          simp only [parseExp] at h
          cases ha : textMethod a <;> rw [ha] at h <;> cases h
        · intro h
          cases h with
          | scalar _ h => exact absurd rfl (h [a])
      | a :: b :: rest =>
        simp only [Val.list.sizeOf_spec, List.cons.sizeOf_spec] at hn
        have iha := converts_aux n a (by omega)
        have ihb := converts_aux n b (by omega)
        by_cases hb : ∃ ys, b = .list ys
        · obtain ⟨ys, rfl⟩ := hb
          simp only [Val.list.sizeOf_spec] at hn
          have ihys := @parseExps_iff _ _ ys (fun y hy => converts_aux n y (by
            have := List.sizeOf_lt_of_mem hy; omega))
          simp only [parseExp]
          rw [legacyList_iff]
          simp only [iha, legacyCall_iff]
          have hch : ∀ {P : Val → Prop}, (∃ ch, (parseExps ys).map Val.list = .ok ch ∧ P ch) ↔ ∃ zs, ConvertsAll ys zs ∧ P (.list zs) := by
            intro P
            constructor
            · rintro ⟨ch, h1, h2⟩
              cases h : parseExps ys with
              | error e => rw [h] at h1; cases h1
              | ok zs => rw [h] at h1; cases h1; exact ⟨zs, ihys.1 h, h2⟩
            · rintro ⟨zs, h1, h2⟩
              exact ⟨_, by rw [ihys.2 h1]; rfl, h2⟩
          simp only [hch, mkFunction_seq (v := .list _) rfl]
          have hf : Falsy (.list ys) ↔ ys = [] := ⟨fun h => by cases h; rfl, fun h => by subst h; exact .list⟩
          constructor
          · rintro (⟨h1, l, o, r, f, h2, h3, _⟩ | ⟨h1, f, alias, rfl, h2, ⟨h3, h4, n, h5, h6⟩ | ⟨h3, h4, h5⟩ | ⟨h3, zs, h4, h5⟩⟩)
            · cases h3
            · exact .emptyCall h1 h2 h3 h4 h5 h6
            · exact .noCall h1 h2 h3 h4 h5
            · exact .call h1 h2 (by rwa [hf] at h3) h4 h5
          · intro h
            generalize hv : Val.list (a :: .list ys :: rest) = v at h
            cases h with
            | empty | quoted | column => cases hv
            | scalar _ h => exact absurd hv.symm (h _)
            | condition h1 => cases hv; cases h1
            | emptyCall h1 h2 h3 h4 h5 h6 => cases hv; exact .inr ⟨h1, _, _, rfl, h2, .inl ⟨h3, h4, _, h5, h6⟩⟩
            | noCall h1 h2 h3 h4 h5 => cases hv; exact .inr ⟨h1, _, _, rfl, h2, .inr (.inl ⟨h3, h4, h5⟩)⟩
            | call h1 h2 h3 h4 h5 =>
              cases hv
              exact .inr ⟨h1, _, _, rfl, h2, .inr (.inr ⟨by rwa [hf], _, h4, h5⟩)⟩
            | callOne h1 h2 h3 h4 => cases hv; exact absurd rfl (h4 ys)
            | bracketed h1 h2 h3 h4 => cases hv; exact absurd rfl (h4 ys)
        · have hb : ∀ ys, b ≠ .list ys := fun ys h => hb ⟨ys, h⟩
          have e : parseExp (.list (a :: b :: rest)) =
              legacyList a b rest (parseExp a) (if b.truthy then oneChild (parseExp b) else .ok .none) := by
            cases b with
            | list ys => exact absurd rfl (hb ys)
            | _ => simp only [parseExp]
          rw [e, legacyList_iff]
          simp only [iha, legacyCall_iff]
          constructor
          · rintro (⟨h1, l, o, r, f, h2, h3, h4, h5, h6⟩ | ⟨h1, f, alias, rfl, h2, ⟨h3, h4, n, h5, h6⟩ | ⟨h3, h4, h5⟩ | ⟨h3, ch, h4, h5⟩⟩)
            · cases h1 with
              | mk h7 h8 => exact .condition (.mk h7 h8) h2 h3 h4 h5 h6
            · exact .emptyCall h1 h2 h3 h4 h5 h6
            · exact .noCall h1 h2 h3 h4 h5
            · split at h4
              · rename_i ht
                cases hc : parseExp b with
                | error e => rw [hc] at h4; cases h4
                | ok z =>
                  rw [hc] at h4; cases h4
                  exact .callOne h1 h2 (truthy_true_iff.1 ht) hb ((ihb z).1 hc) ((mkFunction_seq rfl).1 h5)
              · rename_i ht
                have ht : Falsy b := truthy_false_iff.1 (Bool.not_eq_true _ ▸ ht)
                cases h4
                rcases h3 with h3 | ⟨h3, h4⟩
                · exact absurd ht h3
                · exact .bracketed h1 h2 ht hb h3 h4 (mkFunction_none.1 h5)
          · intro h
            generalize hv : Val.list (a :: b :: rest) = v at h
            cases h with
            | empty | quoted | column => cases hv
            | scalar _ h => exact absurd hv.symm (h _)
            | condition h1 h2 h3 h4 h5 h6 => cases hv; exact .inl ⟨h1, _, _, _, _, h2, h3, h4, h5, h6⟩
            | emptyCall h1 h2 h3 h4 h5 h6 => cases hv; exact .inr ⟨h1, _, _, rfl, h2, .inl ⟨h3, h4, _, h5, h6⟩⟩
            | noCall h1 h2 h3 h4 h5 => cases hv; exact .inr ⟨h1, _, _, rfl, h2, .inr (.inl ⟨h3, h4, h5⟩)⟩
            | @call _ ys => cases hv; exact absurd rfl (hb ys)
            | callOne h1 h2 h3 h4 h5 h6 =>
              cases hv
              refine .inr ⟨h1, _, _, rfl, h2, .inr (.inr ⟨.inl h3, .list [_], ?_, (mkFunction_seq rfl).2 h6⟩)⟩
              rw [if_pos (truthy_true_iff.2 h3), (ihb _).2 h5]; rfl
            | bracketed h1 h2 h3 h4 h5 h6 h7 =>
              cases hv
              refine .inr ⟨h1, _, _, rfl, h2, .inr (.inr ⟨.inr ⟨h5, h6⟩, .none, ?_, mkFunction_none.2 h7⟩)⟩
              rw [truthy_false_iff.2 h3]; rfl
    | _ => exact scalar (by simp) (by simp) (by simp only [parseExp])

theorem converts_iff {v x : Val} : parseExp v = .ok x ↔ Converts v x := converts_aux _ v (Nat.le_refl _) x

/-! ### Conditions -/

omit U D in
theorem itemsOf_iff {v : Val} {xs : List Val} : v.iter = .ok xs ↔ ItemsOf v xs := by
  constructor
  · intro h
    unfold Val.iter at h
    split at h
    · rename_i k ys hs
      cases h
      cases v <;> simp only [Val.seq?, reduceCtorEq, Option.some.injEq, Prod.mk.injEq] at hs <;> obtain ⟨rfl, rfl⟩ := hs <;> constructor
    · cases h
  · rintro (_ | _) <;> rfl

theorem conditionOf_iff {xs : List Val} {x : Val} : parseConditionItems xs = .ok x ↔ ConditionOf xs x := by
  match xs with
  | [] => exact ⟨fun h => (by cases h), fun h => (by cases h)⟩
  | [a] =>
    refine ⟨fun h => ?_, fun h => by cases h⟩
    simp only [parseConditionItems] at h
    cases ha : parseExp a <;> rw [ha] at h <;> cases h
  | a :: b :: rest =>
    simp only [parseConditionItems, bind_eq_ok]
    constructor
    · rintro ⟨⟨l, o, r⟩, h1, h2⟩
      obtain ⟨h1, h3, h4⟩ := conditionParts_iff.1 h1
      exact .mk (converts_iff.1 h1) h3 h4 (conditionFor_iff.1 h2)
    · intro h
      cases h with
      | mk h1 h3 h4 h2 => exact ⟨(_, _, _), conditionParts_iff.2 ⟨converts_iff.2 h1, h3, h4⟩, conditionFor_iff.2 h2⟩

theorem groupOf_iff : ∀ {vs cs : List Val}, parseConditions vs = .ok cs ↔ GroupOf vs cs
  | [], cs => ⟨fun h => by cases h; exact .nil, fun h => by cases h; rfl⟩
  | v :: vs, cs => by
    simp only [parseConditions, parseCondition, bind_eq_ok, itemsOf_iff, conditionOf_iff, groupOf_iff (vs := vs)]
    constructor
    · rintro ⟨c, ⟨xs, h1, h2⟩, cs', h3, h4⟩; cases h4; exact .cons h1 h2 h3
    · intro h
      cases h with
      | cons h1 h2 h3 => exact ⟨_, ⟨_, h1, h2⟩, _, h3, rfl⟩

theorem groupOf_cond : ∀ {vs cs : List Val}, GroupOf vs cs → ∀ c ∈ cs, Cond c
  | _, _, .nil => by simp
  | _, _, .cons _ h2 h3 => by
    intro c hc
    rcases List.mem_cons.1 hc with rfl | hc
    · obtain ⟨_, _, _, h⟩ := h2
      cases h; exact .cond ..
    · exact groupOf_cond h3 c hc

omit U D in
theorem itemsOf_unique {v : Val} {xs ys : List Val} (h1 : ItemsOf v xs) (h2 : ItemsOf v ys) : xs = ys := by
  have := itemsOf_iff.2 h1; rw [itemsOf_iff.2 h2] at this; cases this; rfl

theorem whereEntry_iff {v : Val} {cs : List Val} : legacyEntry whereGroup v = .ok cs ↔ WhereEntry v cs := by
  simp only [legacyEntry, bind_eq_ok, itemsOf_iff]
  constructor
  · rintro ⟨xs, h1, h2⟩
    split at h2
    · rename_i hs
      cases hc : parseConditionItems xs with
      | error e => rw [hc] at h2; cases h2
      | ok c => rw [hc] at h2; cases h2; exact .condition h1 (conditionShape_iff.1 hs) (conditionOf_iff.1 hc)
    · rename_i hs
      have hs : ¬ ConditionShape xs := fun h => hs (conditionShape_iff.2 h)
      simp only [bind_eq_ok] at h2
      obtain ⟨ds, h2, h3⟩ := h2
      have h2 := groupOf_iff.1 h2
      unfold whereGroup at h3
      split at h3
      · rename_i hl
        cases hm : mkOr (.list ds) with
        | error e => rw [hm] at h3; cases h3
        | ok c =>
          rw [hm] at h3; cases h3
          rw [mkOr, mkBool_ok_iff] at hm
          obtain ⟨k, ys, hy, hlen, _, rfl⟩ := hm
          cases hy
          exact .group h1 hs h2 hlen
      · rename_i hl
        cases h3
        match cs, h2, hl with
        | [], h2, _ => cases h2; exact .empty h1
        | [c], h2, _ => exact .single h1 hs h2
        | _ :: _ :: _, _, hl => simp at hl
  · intro h
    cases h with
    | condition h1 h2 h3 =>
      refine ⟨_, h1, ?_⟩
      rw [if_pos (conditionShape_iff.2 h2), conditionOf_iff.2 h3]; rfl
    | @group xs ds h1 h2 h3 h4 =>
      refine ⟨_, h1, ?_⟩
      rw [if_neg (fun h => h2 (conditionShape_iff.1 h)), groupOf_iff.2 h3]
      have hm : mkOr (.list ds) = .ok (.boolCond .or .or .list ds) :=
        (mkBool_ok_iff ..).2 ⟨.list, ds, .list _, h4, groupOf_cond h3, rfl⟩
      simp only [ok_bind, whereGroup]
      rw [if_pos (by omega), hm]; rfl
    | single h1 h2 h3 =>
      refine ⟨_, h1, ?_⟩
      rw [if_neg (fun h => h2 (conditionShape_iff.1 h)), groupOf_iff.2 h3]
      rfl
    | empty h1 => exact ⟨_, h1, rfl⟩

theorem whereEntries_iff : ∀ {vs cs : List Val}, legacyEntries whereGroup vs = .ok cs ↔ WhereEntries vs cs
  | [], cs => ⟨fun h => by cases h; exact .nil, fun h => by cases h; rfl⟩
  | v :: vs, cs => by
    simp only [legacyEntries, bind_eq_ok, whereEntry_iff, whereEntries_iff (vs := vs)]
    constructor
    · rintro ⟨c, h1, cs', h3, h4⟩; cases h4; exact .cons h1 h3
    · intro h
      cases h with
      | cons h1 h3 => exact ⟨_, h1, _, h3, rfl⟩

/-! ### The body -/

omit U D in
theorem lookup_has {b : LegacyBody} {key : Str} {v : Val} : b.entries.lookup key = some v ↔ Has b key v := by
  unfold Has
  generalize b.entries = es
  induction es with
  | nil =>
    simp only [List.lookup_nil, reduceCtorEq, false_iff]
    rintro ⟨before, after, h, _⟩
    cases before <;> cases h
  | cons e es ih =>
    obtain ⟨k, w⟩ := e
    by_cases hk : key = k
    · subst hk
      simp only [List.lookup_cons, beq_self_eq_true, Option.some.injEq]
      constructor
      · rintro rfl; exact ⟨[], es, rfl, by simp⟩
      · rintro ⟨before, after, h, hb⟩
        cases before with
        | nil => cases h; rfl
        | cons p before => cases h; exact absurd rfl (hb _ (List.mem_cons_self ..))
    · simp only [List.lookup_cons, beq_eq_false_iff_ne.2 hk, ih]
      constructor
      · rintro ⟨before, after, rfl, hb⟩
        refine ⟨(k, w) :: before, after, rfl, ?_⟩
        intro p hp
        rcases List.mem_cons.1 hp with rfl | hp
        · exact fun h => hk h.symm
        · exact hb p hp
      · rintro ⟨before, after, h, hb⟩
        cases before with
        | nil => cases h; exact absurd rfl hk
        | cons p before => cases h; exact ⟨before, after, rfl, fun p hp => hb p (List.mem_cons_of_mem _ hp)⟩

omit U D in
theorem getD_cases (b : LegacyBody) (key : Str) (d : Val) :
    (Has b key (b.getD key d)) ∨ ((∀ w, ¬ Has b key w) ∧ b.getD key d = d) := by
  unfold LegacyBody.getD
  cases h : b.entries.lookup key with
  | none =>
    refine .inr ⟨fun w hw => ?_, rfl⟩
    rw [lookup_has.2 hw] at h; cases h
  | some v => exact .inl (lookup_has.1 h)

omit U D in
theorem has_getD {b : LegacyBody} {key : Str} {v : Val} (h : Has b key v) (d : Val) : b.getD key d = v := by
  simp only [LegacyBody.getD, lookup_has.2 h, Option.getD_some]

omit U D in
theorem has_not_getD {b : LegacyBody} {key : Str} (h : ∀ w, ¬ Has b key w) (d : Val) : b.getD key d = d := by
  rcases getD_cases b key d with h' | ⟨_, h'⟩
  · exact absurd h' (h _)
  · exact h'

omit U D in
theorem valueAt_iff {b : LegacyBody} {key : Str} {v : Val} : b.get key = v ↔ ValueAt b key v := by
  constructor
  · rintro rfl; exact getD_cases b key .none
  · rintro (h | ⟨h, rfl⟩)
    · exact has_getD h _
    · exact has_not_getD h _

omit U D in
theorem itemsAt_iff {b : LegacyBody} {key : Str} {xs : List Val} : (b.getD key (.list [])).iter = .ok xs ↔ ItemsAt b key xs := by
  constructor
  · intro h
    rcases getD_cases b key (.list []) with h' | ⟨h', e⟩
    · exact .inl ⟨_, h', itemsOf_iff.1 h⟩
    · rw [e] at h; cases h; exact .inr ⟨h', rfl⟩
  · rintro (⟨v, h1, h2⟩ | ⟨h, rfl⟩)
    · rw [has_getD h1]; exact itemsOf_iff.2 h2
    · rw [has_not_getD h]; rfl

omit U D in
theorem timeColumn_iff {e c : Str} : getRequiredTimeColumn e = some c ↔ TimeColumn e c := by
  constructor
  · intro h
    have h := lookup_some_mem h
    simp only [ENTITY_TIME_COLUMNS, List.mem_cons, List.not_mem_nil, or_false, Prod.mk.injEq] at h
    rcases h with ⟨rfl, rfl⟩ | ⟨rfl, rfl⟩ | ⟨rfl, rfl⟩ | ⟨rfl, rfl⟩ | ⟨rfl, rfl⟩ | ⟨rfl, rfl⟩ | ⟨rfl, rfl⟩ | ⟨rfl, rfl⟩ |
      ⟨rfl, rfl⟩ | ⟨rfl, rfl⟩ | ⟨rfl, rfl⟩ | ⟨rfl, rfl⟩ <;> constructor
  · rintro (_ | _) <;> rfl

omit D in
theorem mkColumn_ident {s : Str} (h : ColIdent s) : mkColumn (.str s) .none = .ok (plainColumn s) :=
  columnFor_iff.2 ⟨_, .plain (.inl h), rfl⟩

omit D in
theorem colIdent_ascii {h : Char} {u : Str} (h1 : isAlpha h = true)
    (h2 : ∀ c ∈ u, c.toNat < 128 ∧ (isAlpha c || isDigit c || c == '_') = true) : ColIdent (h :: u) := by
  refine ⟨h, u, rfl, .inl h1, fun c hc => .inl ?_⟩
  rw [U.ascii c (h2 c hc).1]; exact (h2 c hc).2

omit D in
theorem timeColumn_ident {e c : Str} (h : TimeColumn e c) : ColIdent c := by
  cases h <;> exact colIdent_ascii (by decide) (by decide)

omit U in
theorem extensionCondition_in {col : Str} {xs : List Val} {c : Val} :
    mkCondition (plainColumn col) (.op .in_) (.tuple xs) = .ok c ↔ (∀ y ∈ xs, Element y) ∧ c = .cond (plainColumn col) .in_ (.tuple xs) := by
  rw [conditionFor_iff]
  constructor
  · rintro ⟨_, _, h⟩
    refine ⟨?_, rfl⟩
    rcases h with h | h | h
    · cases h
    · cases h
    · cases h; assumption
  · rintro ⟨h, rfl⟩
    exact .mk (.column _) (by rintro (h | h) <;> cases h) (.inr (.inr (.tuple _ h)))

omit U in
theorem map_list_ok {x : Except Err Val} {cs : List Val} : x.map (fun c => [c]) = .ok cs ↔ ∃ c, x = .ok c ∧ cs = [c] := by
  cases x with
  | error e => exact ⟨fun h => (by cases h), fun ⟨_, h, _⟩ => (by cases h)⟩
  | ok c => exact ⟨fun h => by cases h; exact ⟨c, rfl, rfl⟩, fun ⟨_, h, h'⟩ => by cases h; subst h'; rfl⟩

theorem organizationOf_iff {v : Val} {cs : List Val} : extension c!"org_id" v false = .ok cs ↔ OrganizationOf v cs := by
  unfold extension
  rw [mkColumn_ident (colIdent_ascii (by decide) (by decide)), ok_bind]
  split
  · rename_i ht
    have ht := truthy_true_iff.1 ht
    unfold extensionCondition
    split
    · rename_i n hn
      have hn := asInt?_iff.1 hn
      simp only [Bool.false_eq_true, if_false, map_list_ok, conditionFor_iff]
      constructor
      · rintro ⟨_, ⟨_⟩, rfl⟩; exact .one ht hn
      · intro h
        cases h with
        | absent h => exact absurd h ht
        | one _ _ =>
          refine ⟨_, .mk (.column _) (by rintro (h | h) <;> cases h) (.inr (.inl ?_)), rfl⟩
          cases hn <;> constructor
        | many _ h => cases h <;> cases hn
        | other _ h => exact absurd hn (h n)
    · rename_i hn
      have hn := asInt?_none.1 hn
      split
      · rename_i k xs hs
        have hs := listOrTuple?_iff.1 hs
        simp only [map_list_ok, extensionCondition_in]
        constructor
        · rintro ⟨_, ⟨h, rfl⟩, rfl⟩; exact .many ht hs ((scalarsOf_iff false_iff_ft).1 rfl) h
        · intro h
          cases h with
          | absent h => exact absurd h ht
          | one _ h => exact absurd h (hn _)
          | many _ h1 h2 h3 =>
            rw [← listOrTuple?_iff, listOrTuple?_iff.2 hs] at h1
            cases h1
            rw [(scalarsOf_iff false_iff_ft).2 h2]
            exact ⟨_, ⟨h3, rfl⟩, rfl⟩
          | other _ _ h => cases hs <;> exact absurd (by constructor) h
      · rename_i hs
        have hs := listOrTuple?_none.1 hs
        constructor
        · intro h
          cases h
          refine .other ht hn ?_
          rintro (_ | _)
          · exact hs _ _ (.list _)
          · exact hs _ _ (.tuple _)
        · intro h
          cases h with
          | absent h => exact absurd h ht
          | one _ h => exact absurd h (hn _)
          | many _ h1 => exact absurd h1 (hs _ _)
          | other => rfl
  · rename_i ht
    have ht := truthy_false_iff.1 (Bool.not_eq_true _ ▸ ht)
    constructor
    · intro h; cases h; exact .absent ht
    · intro h
      cases h with
      | absent => rfl
      | one h => exact absurd ht h
      | many h => exact absurd ht h
      | other h => exact absurd ht h

theorem projectOf_iff {v : Val} {cs : List Val} : extension c!"project_id" v true = .ok cs ↔ ProjectOf v cs := by
  unfold extension
  rw [mkColumn_ident (colIdent_ascii (by decide) (by decide)), ok_bind]
  split
  · rename_i ht
    have ht := truthy_true_iff.1 ht
    unfold extensionCondition
    split
    · rename_i n hn
      have hn := asInt?_iff.1 hn
      have hp : parseScalars false [v] = [v] := by cases hn <;> rfl
      simp only [if_true, map_list_ok, extensionCondition_in, hp]
      constructor
      · rintro ⟨_, ⟨_, rfl⟩, rfl⟩; exact .one ht hn
      · intro h
        cases h with
        | absent h => exact absurd h ht
        | one _ _ =>
          refine ⟨_, ⟨?_, rfl⟩, rfl⟩
          intro y hy
          rw [List.mem_singleton.1 hy]
          refine .literal _ ?_
          cases hn <;> constructor
        | many _ h => cases h <;> cases hn
        | other _ h => exact absurd hn (h n)
    · rename_i hn
      have hn := asInt?_none.1 hn
      split
      · rename_i k xs hs
        have hs := listOrTuple?_iff.1 hs
        simp only [map_list_ok, extensionCondition_in]
        constructor
        · rintro ⟨_, ⟨h, rfl⟩, rfl⟩; exact .many ht hs ((scalarsOf_iff false_iff_ft).1 rfl) h
        · intro h
          cases h with
          | absent h => exact absurd h ht
          | one _ h => exact absurd h (hn _)
          | many _ h1 h2 h3 =>
            rw [← listOrTuple?_iff, listOrTuple?_iff.2 hs] at h1
            cases h1
            rw [(scalarsOf_iff false_iff_ft).2 h2]
            exact ⟨_, ⟨h3, rfl⟩, rfl⟩
          | other _ _ h => cases hs <;> exact absurd (by constructor) h
      · rename_i hs
        have hs := listOrTuple?_none.1 hs
        constructor
        · intro h
          cases h
          refine .other ht hn ?_
          rintro (_ | _)
          · exact hs _ _ (.list _)
          · exact hs _ _ (.tuple _)
        · intro h
          cases h with
          | absent h => exact absurd h ht
          | one _ h => exact absurd h (hn _)
          | many _ h1 => exact absurd h1 (hs _ _)
          | other => rfl
  · rename_i ht
    have ht := truthy_false_iff.1 (Bool.not_eq_true _ ▸ ht)
    constructor
    · intro h; cases h; exact .absent ht
    · intro h
      cases h with
      | absent => rfl
      | one h => exact absurd ht h
      | many h => exact absurd ht h
      | other h => exact absurd ht h

omit U in
theorem parseDate_iff {v x : Val} : parseDate v = .ok x ↔ ∃ s t, v = .str s ∧ LegacyDate s t ∧ x = .datetime t := by
  constructor
  · intro h
    unfold parseDate at h
    split at h
    · split at h
      · rename_i t ht; cases h; exact ⟨_, t, rfl, parseDatetime_iff.1 ht, rfl⟩
      · cases h
    · split at h <;> cases h
    · split at h <;> cases h
    · cases h
  · rintro ⟨s, t, rfl, h, rfl⟩
    simp only [parseDate, parseDatetime_iff.2 h]

omit U in
theorem legacyDate_ne {t : Datetime} : ¬ LegacyDate [] t := by
  intro h
  have := parseDatetime_iff.2 h
  simp only [parseDatetime, withoutZoneColons, splitOnce, parseDateStyles] at this
  cases this

theorem boundOf_iff {c : Str} {o : Op} (hc : ColIdent c) (ho : o = .gte ∨ o = .lt) {v : Val} {cs : List Val} :
    timeCondition c o v = .ok cs ↔ BoundOf c o v cs := by
  unfold timeCondition
  rw [mkColumn_ident hc]
  split
  · rename_i ht
    have ht := truthy_true_iff.1 ht
    simp only [ok_bind, bind_eq_ok, parseDate_iff, conditionFor_iff]
    constructor
    · rintro ⟨_, ⟨s, t, rfl, h, rfl⟩, _, ⟨_⟩, h'⟩; cases h'; exact .date h
    · intro h
      cases h with
      | absent h => exact absurd h ht
      | date h =>
        refine ⟨_, ⟨_, _, rfl, h, rfl⟩, _, .mk (.column _) ?_ (.inr (.inl (.datetime _))), rfl⟩
        rintro (rfl | rfl) <;> rcases ho with ho | ho <;> cases ho
  · rename_i ht
    have ht := truthy_false_iff.1 (Bool.not_eq_true _ ▸ ht)
    constructor
    · intro h; cases h; exact .absent ht
    · intro h
      cases h with
      | absent => rfl
      | date h => cases ht; exact absurd h legacyDate_ne

theorem boundsOf_iff {b : LegacyBody} {e : Str} {cs : List Val} : legacyTimes b e = .ok cs ↔ BoundsOf b e cs := by
  unfold legacyTimes
  split
  · rename_i hn
    have hn : ∀ c, ¬ TimeColumn e c := fun c hc => by rw [timeColumn_iff.2 hc] at hn; cases hn
    constructor
    · intro h; cases h; exact .none hn
    · intro h
      cases h with
      | none => rfl
      | both h => exact absurd h (hn _)
  · rename_i c hc
    have hc := timeColumn_iff.1 hc
    simp only [bind_eq_ok, boundOf_iff (timeColumn_ident hc) (.inl rfl), boundOf_iff (timeColumn_ident hc) (.inr rfl)]
    constructor
    · rintro ⟨xs, h1, ys, h2, h3⟩
      cases h3
      exact .both hc (valueAt_iff.1 rfl) h1 (valueAt_iff.1 rfl) h2
    · intro h
      cases h with
      | none h => exact absurd hc (h c)
      | both h1 h2 h3 h4 h5 =>
        rw [← timeColumn_iff, timeColumn_iff.2 hc] at h1
        cases h1
        rw [valueAt_iff.2 h2, valueAt_iff.2 h4]
        exact ⟨_, h3, _, h5, rfl⟩

theorem whereOf_iff {b : LegacyBody} {e : Str} {cs : List Val} : legacyWhere b e = .ok cs ↔ WhereOf b e cs := by
  simp only [legacyWhere, bind_eq_ok, organizationOf_iff, boundsOf_iff, projectOf_iff, itemsAt_iff, whereEntries_iff]
  constructor
  · rintro ⟨org, h1, times, h2, proj, h3, xs, h4, rest, h5, h6⟩
    cases h6
    exact .mk (valueAt_iff.1 rfl) h1 h2 (valueAt_iff.1 rfl) h3 h4 h5
  · rintro ⟨h1, h2, h3, h4, h5, h6, h7⟩
    rw [valueAt_iff.2 h1, valueAt_iff.2 h4]
    exact ⟨_, h2, _, h3, _, h5, _, h6, _, h7, rfl⟩

end Verif
