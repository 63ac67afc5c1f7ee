import Verif.Model.Snuba
import Verif.Spec.Aggregate
import Verif.Lemmas.Regex
import Verif.Lemmas.ValInd

/-!
# Lemmas for the recognition of aggregates
-/

namespace Verif
open Spec

theorem wordChar_iff (c : Char) : (isAlpha c || c == '_') = true ↔ WordChar c := by
  simp [isAlpha, WordChar, or_assoc]

theorem not_wordChar_paren : ¬ WordChar '(' := by
  rw [← wordChar_iff]; decide

/-- The words up to the bracket, with the rest. -/
theorem mem_callRe {s t : Str} :
    t ∈ functionCallRe.run s ↔ ∃ u, s = u ++ '(' :: t ∧ u ≠ [] ∧ ∀ c ∈ u, WordChar c := by
  simp only [functionCallRe, mem_run_seq, mem_run_plus (OneChar.cls _), mem_run_chr, wordChar_iff]
  constructor
  · rintro ⟨_, ⟨u, rfl, h1, h2⟩, rfl⟩; exact ⟨u, rfl, h1, h2⟩
  · rintro ⟨u, rfl, h1, h2⟩; exact ⟨_, ⟨u, rfl, h1, h2⟩, rfl⟩

theorem split_unique {u v t r : Str} (hu : ∀ c ∈ u, WordChar c) (hv : ∀ c ∈ v, WordChar c)
    (h : u ++ '(' :: t = v ++ '(' :: r) : u = v ∧ t = r := by
  induction u generalizing v with
  | nil =>
    cases v with
    | nil => exact ⟨rfl, by simpa using h⟩
    | cons c v =>
      simp only [List.nil_append, List.cons_append, List.cons.injEq] at h
      exact absurd (hv c (by simp)) (h.1 ▸ not_wordChar_paren)
  | cons c u ih =>
    cases v with
    | nil =>
      simp only [List.nil_append, List.cons_append, List.cons.injEq] at h
      exact absurd (hu c (by simp)) (h.1 ▸ not_wordChar_paren)
    | cons d v =>
      simp only [List.cons_append, List.cons.injEq] at h
      obtain ⟨rfl, h⟩ := h
      obtain ⟨rfl, rfl⟩ := ih (fun x hx => hu x (by simp [hx])) (fun x hx => hv x (by simp [hx])) h
      exact ⟨rfl, rfl⟩

/-- A text starting with a call: the calls in it are that one and those after it. -/
theorem callIn_word {u t w : Str} (hu0 : u ≠ []) (hu : ∀ c ∈ u, WordChar c) :
    CallIn w (u ++ '(' :: t) ↔ w = u ∨ CallIn w t := by
  constructor
  · rintro ⟨pre, post, he, hw0, hw, hp⟩
    rw [List.append_assoc] at he
    by_cases h0 : pre = []
    · subst h0
      exact .inl (split_unique hu hw (by simpa using he)).1.symm
    · right
      rcases List.append_eq_append_iff.1 he with ⟨a, ha, hb⟩ | ⟨a, ha, hb⟩
      · cases a with
        | nil =>
          simp only [List.append_nil] at ha
          subst ha
          obtain ⟨c, hc⟩ : ∃ c, pre.getLast? = some c := ⟨_, List.getLast?_eq_some_getLast h0⟩
          exact absurd (hu c (List.mem_of_getLast? hc)) (hp c hc)
        | cons c a =>
          simp only [List.cons_append, List.cons.injEq] at hb
          obtain ⟨rfl, rfl⟩ := hb
          refine ⟨a, post, by simp, hw0, hw, fun c hc => hp c ?_⟩
          subst ha
          rw [List.getLast?_append, List.getLast?_cons, hc]
          rfl
      · obtain ⟨c, hc⟩ : ∃ c, pre.getLast? = some c := ⟨_, List.getLast?_eq_some_getLast h0⟩
        have : c ∈ u := by rw [ha]; simp [List.mem_of_getLast? hc]
        exact absurd (hu c this) (hp c hc)
  · rintro (rfl | ⟨pre, post, rfl, hw0, hw, hp⟩)
    · exact ⟨[], t, rfl, hu0, hu, by simp⟩
    · refine ⟨u ++ '(' :: pre, post, by simp, hw0, hw, fun c hc => ?_⟩
      rw [List.getLast?_append, List.getLast?_cons] at hc
      cases hp' : pre.getLast? with
      | none =>
        rw [hp'] at hc
        simp only [Option.getD_none, Option.some_or, Option.some.injEq] at hc
        subst hc; exact not_wordChar_paren
      | some d =>
        rw [hp'] at hc
        simp only [Option.getD_some, Option.some_or, Option.some.injEq] at hc
        subst hc; exact hp _ hp'

/-- A text that does not start with a call: the calls in it are those in its tail. -/
theorem callIn_skip {c : Char} {s w : Str} (h : ∀ u t, c :: s = u ++ '(' :: t → u ≠ [] → ¬ ∀ x ∈ u, WordChar x) :
    CallIn w (c :: s) ↔ CallIn w s := by
  constructor
  · rintro ⟨pre, post, he, hw0, hw, hp⟩
    cases pre with
    | nil => exact absurd hw (h w post (by simpa using he) hw0)
    | cons d pre =>
      simp only [List.cons_append, List.cons.injEq] at he
      obtain ⟨rfl, rfl⟩ := he
      refine ⟨pre, post, rfl, hw0, hw, fun x hx => hp x ?_⟩
      rw [List.getLast?_cons, hx]; rfl
  · rintro ⟨pre, post, rfl, hw0, hw, hp⟩
    refine ⟨c :: pre, post, rfl, hw0, hw, fun x hx => ?_⟩
    rw [List.getLast?_cons] at hx
    cases hp' : pre.getLast? with
    | some d =>
      rw [hp'] at hx
      simp only [Option.getD_some, Option.some.injEq] at hx
      subst hx; exact hp _ hp'
    | none =>
      rw [hp'] at hx
      simp only [Option.getD_none, Option.some.injEq] at hx
      subst hx
      have : pre = [] := by simpa using hp'
      subst this
      intro hc
      refine h (c :: w) post (by simp) (by simp) fun y hy => ?_
      rcases List.mem_cons.1 hy with rfl | hy
      · exact hc
      · exact hw y hy

theorem mem_findCalls {w : Str} : ∀ (f : Nat) (s : Str), s.length < f → (w ∈ findCalls f s ↔ CallIn w s)
  | 0, s, h => absurd h (Nat.not_lt_zero _)
  | f + 1, s, h => by
    unfold findCalls
    cases hr : functionCallRe.run s with
    | cons t r =>
      obtain ⟨u, rfl, hu0, hu⟩ := mem_callRe.1 (by rw [hr]; simp : t ∈ functionCallRe.run s)
      simp only [List.length_append, List.length_cons] at h
      have e : (List.take ((u ++ '(' :: t).length - t.length) (u ++ '(' :: t)).dropLast = u := by
        have : u ++ '(' :: t = (u ++ ['(']) ++ t := by simp
        rw [this, List.length_append, Nat.add_sub_cancel, List.take_left]
        simp
      simp only [e, List.mem_cons, mem_findCalls f t (by omega), callIn_word hu0 hu]
    | nil =>
      have hn : ∀ u t, s = u ++ '(' :: t → u ≠ [] → ¬ ∀ x ∈ u, WordChar x := fun u t he h0 hu => by
        have : t ∈ functionCallRe.run s := mem_callRe.2 ⟨u, he, h0, hu⟩
        rw [hr] at this; exact absurd this (by simp)
      cases s with
      | nil =>
        simp only [List.drop_nil]
        constructor
        · intro hm
          have : ∀ f, findCalls f [] = [] := by
            intro f; induction f with
            | zero => rfl
            | succ f ih => rw [findCalls, hr]; simpa using ih
          rw [this] at hm; cases hm
        · rintro ⟨pre, post, he, _⟩; simp at he
      | cons c s =>
        simp only [List.length_cons] at h
        simp only [List.drop_succ_cons, List.drop_zero, mem_findCalls f s (by omega), callIn_skip hn]

theorem isInfix_iff (a : Str) : ∀ s, isInfix a s = true ↔ ∃ pre post, s = pre ++ a ++ post
  | [] => by
    simp only [isInfix, List.isEmpty_iff]
    constructor
    · rintro rfl; exact ⟨[], [], rfl⟩
    · rintro ⟨pre, post, h⟩
      have := congrArg List.length h
      simp at this
      exact List.eq_nil_of_length_eq_zero (by omega)
  | c :: s => by
    simp only [isInfix, Bool.or_eq_true, List.isPrefixOf_iff_prefix, isInfix_iff a s]
    constructor
    · rintro (⟨post, h⟩ | ⟨pre, post, rfl⟩)
      · exact ⟨[], post, by simp [h]⟩
      · exact ⟨c :: pre, post, rfl⟩
    · rintro ⟨pre, post, h⟩
      cases pre with
      | nil => exact .inl ⟨post, by simp [h]⟩
      | cons d pre =>
        simp only [List.cons_append, List.cons.injEq] at h
        exact .inr ⟨pre, post, h.2⟩

theorem anyAggregate_iff (al : Option (List Str)) : ∀ ps : List Val, anyAggregate al ps = true ↔
    (∃ c, Val.column c ∈ ps ∧ c.name ∈ al.getD []) ∨ ∃ p ∈ ps, isAggregate al p = true
  | [] => by simp [anyAggregate]
  | p :: ps => by
    have ih := anyAggregate_iff al ps
    cases p with
    | column c =>
      simp only [anyAggregate, Bool.or_eq_true, ih, List.contains_iff_mem, List.mem_cons]
      constructor
      · rintro (h | ⟨d, h, h'⟩ | ⟨q, h, h'⟩)
        · exact .inl ⟨c, .inl rfl, h⟩
        · exact .inl ⟨d, .inr h, h'⟩
        · exact .inr ⟨q, .inr h, h'⟩
      · rintro (⟨d, h | h, h'⟩ | ⟨q, rfl | h, h'⟩)
        · cases h; exact .inl h'
        · exact .inr (.inl ⟨d, h, h'⟩)
        · simp [isAggregate] at h'
        · exact .inr (.inr ⟨q, h, h'⟩)
    | _ =>
      simp only [anyAggregate, Bool.or_eq_true, ih, List.mem_cons]
      constructor
      · rintro (h | ⟨d, h, h'⟩ | ⟨q, h, h'⟩)
        · exact .inr ⟨_, .inl rfl, h⟩
        · exact .inl ⟨d, .inr h, h'⟩
        · exact .inr ⟨q, .inr h, h'⟩
      · rintro (⟨d, h | h, h'⟩ | ⟨q, h | h, h'⟩)
        · cases h
        · exact .inr (.inl ⟨d, h, h'⟩)
        · subst h; exact .inl h'
        · exact .inr (.inr ⟨q, h, h'⟩)

theorem FnIn.trans {f g h : Val} (a : FnIn f g) (b : FnIn g h) : FnIn f h := by
  induction b with
  | self => exact a
  | param _ hp hc ih => exact .param ih hp hc

theorem fnIn_cases {isFn name ik inits pk params nm} {g : Val}
    (h : FnIn (.curried isFn name ik inits pk params nm) g) :
    g = .curried isFn name ik inits pk params nm ∨ ∃ p ∈ params, p.isCurried = true ∧ FnIn p g := by
  generalize hf : Val.curried isFn name ik inits pk params nm = f at h
  induction h with
  | self => exact .inl rfl
  | param h hp hc ih =>
    rcases ih with ih | ⟨q, hq, hq', ih⟩
    · rw [← hf] at ih; cases ih; exact .inr ⟨_, hp, hc, .self _⟩
    · exact .inr ⟨q, hq, hq', .param ih hp hc⟩

end Verif
