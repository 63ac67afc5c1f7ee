import Verif.Lemmas.Equal
import Verif.Model.Function
import Verif.Model.Conditions

/-!
# C63: equality of expressions
-/

namespace Verif
open Spec

/-- **C63.** Every value without NaN is equal to itself. -/
theorem C63_reflexive (v : Val) (h : NoNans v) : pyEq v v = true := pyEq_refl v h

/-- **C63.** Equality does not depend on the order. -/
theorem C63_symmetric (a b : Val) : pyEq a b = pyEq b a := by
  cases h : pyEq a b
  · cases h' : pyEq b a
    · rfl
    · rw [pyEq_symm b a h'] at h; exact h.symm
  · exact (pyEq_symm a b h).symm

/-- **C63.** Two values that are equal to a third one are equal, if no function in the third is a `CurriedFunction`, or if no function
in the two has an alias. -/
theorem C63_transitive (a b c : Val) (hb : OnlyFunctions b ∨ (NoAliases a ∧ NoAliases c)) (h : pyEq a b = true) (h' : pyEq b c = true) :
    pyEq a c = true :=
  pyEq_trans_either b a c hb h h'

section
variable [U : PyUnicode]

/-- What a checked function consists of, apart from its alias. -/
theorem checkCurried_alias {n i p : Val} {s : Str} {r r' : Str × (SeqKind × List Val) × (SeqKind × List Val) × Option Str} {y : Val}
    (h : checkCurried n i p (.str s) = .ok r) (h' : checkCurried n i p y = .ok r') :
    r = (r.1, r.2.1, r.2.2.1, some s) ∧ r'.1 = r.1 ∧ r'.2.1 = r.2.1 ∧ r'.2.2.1 = r.2.2.1 ∧ (y = .none → r'.2.2.2 = none) ∧ ∀ t, y = .str t → r'.2.2.2 = some t := by
  have al : ∀ {v : Val} {a : Option Str}, checkAlias v .invalidFunction = .ok a → (v = .none → a = none) ∧ ∀ t, v = .str t → a = some t := by
    intro v a h
    unfold checkAlias at h
    constructor
    · rintro rfl
      simp only [Except.ok.injEq] at h
      exact h.symm
    · rintro t rfl
      simp only at h
      split at h
      · cases h
      · split at h
        · cases h; rfl
        · cases h
  simp only [checkCurried, bind_eq_ok, Except.ok.injEq] at h h'
  obtain ⟨n1, h1, _, _, i1, h2, a1, h3, p1, h4, rfl⟩ := h
  obtain ⟨n2, h1', _, _, i2, h2', a2, h3', p2, h4', rfl⟩ := h'
  rw [h1] at h1'
  rw [h2] at h2'
  rw [h4] at h4'
  cases h1'; cases h2'; cases h4'
  rw [(al h3).2 s rfl]
  exact ⟨rfl, rfl, rfl, rfl, (al h3').1, (al h3').2⟩

/-- **C63.** A `CurriedFunction` without initializers is equal to the `Function`s with the same name and parameters, whatever
their aliases, and these are not equal to each other: equality is not transitive. -/
theorem C63_not_transitive (name params : Val) (s t : Str) (hst : s ≠ t) (a b c : Val) (ha : mkFunction name params (.str s) = .ok a)
    (hb : mkCurried name .none params .none = .ok b) (hc : mkFunction name params (.str t) = .ok c) (hn : NoNans b) :
    pyEq a b = true ∧ pyEq b c = true ∧ pyEq a c = false := by
  simp only [mkFunction, mkCurried, bind_eq_ok, Except.ok.injEq] at ha hb hc
  obtain ⟨⟨n1, i1, p1, a1⟩, ha, rfl⟩ := ha
  obtain ⟨⟨n2, i2, p2, a2⟩, hb, rfl⟩ := hb
  obtain ⟨⟨n3, i3, p3, a3⟩, hc, rfl⟩ := hc
  obtain ⟨e1, e2, e3, e4, -, -⟩ := checkCurried_alias ha hb
  obtain ⟨-, e5, e6, e7, -, e8⟩ := checkCurried_alias ha hc
  have e9 := e8 t rfl
  simp only [Prod.mk.injEq, true_and] at e1 e2 e3 e4 e5 e6 e7 e9
  subst e1 e2 e3 e4 e5 e6 e7 e9
  have hr := pyEq_refl _ hn
  simp only [pyEq, Bool.and_eq_true] at hr
  refine ⟨?_, ?_, ?_⟩
  · simp [pyEq, hr.1.1.2.2, hr.1.2.2]
  · simp [pyEq, hr.1.1.2.2, hr.1.2.2]
  · simp [pyEq, hst]

/-- **C63.** Two `CurriedFunction`s that differ only in their aliases are equal, and are printed as different texts. -/
theorem C63_curried_alias_ignored (name inits params : Val) (s t : Str) (hst : s ≠ t) (a b : Val)
    (ha : mkCurried name inits params (.str s) = .ok a) (hb : mkCurried name inits params (.str t) = .ok b) (hn : NoNans a) :
    pyEq a b = true ∧ ∀ cfg x y, translate cfg a = .ok x → translate cfg b = .ok y → x ≠ y := by
  simp only [mkCurried, bind_eq_ok, Except.ok.injEq] at ha hb
  obtain ⟨⟨n1, i1, p1, a1⟩, ha, rfl⟩ := ha
  obtain ⟨⟨n2, i2, p2, a2⟩, hb, rfl⟩ := hb
  obtain ⟨e1, e2, e3, e4, -, e5⟩ := checkCurried_alias ha hb
  have e6 := e5 t rfl
  simp only [Prod.mk.injEq, true_and] at e1 e2 e3 e4 e6
  subst e1 e2 e3 e4 e6
  have hr := pyEq_refl _ hn
  simp only [pyEq, Bool.and_eq_true] at hr
  refine ⟨by simp [pyEq, hr.1.1.2.2, hr.1.2.2], ?_⟩
  intro cfg x y hx hy e
  simp only [translate, bind_eq_ok, Except.ok.injEq] at hx hy
  obtain ⟨i, h1, p, h2, rfl⟩ := hx
  obtain ⟨i', h1', p', h2', rfl⟩ := hy
  rw [h1] at h1'; rw [h2] at h2'
  cases h1'; cases h2'
  simp [aliasClause] at e
  exact hst e

end

/-- **C63.** Equal values are printed as the same text (or fail with the same error), in SnQL and in MQL, if no bools or whole floats
occur in them, the sampling rates are not zero, and either all functions are `Function`s or no function has an alias. -/
theorem C63_prints_alike (cfg : Cfg) (a b : Val) (h : pyEq a b = true) (ha : Ordinary a) (hb : Ordinary b)
    (hf : (OnlyFunctions a ∧ OnlyFunctions b) ∨ (NoAliases a ∧ NoAliases b)) : translate cfg a = translate cfg b :=
  pyEq_prints cfg a b h ha hb hf

section Examples

attribute [local instance] asciiUnicode

/-- `Condition(Function("toHour", [Column("time")]), Op.EQ, v)`. -/
private def exCond (v : Val) : Val :=
  .cond (.curried true c!"toHour" .absent [] .list [.column ⟨c!"time", none, none, none⟩] (some c!"hour")) .eq v

private theorem exParts {P : Val → Prop} {v : Val} (h1 : P (exCond v)) (h2 : P (.column ⟨c!"time", none, none, none⟩))
    (h3 : P (.curried true c!"toHour" .absent [] .list [.column ⟨c!"time", none, none, none⟩] (some c!"hour"))) (h4 : ∀ x, Part x v → P x) :
    ∀ x, Part x (exCond v) → P x := by
  intro x hx
  cases hx with
  | here => exact h1
  | lhs _ _ _ h =>
    cases h with
    | here => exact h3
    | init _ _ _ _ _ _ _ y hy => cases hy
    | param _ _ _ _ _ _ _ y hy h =>
      rw [List.mem_singleton] at hy
      subst hy
      cases h
      exact h2
  | rhs _ _ _ h => exact h4 x h

/-- 14:00+02:00 and 12:00 UTC on the same day. -/
private def exTwo : Datetime := ⟨⟨2024, 2, 29, rfl⟩, 14, 0, 0, 0, some (some 7200000000), rfl⟩
private def exTwelve : Datetime := ⟨⟨2024, 2, 29, rfl⟩, 12, 0, 0, 0, some (some 0), rfl⟩

example : pyEq (exCond (.datetime exTwo)) (exCond (.datetime exTwo)) = true :=
  C63_reflexive _ (exParts ⟨by simp [exCond], by simp [exCond, ownSamples, ownEntities]⟩ ⟨by simp, by simp [ownSamples, ownEntities]⟩
    ⟨by simp, by simp [ownSamples, ownEntities]⟩ (by intro x hx; cases hx; exact ⟨by simp, by simp [ownSamples, ownEntities]⟩))

example : pyEq (.int 1) (.float (.fin ⟨false, 1, 0, rfl⟩)) = pyEq (.float (.fin ⟨false, 1, 0, rfl⟩)) (.int 1) := C63_symmetric _ _

/-- `[1]` and `[1.0]` are both equal to `[True]`. -/
example : pyEq (.list [.int 1]) (.list [.float (.fin ⟨false, 1, 0, rfl⟩)]) = true :=
  C63_transitive _ (.list [.bool true]) _ (.inl (by
    intro x hx f n ik is pk ps a e
    subst e
    cases hx with
    | list _ y hy h => rw [List.mem_singleton] at hy; subst hy; cases h)) (by decide +kernel) (by decide +kernel)

example : ∃ a b c, mkFunction (.str c!"count") (.list []) (.str c!"x") = .ok a ∧ mkCurried (.str c!"count") .none (.list []) .none = .ok b ∧
    mkFunction (.str c!"count") (.list []) (.str c!"y") = .ok c ∧ pyEq a b = true ∧ pyEq b c = true ∧ pyEq a c = false := by
  refine ⟨_, _, _, rfl, rfl, rfl, C63_not_transitive (.str c!"count") (.list []) c!"x" c!"y" (by decide) _ _ _ rfl rfl rfl ?_⟩
  intro x hx
  cases hx with
  | here => exact ⟨by simp, by simp [ownSamples, ownEntities]⟩
  | init _ _ _ _ _ _ _ y hy => cases hy
  | param _ _ _ _ _ _ _ y hy => cases hy

example : ∃ a b, mkCurried (.str c!"quantile") (.list [.int 2]) (.list []) (.str c!"x") = .ok a ∧
    mkCurried (.str c!"quantile") (.list [.int 2]) (.list []) (.str c!"y") = .ok b ∧ pyEq a b = true ∧
    translate .snql a = .ok c!"quantile(2)() AS `x`" ∧ translate .snql b = .ok c!"quantile(2)() AS `y`" := by
  refine ⟨_, _, rfl, rfl, (C63_curried_alias_ignored (.str c!"quantile") (.list [.int 2]) (.list []) c!"x" c!"y" (by decide) _ _ rfl rfl ?_).1, rfl, rfl⟩
  intro x hx
  cases hx with
  | here => exact ⟨by simp, by simp [ownSamples, ownEntities]⟩
  | init _ _ _ _ _ _ _ y hy h =>
    rw [List.mem_singleton] at hy
    subst hy
    cases h
    exact ⟨by simp, by simp [ownSamples, ownEntities]⟩
  | param _ _ _ _ _ _ _ y hy => cases hy

private theorem exOrdinary (t : Datetime) (ht : t.tz ≠ some none) : Ordinary (exCond (.datetime t)) := by
  refine exParts ⟨?_, by simp [exCond, ownSamples, ownEntities], by simp [exCond]⟩ ⟨?_, by simp [ownSamples, ownEntities], by simp⟩
    ⟨?_, by simp [ownSamples, ownEntities], by simp⟩ ?_
  · rintro ⟨⟩
  · rintro ⟨⟩
  · rintro ⟨⟩
  · intro x hx
    cases hx
    refine ⟨?_, by simp [ownSamples, ownEntities], ?_⟩
    · rintro ⟨⟩
    · rintro _ ⟨⟩; exact ht

private theorem exOnly (t : Datetime) : OnlyFunctions (exCond (.datetime t)) := by
  refine exParts ?_ ?_ ?_ ?_
  · rintro f n ik is pk ps a ⟨⟩
  · rintro f n ik is pk ps a ⟨⟩
  · rintro f n ik is pk ps a ⟨⟩; rfl
  · intro x hx
    cases hx
    rintro f n ik is pk ps a ⟨⟩

/-- The same instant in two time zones: equal conditions, and the same text. -/
example : translate .snql (exCond (.datetime exTwo)) = translate .snql (exCond (.datetime exTwelve)) :=
  C63_prints_alike .snql _ _ (by decide +kernel) (exOrdinary _ (by decide)) (exOrdinary _ (by decide)) (.inl ⟨exOnly _, exOnly _⟩)

/-- Bools are equal to ints, but are printed differently. -/
example : pyEq (exCond (.bool true)) (exCond (.int 1)) = true ∧ translate .snql (exCond (.bool true)) ≠ translate .snql (exCond (.int 1)) := by
  decide +kernel

end Examples

end Verif
