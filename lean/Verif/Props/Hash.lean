import Verif.Lemmas.Hash
import Verif.Props.Equal

/-!
# C64: hashes of expressions
-/

namespace Verif
open Spec

/-- **C64.** Equal values have equal hashes (or both cannot be hashed), so a set or a dictionary takes them for one key, if all
functions in them are `Function`s or no function has an alias. -/
theorem C64_equal_hashes (a b : Val) (h : pyEq a b = true) (hf : (OnlyFunctions a ∧ OnlyFunctions b) ∨ (NoAliases a ∧ NoAliases b)) :
    hashTree a = hashTree b := pyEq_hash a b h hf

/-- **C64.** `hash` fails exactly on the values that hold a list or a data model, and then with a TypeError. -/
theorem C64_hashable (v : Val) : ((∃ t, hashTree v = .ok t) ↔ ¬ Unhashable v) ∧ ∀ e, hashTree v = .error e → e = .typeError :=
  ⟨hashTree_ok v, fun _ h => hashTree_error v h⟩

/-- **C64.** The alias of a `CurriedFunction` is ignored when it is compared, but not when it is hashed: two functions that differ
in their aliases only are equal, and what they are hashed by is different. -/
theorem C64_curried_alias_hashed [U : PyUnicode] (name inits params : Val) (s t : Str) (hst : s ≠ t) (a b : Val) (x y : HashTree)
    (ha : mkCurried name inits params (.str s) = .ok a) (hb : mkCurried name inits params (.str t) = .ok b) (hn : NoNans a)
    (hx : hashTree a = .ok x) (hy : hashTree b = .ok y) : pyEq a b = true ∧ x ≠ y := by
  refine ⟨(C63_curried_alias_ignored name inits params s t hst a b ha hb hn).1, ?_⟩
  simp only [mkCurried, bind_eq_ok, Except.ok.injEq] at ha hb
  obtain ⟨⟨n1, i1, p1, a1⟩, ha, rfl⟩ := ha
  obtain ⟨⟨n2, i2, p2, a2⟩, hb, rfl⟩ := hb
  obtain ⟨e1, -, -, -, -, e5⟩ := checkCurried_alias ha hb
  have e6 := e5 t rfl
  simp only [Prod.mk.injEq, true_and] at e1 e6
  subst e1 e6
  simp only [hashTree, bind_eq_ok, Except.ok.injEq] at hx hy
  obtain ⟨_, _, _, _, _, _, _, _, rfl⟩ := hx
  obtain ⟨_, _, _, _, _, _, _, _, rfl⟩ := hy
  intro h
  simp only [HashTree.fields, optHash, HashTree.seq.injEq, List.cons.injEq, HashTree.text.injEq] at h
  exact hst h.2.2.2.2.1

section Examples
attribute [local instance] asciiUnicode

private def exSampled (f : PyFloat) : Val := .tuple [.column ⟨c!"a", some ⟨c!"events", none, some f, none⟩, none, none⟩, .bool true]

/-- `(Column("a", Entity("events", sample=1.0)), True)` and the same with the number 1 for `True`. -/
example : hashTree (exSampled (.fin ⟨false, 1, 0, rfl⟩)) =
    hashTree (.tuple [.column ⟨c!"a", some ⟨c!"events", none, some (.fin ⟨false, 1, 0, rfl⟩), none⟩, none, none⟩, .int 1]) := by
  refine C64_equal_hashes _ _ (by decide +kernel) (.inl ⟨?_, ?_⟩) <;>
  · intro x hx f n ik is pk ps a e
    subst e
    cases hx with
    | tuple _ y hy h =>
      rcases List.mem_cons.1 hy with rfl | hy
      · cases h
      · rw [List.mem_singleton] at hy; subst hy; cases h

/-- A function with a list of parameters cannot be hashed; with a tuple it can. -/
example : ¬ (∃ t, hashTree (.curried true c!"count" .absent [] .list [] none) = .ok t) :=
  fun h => (C64_hashable _).1.1 h (.parameterList ..)
example : ∃ t, hashTree (.curried true c!"count" .absent [] .tuple [.float .nan] none) = .ok t := ⟨_, rfl⟩

example : ∃ a b x y, mkCurried (.str c!"quantile") (.tuple [.int 2]) (.tuple []) (.str c!"x") = .ok a ∧
    mkCurried (.str c!"quantile") (.tuple [.int 2]) (.tuple []) (.str c!"y") = .ok b ∧ hashTree a = .ok x ∧ hashTree b = .ok y ∧
    pyEq a b = true ∧ x ≠ y := by
  refine ⟨_, _, _, _, rfl, rfl, rfl, rfl,
    C64_curried_alias_hashed (.str c!"quantile") (.tuple [.int 2]) (.tuple []) c!"x" c!"y" (by decide) _ _ _ _ rfl rfl ?_ rfl rfl⟩
  intro x hx
  cases hx with
  | here => exact ⟨by simp, by simp [ownSamples, ownEntities]⟩
  | init _ _ _ _ _ _ _ y hy h =>
    rw [List.mem_singleton] at hy
    subst hy
    cases h
    exact ⟨by simp, by simp [ownSamples, ownEntities]⟩
  | param _ _ _ _ _ _ _ y hy => cases hy

end Examples

end Verif
