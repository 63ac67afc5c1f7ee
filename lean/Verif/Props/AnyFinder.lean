import Verif.Lemmas.AnyFinder
import Verif.Lemmas.Examples

/-!
# C97: the finder for an arbitrary class

`ExpressionFinder` of snuba_sdk/visitors.py:338-443.
-/

namespace Verif

open Spec

/-- The result has the outermost objects of the class, and nothing else. -/
theorem C97_found (t : FindClass) (v : Val) (xs : List Val) (h : find t v = .ok xs) (y : Val) : y ∈ xs ↔ Outermost t v y :=
  (AnyFinder.good t v xs h y).1

/-- Whatever is found is of the class that was asked for, and is not a condition or a number of a query. -/
theorem C97_class (t : FindClass) (v : Val) (xs : List Val) (h : find t v = .ok xs) (y : Val) (hy : y ∈ xs) : InClass t y ∧ ¬ Transparent y :=
  AnyFinder.outermost_class ((AnyFinder.good t v xs h y).1.1 hy)

/-- A search for conditions or for boolean conditions finds nothing, whatever it is given. -/
theorem C97_no_conditions (t : FindClass) (ht : t = .condition ∨ t = .boolean) (v : Val) (xs : List Val) (h : find t v = .ok xs) : xs = [] := by
  cases xs with
  | nil => rfl
  | cons y ys =>
    obtain ⟨h1, h2⟩ := C97_class t v _ h y (by simp)
    rcases ht with rfl | rfl
    · cases h1; exact absurd (.cond ..) h2
    · cases h1; exact absurd (.boolCond ..) h2

/-- An object without a hash cannot be found: the search for it raises. -/
theorem C97_unhashable (t : FindClass) (v y : Val) (ho : Outermost t v y) (hu : Unhashable y) : ∃ e, find t v = .error e := by
  cases h : find t v with
  | error e => exact ⟨e, rfl⟩
  | ok xs => exact absurd hu ((AnyFinder.good t v xs h y).2 ((AnyFinder.good t v xs h y).1.2 ho))

/-- The search for columns agrees with `findColumns`, the model of the one search the SDK makes: the same columns in the same order. -/
theorem C97_columns (v : Val) (xs : List Val) (h : find .column v = .ok xs) : ∃ cs, findColumns v = .ok cs ∧ xs = cs.map .column :=
  AnyFinder.columns v xs h

/-- An expression that was constructed, other than `Extrapolate`, can be searched for a class exactly if the outermost objects of the class in
it have hashes; if one has not, the exception is a `TypeError`. -/
theorem C97_returns [PyUnicode] (t : FindClass) (v : Val) (hb : Built v) (he : Spec.Expr v) (hx : ∀ b, v ≠ .extrapolate b) :
    ((∃ xs, find t v = .ok xs) ↔ ∀ y, Outermost t v y → ¬ Unhashable y) ∧ ∀ e, find t v = .error e → e = .typeError := by
  rcases AnyFinder.wf_ends t (built_wf hb) (.inl ⟨he, hx⟩) with ⟨xs, h⟩ | ⟨h, y, hy, hu⟩
  · refine ⟨⟨fun _ y hy => (AnyFinder.good t v xs h y).2 ((AnyFinder.good t v xs h y).1.2 hy), fun _ => ⟨xs, h⟩⟩, fun e h' => ?_⟩
    rw [h] at h'
    cases h'
  · rw [h]
    refine ⟨⟨fun ⟨_, h⟩ => (by cases h), fun hn => absurd hu (hn y hy)⟩, fun e h' => ?_⟩
    cases h'
    rfl

/-! ## Cases that meet the hypotheses -/

private def finderInner : Val := .curried true c!"g" .tuple [] .tuple [.column ⟨c!"b", none, none, none⟩] none

private def finderOuter : Val := .curried true c!"f" .tuple [] .tuple [.column ⟨c!"a", none, none, none⟩, finderInner] none

private def finderCond : Val := .cond finderOuter .eq finderInner

private def finderListed : Val := .curried true c!"f" .tuple [] .list [.int 1] none

example : find .function finderCond = .ok [finderOuter, finderInner] := by rfl

/-- Below a function that is taken nothing is looked for. -/
example : ¬ Outermost .function finderOuter finderInner := by
  rw [← C97_found .function finderOuter [finderOuter] (by rfl)]
  simp [finderOuter, finderInner]

example : Outermost .function finderCond finderInner := (C97_found _ _ _ (by rfl : find .function finderCond = .ok [finderOuter, finderInner]) _).1 (by simp)

example : InClass .function finderInner ∧ ¬ Transparent finderInner :=
  C97_class .function finderCond [finderOuter, finderInner] (by rfl) _ (by simp)

example : ∃ xs, find .condition finderCond = .ok xs ∧ xs = [] := ⟨_, by rfl, C97_no_conditions .condition (.inl rfl) finderCond _ (by rfl)⟩

example : ∃ e, find .function (.cond finderListed .eq (.int 1)) = .error e :=
  C97_unhashable .function _ finderListed (.left (.self (.function ..) (by intro h; cases h))) (.parameterList ..)

example : ∃ cs, findColumns finderCond = .ok cs ∧
    [Val.column ⟨c!"a", none, none, none⟩, .column ⟨c!"b", none, none, none⟩, .column ⟨c!"b", none, none, none⟩] = cs.map .column :=
  C97_columns finderCond _ (by rfl)

/-- `count(x) AS n`, with its parameters in a list, can be searched for columns. -/
example : (∀ y, Outermost .column Ex.count y → ¬ Unhashable y) :=
  (@C97_returns asciiUnicode .column Ex.count Ex.count_built (.curried ..) (fun _ h => by cases h)).1.1 ⟨_, by rfl⟩

/-- It cannot be searched for functions. -/
example : ¬ ∃ xs, find .function Ex.count = .ok xs := fun h =>
  (@C97_returns asciiUnicode .function Ex.count Ex.count_built (.curried ..) (fun _ h => by cases h)).1.1 h Ex.count
    (.self (.function ..) (by intro h; cases h)) (.parameterList ..)

end Verif
