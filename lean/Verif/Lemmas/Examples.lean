import Verif.Lemmas.Query

/-!
# Concrete values used in the examples beside the theorems
-/

namespace Verif.Ex
open Spec

scoped instance : PyUnicode := asciiUnicode

/-- A column without entity. -/
def col (n : Str) : Val := .column ⟨n, none, none, none⟩

/-- `count(x) AS n`. -/
def count : Val := .curried true c!"count" .absent [] .list [col c!"x"] (some c!"n")

theorem col_built (n : Str) (h : mkColumn (.str n) .none = .ok (col n)) :
    Built (col n) :=
  .column (U := asciiUnicode) (.str n) .none _ (.literal _ (.str _)) (.literal _ .none) h

theorem count_built : Built count :=
  .function (U := asciiUnicode) (.str c!"count") (.list [col c!"x"]) (.str c!"n") _ (.literal _ (.str _))
    (.list _ (by intro x hx; simp at hx; subst hx; exact col_built _ rfl)) (.literal _ (.str _)) rfl

theorem col_ok (n : Str) (h : mkColumn (.str n) .none = .ok (col n)) :
    Built (col n) ∧ Expr (col n) ∧ ¬ ModelMismatch (col n) :=
  ⟨col_built n h, .column _, by rintro ⟨_, _, _, _, h, h', _⟩; cases h; cases h'⟩

theorem count_ok : Built count ∧ Expr count ∧ ¬ ModelMismatch count :=
  ⟨count_built, .curried .., by rintro ⟨_, _, _, _, h, _⟩; cases h⟩

/-- A body with the given select list. -/
def body (xs : List Val) : Body := { select := .list xs }

theorem body_built (xs : List Val) (h : ∀ x ∈ xs, Built x ∧ Expr x ∧ ¬ ModelMismatch x) :
    BodyBuilt (body xs) :=
  ⟨.inr ⟨_, _, .list _, h⟩, .inl rfl, .inl rfl, .inl rfl, .inl rfl, .inl rfl, .inl rfl, .inl rfl, .inl rfl, .inl rfl,
    .inl rfl⟩

theorem body_noExtrapolate (xs : List Val) (h : ∀ x ∈ xs, ∀ e, x ≠ .extrapolate e) (e : Bool) :
    ¬ HasItem (body xs) (.extrapolate e) := by
  rintro (⟨v, hv, k, ys, hs, hx⟩ | hx)
  · simp [body] at hv
    rcases hv with rfl | rfl
    · cases hs; exact h _ hx e rfl
    · cases hs
  · simp [body] at hx

theorem body_complete' (x : Val) (xs : List Val) : Complete (body (x :: xs)) :=
  ⟨⟨_, _, .list _, by simp⟩, .inl rfl⟩

/-- The match used in the examples. -/
def events : EntityObj := ⟨c!"events", some c!"e", none, none⟩

/-- The subquery `MATCH (e: events) SELECT a, count(x) AS n`. -/
def inner : Query := .base (.entity events) (body [col c!"a", count])

/-- The join `(e: events) -[has]-> (g: groups)`. -/
def rel : RelObj := ⟨events, c!"has", ⟨c!"groups", some c!"g", none, none⟩⟩

end Verif.Ex
