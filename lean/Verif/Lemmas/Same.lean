import Verif.Model.Metrics

/-!
# Comparing the values in queries

For the examples: whether two queries are the same can be computed. Only the values that the parser makes are compared.
-/

namespace Verif

mutual
/-- The two values are known to be the same. -/
def sameVal : Val → Val → Bool
  | .none, .none => true
  | .float x, .float y => decide (x = y)
  | .str s, .str t => decide (s = t)
  | .list xs, .list ys => sameVals xs ys
  | .column c, .column d => decide (c = d)
  | .cond l o r, .cond l' o' r' => sameVal l l' && decide (o = o') && sameVal r r'
  | .boolCond c o k xs, .boolCond c' o' k' ys => decide (c = c') && decide (o = o') && decide (k = k') && sameVals xs ys
  | _, _ => false

/-- The same for the items of lists. -/
def sameVals : List Val → List Val → Bool
  | [], [] => true
  | x :: xs, y :: ys => sameVal x y && sameVals xs ys
  | _, _ => false
end

mutual
theorem sameVal_eq (x y : Val) (h : sameVal x y = true) : x = y := by
  unfold sameVal at h
  split at h
  · rfl
  · rw [of_decide_eq_true h]
  · rw [of_decide_eq_true h]
  · rw [sameVals_eq _ _ h]
  · rw [of_decide_eq_true h]
  · simp only [Bool.and_eq_true, decide_eq_true_eq] at h
    rw [sameVal_eq _ _ h.1.1, h.1.2, sameVal_eq _ _ h.2]
  · simp only [Bool.and_eq_true, decide_eq_true_eq] at h
    rw [h.1.1.1, h.1.1.2, h.1.2, sameVals_eq _ _ h.2]
  · cases h
termination_by sizeOf x

theorem sameVals_eq (xs ys : List Val) (h : sameVals xs ys = true) : xs = ys := by
  unfold sameVals at h
  split at h
  · rfl
  · simp only [Bool.and_eq_true] at h
    rw [sameVal_eq _ _ h.1, sameVals_eq _ _ h.2]
  · cases h
termination_by sizeOf xs
end

mutual
/-- The two queries are known to be the same. -/
def sameQuery : MVal → MVal → Bool
  | .val v, .val w => sameVal v w
  | .ts ⟨⟨p, m, i⟩, a, ps, f, g⟩, .ts ⟨⟨p', m', i'⟩, a', ps', f', g'⟩ =>
    sameVal p p' && sameVal m m' && sameVal i i' && sameVal a a' && sameVal ps ps' && sameVal f f' && sameVal g g'
  | .formula n p a f g, .formula n' p' a' f' g' => sameVal n n' && sameQuery p p' && sameVal a a' && sameVal f f' && sameVal g g'
  | .list xs, .list ys => sameQueries xs ys
  | _, _ => false

/-- The same for the parameters of formulas. -/
def sameQueries : List MVal → List MVal → Bool
  | [], [] => true
  | x :: xs, y :: ys => sameQuery x y && sameQueries xs ys
  | _, _ => false
end

mutual
theorem sameQuery_eq (x y : MVal) (h : sameQuery x y = true) : x = y := by
  unfold sameQuery at h
  split at h
  · rw [sameVal_eq _ _ h]
  · simp only [Bool.and_eq_true] at h
    obtain ⟨⟨⟨⟨⟨⟨h1, h2⟩, h3⟩, h4⟩, h5⟩, h6⟩, h7⟩ := h
    rw [sameVal_eq _ _ h1, sameVal_eq _ _ h2, sameVal_eq _ _ h3, sameVal_eq _ _ h4, sameVal_eq _ _ h5, sameVal_eq _ _ h6, sameVal_eq _ _ h7]
  · simp only [Bool.and_eq_true] at h
    obtain ⟨⟨⟨⟨h1, h2⟩, h3⟩, h4⟩, h5⟩ := h
    rw [sameVal_eq _ _ h1, sameQuery_eq _ _ h2, sameVal_eq _ _ h3, sameVal_eq _ _ h4, sameVal_eq _ _ h5]
  · rw [sameQueries_eq _ _ h]
  · cases h
termination_by sizeOf x

theorem sameQueries_eq (xs ys : List MVal) (h : sameQueries xs ys = true) : xs = ys := by
  unfold sameQueries at h
  split at h
  · rfl
  · simp only [Bool.and_eq_true] at h
    rw [sameQuery_eq _ _ h.1, sameQueries_eq _ _ h.2]
  · cases h
termination_by sizeOf xs
end

/-- The computation succeeds, and its result is known to be this query. -/
def gives (r : Except Err MVal) (x : MVal) : Bool :=
  match r with
  | .ok y => sameQuery y x
  | .error _ => false

theorem gives_eq {r : Except Err MVal} {x : MVal} (h : gives r x = true) : r = .ok x := by
  unfold gives at h
  split at h
  · rw [sameQuery_eq _ _ h]
  · cases h

end Verif
