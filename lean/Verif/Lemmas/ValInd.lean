import Verif.Model.Val

/-!
# Induction over values
-/

namespace Verif

/-- The direct subvalues of a value. -/
def Val.children : Val → List Val
  | .list xs => xs
  | .tuple xs => xs
  | .curried _ _ _ is _ ps _ => is ++ ps
  | .lam _ _ b => [b]
  | .cond l _ r => [l, r]
  | .boolCond _ _ _ cs => cs
  | .orderby e _ => [e]
  | _ => []

/-- Induction: a property that passes from the direct subvalues to the value holds everywhere. -/
theorem Val.childInd {P : Val → Prop} (step : ∀ v, (∀ x ∈ v.children, P x) → P v) : ∀ v, P v := by
  intro v
  refine Val.rec (motive_1 := P) (motive_2 := fun xs => ∀ x ∈ xs, P x) ?_ ?_ ?_ ?_ ?_ ?_ ?_ ?_ ?_ ?_ ?_ ?_
    ?_ ?_ ?_ ?_ ?_ ?_ ?_ ?_ ?_ ?_ ?_ ?_ ?_ ?_ ?_ ?_ ?_ ?_ ?_ ?_ ?_ ?_ ?_ v
  all_goals intros
  all_goals first
    | (apply step; intro x hx; simp only [Val.children, List.not_mem_nil] at hx; done)
    | (apply step; intro x hx; simp only [Val.children, List.mem_append, List.mem_cons, List.not_mem_nil, or_false] at hx
       first
       | (rename_i h; exact h x hx)
       | (rename_i h; subst hx; exact h)
       | (rename_i h1 h2; rcases hx with hx | hx <;> first | (subst hx; assumption) | exact h1 x hx | exact h2 x hx))
    | (rename_i hx; simp at hx; done)
    | skip
  all_goals
    rename_i hd hi ti x hx
    rcases List.mem_cons.1 hx with h | h
    · rw [h]; assumption
    · exact ti x h

end Verif
