import Verif.Model.MqlMessages

/-!
# Specification: the order in which the nodes of a parse tree are looked at

Each node after its children, and the children from left to right.
-/

namespace Verif.Spec

mutual
/-- The nodes of a tree, each after its children. -/
def postorder {ρ : Type} : Node ρ → List (Node ρ)
  | .node r t cs => postorderAll cs ++ [.node r t cs]

/-- The nodes of several trees, one tree after the other. -/
def postorderAll {ρ : Type} : List (Node ρ) → List (Node ρ)
  | [] => []
  | n :: ns => postorder n ++ postorderAll ns
end

section
variable [PyText] [PyShow] [PyUnicode]

/-- The method for the node raises, given the results for its children. -/
def OwnRaise (n : Node Rule) (r : Raised) : Prop :=
  ∃ k t cs vs, n = .node (some k) t cs ∧ cs.map visitNodeMsg = vs.map .ok ∧ visitRuleMsg k t vs = .error r

/-- The node can be visited. -/
def Visited (n : Node Rule) : Prop := ∃ v, visitNodeMsg n = .ok v

/-- Among the nodes in the order of the visit, the first that cannot be visited raises this itself. -/
def FirstRaise (ns : List (Node Rule)) (r : Raised) : Prop :=
  ∃ before n after, ns = before ++ n :: after ∧ (∀ m ∈ before, Visited m) ∧ OwnRaise n r

end

end Verif.Spec
