import Verif.Py.Peg

/-!
# The expressions of a grammar and how many there are

Specification for C86, apart from the parser.
-/

namespace Verif.Spec

/-- The members of an expression. -/
def Peg.members {ρ : Type} : Peg ρ → List (Peg ρ)
  | .seq ps => ps
  | .alt ps => ps
  | .star p => [p]
  | .opt p => [p]
  | .lit _ => []
  | .re _ => []
  | .rule _ => []

/-- The expression that one reaches from the expression of the rule `r` by going from member to member, the last step
first; `none` if there is no such member. -/
def Peg.reached {ρ : Type} (g : ρ → Peg ρ) (r : ρ) : List Nat → Option (Peg ρ)
  | [] => some (g r)
  | i :: w => (Peg.reached g r w).bind fun p => (Peg.members p)[i]?

mutual
/-- The number of expressions in an expression, itself included; a reference to a rule is not one of its own. -/
def Peg.count {ρ : Type} : Peg ρ → Nat
  | .seq ps => 1 + Peg.countAll ps
  | .alt ps => 1 + Peg.countAll ps
  | .star p => 1 + Peg.count p
  | .opt p => 1 + Peg.count p
  | .lit _ => 1
  | .re _ => 1
  | .rule _ => 0

/-- The number of expressions in several. -/
def Peg.countAll {ρ : Type} : List (Peg ρ) → Nat
  | [] => 0
  | p :: ps => Peg.count p + Peg.countAll ps
end

end Verif.Spec
