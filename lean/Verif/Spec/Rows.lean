import Verif.Spec.QueryRead
import Verif.Spec.Equal

/-!
# Specification: for which rows the recipient of a text finds its conditions true

The recipient knows trees only. It evaluates the conditions it read from the text in Kleene logic, where `x IN array(v1, …, vn)` means
`x = v1 OR … OR x = vn`, over any interpretation of words, calls and the remaining operators.
-/

namespace Verif.Spec

/-- How the recipient evaluates trees at one row: the value of every tree, equality of values, and the truth of comparisons with the
remaining operators. -/
structure Server (D : Type) where
  val : STree → D
  eq : D → D → Tri
  other : STree → Op → Option STree → Tri

/-- Conjunction of a list. -/
def Tri.all : List Tri → Tri
  | [] => .yes
  | t :: ts => t.and (all ts)

/-- Truth of a comparison of two trees. -/
def Server.compare {D : Type} (J : Server D) (l : STree) (o : Op) (r : STree) : Tri :=
  match o, r with
  | .eq, r => J.eq (J.val l) (J.val r)
  | .in_, .apply (.word w) rs =>
    if w = c!"array" ∨ w = c!"tuple" then Tri.any (rs.map fun r => J.eq (J.val l) (J.val r))
    else J.other l .in_ (some (.apply (.word w) rs))
  | o, r => J.other l o (some r)

mutual
/-- Truth of a condition read from a text; none if an operand cannot be read. -/
def Server.truth {D : Type} (J : Server D) : BTree → Option Tri
  | .leaf l o none => (readExpression l).map fun l => J.other l o none
  | .leaf l o (some r) => (readExpression l).bind fun l => (readExpression r).map fun r => J.compare l o r
  | .node .and ts => (J.truths ts).map Tri.all
  | .node .or ts => (J.truths ts).map Tri.any

/-- Truth of several conditions. -/
def Server.truths {D : Type} (J : Server D) : List BTree → Option (List Tri)
  | [] => some []
  | t :: ts => (J.truth t).bind fun x => (J.truths ts).map (x :: ·)
end

/-- Truth of an optional clause; without the clause every row qualifies. -/
def Server.clause {D : Type} (J : Server D) : Option BTree → Option Tri
  | none => some .yes
  | some t => J.truth t

/-- The recipient and the sender mean the same: every unambiguous expression has the value of any tree that says it, and the remaining
operators do the same. -/
structure Understands {D : Type} (useAliases : Bool) (J : Server D) (I : Interp D) : Prop where
  val : ∀ v t, UnambiguousVal useAliases v → Says useAliases v t → J.val t = I.val v
  eq : ∀ a b, J.eq a b = I.eq a b
  unary : ∀ l o r tl, o = .isNull ∨ o = .isNotNull → UnambiguousVal useAliases l → Says useAliases l tl →
    J.other tl o none = I.other l o r
  binary : ∀ l o r tl tr, o ≠ .eq → o ≠ .isNull → o ≠ .isNotNull → UnambiguousVal useAliases l → UnambiguousVal useAliases r →
    Says useAliases l tl → Says useAliases r tr → J.other tl o (some tr) = I.other l o r

/-- The clause in the text holds for the same rows as the sequence of conditions that it was made from (None and no conditions are no
restriction), whatever expressions and operators mean, as long as equal left-hand sides in an Or have the same value. -/
def FiltersAlike (useAliases : Bool) (v : Val) (t : Option BTree) : Prop :=
  ∀ {D : Type} (J : Server D) (I : Interp D), Understands useAliases J I →
    (v = .none → J.clause t = some .yes) ∧
    ∀ k xs, SeqOf v k xs → EqualSidesAgree I xs → J.clause t = some (I.evalAll xs)

/-- At every level of the query, the where and having clauses hold for the same rows. -/
inductive SameRows : Query → QTree → Prop
  | base (j m b mt ct) : (j = true ↔ ∃ k rels, m = .join k rels) → FiltersAlike j b.where_ ct.where_ → FiltersAlike j b.having ct.having →
      SameRows (.base m b) (.base mt ct)
  | nested (q b qt ct) : SameRows q qt → FiltersAlike false b.where_ ct.where_ → FiltersAlike false b.having ct.having →
      SameRows (.nested q b) (.nested qt ct)

/-- The left-hand sides of equalities in an Or are ordinary printable expressions without function aliases. -/
def PlainSides (xs : List Val) : Prop :=
  ∀ cls k cs l r, Val.boolCond cls .or k cs ∈ xs → Val.cond l .eq r ∈ cs → Ordinary l ∧ NoAliases l ∧ Clean l

end Verif.Spec
