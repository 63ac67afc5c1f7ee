import Verif.Lemmas.Peg
import Verif.Model.MqlVisitor

/-!
# The MQL grammar satisfies the static conditions of the engine
-/

namespace Verif

/-- The rules that may match nothing. -/
def ruleNullable (r : Rule) : Bool := r == .space

/-- Nesting of calls before text is consumed, per rule. -/
def ruleRank : Rule → Nat
  | .expression => 18 | .exprOp => 2 | .term => 16 | .termOp => 2 | .unary => 14 | .unaryOp => 1
  | .coefficient => 12 | .number => 2 | .filter => 10 | .filterExpr => 10 | .filterTerm => 8
  | .filterFactor => 6 | .nestedExpr => 3 | .conditionOp => 1 | .jointOperator => 4 | .tagKey => 1
  | .tagValue => 5 | .suffixWildcard => 3 | .quotedSuffixWildcard => 3 | .quotedStringFilter => 1
  | .unquotedStringFilter => 1 | .stringTuple => 3 | .quotedString => 1 | .unquotedString => 1
  | .target => 8 | .variable_ => 2 | .nestedExpression => 3 | .function => 6 | .aggregate => 3
  | .aggregateName => 1 | .arbitraryFunction => 3 | .arbitraryFunctionName => 1 | .curriedAggregate => 3
  | .curriedAggregateName => 1 | .curriedArbitraryFunction => 3 | .curriedArbitraryFunctionName => 1
  | .aggregateList => 9 | .param => 6 | .paramExpression => 4 | .groupBy => 3 | .groupByName => 1
  | .groupByNameTuple => 3 | .innerFilter => 7 | .metric => 5 | .quotedMri => 3 | .lenientMri => 1
  | .unquotedMri => 1 | .quotedPublicName => 3 | .unquotedPublicName => 1 | .and_ => 2 | .or_ => 2
  | _ => 1

theorem mqlGrammar_ok [RegexSpace] : GrammarOk mqlGrammar ruleNullable ruleRank 20 where
  nullable r := by cases r <;> first | exact fun _ => rfl | (intro h; cases h)
  rank r := by cases r <;> exact of_decide_eq_true rfl
  within r := by cases r <;> rfl

/-- The outcome of matching a rule does not depend on the number of calls, once there are enough of them. -/
theorem pegRun_enough [RegexSpace] {r : Rule} {s : Str} {n : Nat} (h : 20 * s.length + 20 ≤ n) :
    pegRun mqlGrammar n (.rule r) s ≠ .out := by
  refine pegRun_ne_out mqlGrammar_ok (by decide) n (.rule r) s ?_ ?_
  · cases r <;> rfl
  · have : (Peg.rule r).rank ruleNullable ruleRank ≤ 18 := by cases r <;> exact of_decide_eq_true rfl
    omega

end Verif
