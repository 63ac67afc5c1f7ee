import Verif.Lemmas.PegCache
import Verif.Lemmas.MqlGrammar

/-!
# C86: the parser's cache
-/

namespace Verif

section
variable {ρ : Type} [DecidableEq ρ]

/-- **C86** (any grammar). If the parser without a cache ends, then with the cache it ends with the same outcome, does not
report a left recursion, and evaluates no expression twice at the same position. -/
theorem C86_same_outcome (g : ρ → Peg ρ) (r : ρ) (text : Str) (n : Nat) (hends : pegRun g n (.rule r) text ≠ .out) :
    ∃ cache : Memo ρ, pegCached g n (r, []) (.rule r) text [] = (some (pegRun g n (.rule r) text), cache) ∧
      cache.started.Nodup := by
  cases n with
  | zero => exact absurd rfl hends
  | succ n =>
    simp only [pegRun] at hends ⊢
    obtain ⟨c, h1, hc⟩ := pegCached_agrees g text n n (Nat.le_refl n) (r, []) (g r) [] rfl (fun k hk => by simp at hk)
      text [] (List.suffix_refl _) (memoOk_nil g text) (Match.map_ne_out.1 hends)
    exact ⟨c, by simp only [pegCached, h1]; rfl, hc.once⟩

end

section
variable [S : RegexSpace]

/-- The rules of the grammar (snuba_sdk/mql/mql.py:29-106). -/
def everyRule : List Rule :=
  [.expression, .exprOp, .term, .termOp, .unary, .unaryOp, .coefficient, .number, .filter, .filterExpr, .filterTerm,
   .filterFactor, .nestedExpr, .conditionOp, .jointOperator, .tagKey, .tagValue, .suffixWildcard, .quotedSuffixWildcard,
   .quotedStringFilter, .unquotedStringFilter, .stringTuple, .quotedString, .unquotedString, .target, .variable_,
   .nestedExpression, .function, .aggregate, .aggregateName, .arbitraryFunction, .arbitraryFunctionName,
   .curriedAggregate, .curriedAggregateName, .curriedArbitraryFunction, .curriedArbitraryFunctionName, .aggregateList,
   .param, .paramExpression, .groupBy, .groupByName, .groupByNameTuple, .innerFilter, .metric, .quotedMri, .lenientMri,
   .unquotedMri, .quotedPublicName, .unquotedPublicName, .openParen, .closeParen, .openSquare, .closeSquare, .openBrace,
   .closeBrace, .comma, .backtick, .colon, .and_, .or_, .quote, .wildcard, .space]

/-- The number of expressions of the grammar. -/
theorem everyRule_count : (everyRule.map fun r => Spec.Peg.count (mqlGrammar r)).sum = 126 := by
  simp only [everyRule, List.map_cons, List.map_nil, mqlGrammar, Spec.Peg.count, Spec.Peg.countAll, List.sum_cons,
    List.sum_nil, Nat.reduceAdd]

/-- **C86** (MQL). For every text and every rule the parser with its cache has the one answer of C41 and does not report a
left recursion. Each of the 126 expressions of the grammar is evaluated at most once at each position of the text, so the
number of evaluations is at most linear in the length of the text. -/
theorem C86_mql_linear (r : Rule) (text : Str) (n : Nat) (hn : 20 * text.length + 20 ≤ n) :
    ∃ (answer : Match (Node Rule)) (cache : Memo Rule), answer ≠ .out ∧
      pegCached mqlGrammar n (r, []) (.rule r) text [] = (some answer, cache) ∧
      (∀ m, n ≤ m → pegRun mqlGrammar m (.rule r) text = answer) ∧
      (∀ key ∈ cache.started, (∃ p, Spec.Peg.reached mqlGrammar key.1.1 key.1.2 = some p) ∧ key.2 ≤ text.length) ∧
      cache.started.Nodup ∧ cache.started.length ≤ 126 * (text.length + 1) := by
  have hends := pegRun_enough (r := r) (s := text) hn
  cases n with
  | zero => omega
  | succ n =>
    have hends' := hends
    simp only [pegRun] at hends'
    obtain ⟨c, h1, hc⟩ := pegCached_agrees mqlGrammar text n n (Nat.le_refl n) (r, []) (mqlGrammar r) [] rfl
      (fun k hk => by simp at hk) text [] (List.suffix_refl _) (memoOk_nil _ text) (Match.map_ne_out.1 hends')
    refine ⟨_, c, hends, by simp only [pegCached, h1, pegRun]; rfl, fun m hm => pegRun_mono _ hm hends, fun key hk => ?_,
      hc.once, ?_⟩
    · obtain ⟨⟨p, hp, _⟩, hl⟩ := hc.inside key hk
      exact ⟨⟨p, hp⟩, hl⟩
    · have := hc.length_le (rs := everyRule) (fun r => by cases r <;> decide)
      rwa [everyRule_count] at this

/-- **C86** (`parse_mql`). The parse tree that the visitor gets is the one that the parser with the cache finds, and there
is none exactly if the parser with the cache finds none for the whole text. -/
theorem C86_parse_tree (text : Str) (nd : Node Rule) (n : Nat) (hn : 20 * text.length + 20 ≤ n) :
    parseTree text = some nd ↔ (pegCached mqlGrammar n (.expression, []) (.rule .expression) text []).1 = some (.ok nd []) := by
  obtain ⟨answer, c, _, h1, h2, _⟩ := C86_mql_linear .expression text n hn
  have h3 : pegRun mqlGrammar (parseDepth text.length) (.rule .expression) text = answer := by
    have hd := pegRun_enough (r := .expression) (s := text) (n := parseDepth text.length) (by simp only [parseDepth]; omega)
    have hm := h2 (max n (parseDepth text.length)) (Nat.le_max_left _ _)
    rw [← hm]
    exact (pegRun_mono _ (Nat.le_max_right _ _) hd).symm
  rw [parseTree, h1, h3]
  cases answer with
  | out => simp
  | fail => simp
  | ok a r => cases r <;> simp

end

attribute [local instance] pySpace

/-- C86: a text with operators, nested calls and a filter. It is parsed in full with 417 evaluations; the
bound is 126 · 31 = 3906. -/
private def exCachedRun : Cached Rule (Node Rule) :=
  pegCached mqlGrammar 1000 (.expression, []) (.rule .expression) c!"sum(a) + f(g(a,b)){a:b OR c:d}" []

set_option maxRecDepth 20000 in
example : (match exCachedRun.1 with | some (.ok _ r) => some r | _ => none) = some [] ∧ exCachedRun.2.started.length = 417 := by
  decide +kernel

/-- C86: a grammar with a left recursion, `r = r "a" / "a"`. The parser with the cache reports it; without the cache it
would not end, so the hypothesis of the theorem is needed. -/
private def exLeftGrammar : Unit → Peg Unit := fun _ => .alt [.seq [.rule (), .lit c!"a"], .lit c!"a"]

example : (pegCached exLeftGrammar 10 ((), []) (.rule ()) c!"aa" []).1 = none := rfl

example : ∀ n, pegRun exLeftGrammar n (.rule ()) c!"aa" = .out ∧ pegRun exLeftGrammar n (exLeftGrammar ()) c!"aa" = .out ∧
    pegRun exLeftGrammar n (.seq [.rule (), .lit c!"a"]) c!"aa" = .out := by
  intro n
  induction n with
  | zero => exact ⟨rfl, rfl, rfl⟩
  | succ n ih =>
    refine ⟨by simp only [pegRun, ih.2.1, Match.map], ?_, by simp only [pegRun, seqWith, ih.1, Match.map]⟩
    simp only [exLeftGrammar, pegRun, altWith, ih.2.2, Match.map]

end Verif
