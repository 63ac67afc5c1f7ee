import Verif.Lemmas.MqlReads

/-!
# C39: precedence and associativity of arithmetic in MQL
-/

namespace Verif

open Spec (Arith Tree Link chainText)

section
variable [U : PyUnicode] [S : RegexSpace]

/-- Around the links there are only blanks, and they have operands. -/
def LinksRead (ls : List (Link MVal)) : Prop :=
  ∀ l ∈ ls, (∀ c ∈ l.before, S.isSpace c = true) ∧ (∀ c ∈ l.after, S.isSpace c = true) ∧ Reads .signed l.text l.value

/-- **C39.** For every chain `t₀ op₁ t₁ op₂ t₂ …` of any length, with any blanks around the operators, whose operands
(numbers, aggregates and functions with their parameters, arguments, filters and columns, parenthesised expressions, or
negations of these, nested to any depth) denote the values `x₀, x₁, …`:
the parser returns the formula of a tree which from left to right has these operators and values, in which no `*` or `/` has
a `+` or `-` below it, and in which the right operand of an operator is never an operator of the same kind. -/
theorem C39_precedence_and_associativity {mql first : Str} {x : MVal} {ls : List (Link MVal)}
    (hmql : stripP isSpace mql = chainText first ls) (hx : Reads .signed first x) (hl : LinksRead ls) (hq : IsQuery x ∨ ls ≠ []) :
    ∃ tr : Tree MVal, tr.Tidy ∧ tr.flat = (x, ls.map fun l => (l.op, l.value)) ∧ parseMql mql = .ok tr.formula := by
  obtain ⟨tr, htr, hflat, hev⟩ := ev_chain (reads_known hx : Signed _ _).operand (fun l h => ⟨(hl l h).1, (hl l h).2.1, (reads_known (hl l h).2.2 : Signed _ _).operand⟩)
    ChainEnd.nil
  rw [List.append_nil, ← hmql] at hev
  refine ⟨tr, htr, hflat, ?_⟩
  have hquery : tr.formula.isQuery = true := by
    cases tr with
    | node op l r => rfl
    | leaf a =>
      simp only [Tree.flat, Prod.mk.injEq] at hflat
      rcases hq with hq | hq
      · rw [Tree.formula, hflat.1]; exact isQuery_iff.2 hq
      · exact absurd (List.map_eq_nil_iff.1 hflat.2.symm) hq
  rw [parseMql_of_ev hev, V.asQuery, hquery, if_pos rfl]

omit U S in
/-- **C39.** There is one such tree for each chain, so that the theorem above determines the result. -/
theorem C39_reading_unique {tr tr' : Tree MVal} (h : tr.Tidy) (h' : tr'.Tidy) (hf : tr.flat = tr'.flat) : tr = tr' := h.unique h' hf

/-- **C39.** The same operands are read in the same way inside a larger text: an operand, wherever an operator, a closing
parenthesis, a comma or the end follows, is matched in full and no further, and has its value. -/
theorem C39_operands {t : Str} {x : MVal} (h : Reads .signed t x) (w rest : Str) (hw : ∀ c ∈ w, S.isSpace c = true)
    (hrest : rest = [] ∨ ∃ c r, rest = c :: r ∧ c ∈ c!"+-*/),") :
    ∃ n nd, pegRun mqlGrammar n (.rule .unary) (t ++ (w ++ rest)) = .ok nd (w ++ rest) ∧ visitNode nd = .ok (.obj x) := by
  suffices hf : Follow (w ++ rest) by
    obtain ⟨nd, ⟨n, hn⟩, hv⟩ := (reads_known h : Signed _ _).operand.ev _ hf
    exact ⟨n, nd, hn, hv⟩
  rcases hrest with rfl | ⟨c, r, rfl, hc⟩
  · rw [Follow, skip_append hw .nil]; exact .nil
  · simp only [List.mem_cons, List.not_mem_nil, or_false] at hc
    have hv : 33 ≤ c.toNat ∧ c.toNat < 127 := by
      rcases hc with rfl | rfl | rfl | rfl | rfl | rfl <;> decide
    rw [Follow, skip_append hw (notAt_visible hv)]
    refine .cons ?_
    rcases hc with rfl | rfl | rfl | rfl | rfl | rfl <;> rfl

end

section Examples

local instance exArithUnicode : PyUnicode := asciiUnicode
local instance exArithSpace : RegexSpace := pySpace

/-- The operand `sum(a)`, `sum(b)`, … -/
theorem exSum (a : Str) (ha : WordText a) : Reads .signed (c!"sum" ++ '(' :: (a ++ [')'])) (.ts ⟨⟨.str a, .none, .none⟩, .str c!"sum", .none, .none, .none⟩) :=
  by
  have h : Reads .signed ((c!"sum" ++ ([] ++ '(' :: ([] ++ (a ++ [')'])))) ++ []) _ :=
    .plain (.plainCall (.aggregate ⟨by simp, by decide, by decide⟩ .none (by simp [Blanks]) (.plain (.pub (m := a) ⟨a, [], by simp, ha, by simp⟩))) .none)
  simp only [List.append_nil, List.nil_append] at h
  exact h

/-- The operand `2.5`. -/
theorem exNum : Reads .signed c!"2.5" (.val (.float (ofDecimal false 25 (-1)))) :=
  .plain (.number ⟨c!"2", c!"5", by simp, by decide, by decide, .inr ⟨by simp, rfl⟩, rfl⟩)

/-- The links of `sum(a) - sum(b) * 2.5 -sum(c)`. -/
def exLinks : List (Link MVal) :=
  [⟨c!" ", .minus, c!" ", c!"sum(b)", .ts ⟨⟨.str c!"b", .none, .none⟩, .str c!"sum", .none, .none, .none⟩⟩,
   ⟨c!" ", .times, c!" ", c!"2.5", .val (.float (ofDecimal false 25 (-1)))⟩,
   ⟨c!" ", .minus, [], c!"sum(c)", .ts ⟨⟨.str c!"c", .none, .none⟩, .str c!"sum", .none, .none, .none⟩⟩]

theorem exLinks_read : LinksRead exLinks := by
  simp only [LinksRead, exLinks, List.mem_cons, List.not_mem_nil, or_false, forall_eq_or_imp, forall_eq]
  exact ⟨⟨by decide, by decide, exSum c!"b" ⟨by simp, by decide⟩⟩, ⟨by decide, by decide, exNum⟩,
    ⟨by decide, by simp, exSum c!"c" ⟨by simp, by decide⟩⟩⟩

example : ∃ tr : Tree MVal, tr.Tidy ∧ tr.flat = (.ts ⟨⟨.str c!"a", .none, .none⟩, .str c!"sum", .none, .none, .none⟩, exLinks.map fun l => (l.op, l.value)) ∧
    parseMql c!"  sum(a) - sum(b) * 2.5 -sum(c) " = .ok tr.formula :=
  C39_precedence_and_associativity (first := c!"sum(a)") rfl (exSum c!"a" ⟨by simp, by decide⟩) exLinks_read (.inr (by simp [exLinks]))

/-- The same with the tree written out: `(a - b * 2.5) - c`. -/
example : parseMql c!"sum(a) - sum(b) * 2.5 -sum(c)" = .ok (.formula (.str c!"minus") (.list [
    .formula (.str c!"minus") (.list [.ts ⟨⟨.str c!"a", .none, .none⟩, .str c!"sum", .none, .none, .none⟩,
      .formula (.str c!"multiply") (.list [.ts ⟨⟨.str c!"b", .none, .none⟩, .str c!"sum", .none, .none, .none⟩,
        .val (.float (ofDecimal false 25 (-1)))]) .none .none .none]) .none .none .none,
    .ts ⟨⟨.str c!"c", .none, .none⟩, .str c!"sum", .none, .none, .none⟩]) .none .none .none) := by
  obtain ⟨tr, h1, h2, h3⟩ := C39_precedence_and_associativity (mql := c!"sum(a) - sum(b) * 2.5 -sum(c)") (first := c!"sum(a)") rfl
    (exSum c!"a" ⟨by simp, by decide⟩) exLinks_read (.inr (by simp [exLinks]))
  rw [h3]
  have := C39_reading_unique (tr' := .node .minus (.node .minus (.leaf _) (.node .times (.leaf _) (.leaf _))) (.leaf _)) h1
    (by simp [Tree.Tidy, Tree.level, Arith.level]) h2
  rw [this]
  rfl

/-- A negated expression in parentheses. -/
example : Reads .signed c!"-(sum(a) - sum(b) * 2.5 -sum(c))" (.formula (.str c!"negate") (.list [.formula (.str c!"minus") (.list [
    .formula (.str c!"minus") (.list [.ts ⟨⟨.str c!"a", .none, .none⟩, .str c!"sum", .none, .none, .none⟩,
      .formula (.str c!"multiply") (.list [.ts ⟨⟨.str c!"b", .none, .none⟩, .str c!"sum", .none, .none, .none⟩,
        .val (.float (ofDecimal false 25 (-1)))]) .none .none .none]) .none .none .none,
    .ts ⟨⟨.str c!"c", .none, .none⟩, .str c!"sum", .none, .none, .none⟩]) .none .none .none]) .none .none .none) :=
  .minus (.paren (w := []) (w' := []) (b := []) (g := []) (by simp [Blanks]) (by simp [Blanks])
    (.chain (t := c!"sum(a)") (ls := exLinks) (tr := .node .minus (.node .minus (.leaf _) (.node .times (.leaf _) (.leaf _))) (.leaf _))
      (exSum c!"a" ⟨by simp, by decide⟩) (fun l h => (exLinks_read l h).2.2) (fun l h => ⟨(exLinks_read l h).1, (exLinks_read l h).2.1⟩)
      (by simp [Tree.Tidy, Tree.level, Arith.level]) rfl) trivial .none .none) rfl

end Examples

end Verif
