import Verif.Lemmas.MqlRegex
import Verif.Lemmas.Literal

/-!
# C02: string literals in MQL; C41: the parser always ends with one answer
-/

namespace Verif

section
variable [U : PyUnicode] [S : RegexSpace]

omit U in
/-- **C02.** For every string and every text that follows, the literal of the string is matched in full, and no
further, by the grammar's string tokens (in filters and elsewhere), and it has no raw newline. -/
theorem C02_literal_is_one_token (s : Str) :
    ∃ t, translate .mql (.str s) = .ok t ∧ '\n' ∉ t ∧ ∀ rest n, 2 ≤ n →
      pegRun mqlGrammar n (.rule .quotedString) (t ++ rest) = .ok (.node (some .quotedString) t []) rest ∧
      pegRun mqlGrammar n (.rule .quotedStringFilter) (t ++ rest) = .ok (.node (some .quotedStringFilter) t []) rest := by
  refine ⟨strLit .mql s, rfl, strLit_no_newline .mql s, fun rest n hn => ?_⟩
  have h : matchRe quotedRe (strLit .mql s ++ rest) = .ok () rest := matchRe_ok.2 (quotedRe_strLit s rest)
  obtain ⟨m, rfl⟩ : ∃ m, n = m + 2 := ⟨n - 2, by omega⟩
  constructor <;> simp only [pegRun, mqlGrammar, h, Match.map, consumed_append, Node.named]

omit S in
/-- **C02.** The parser turns the token of a string back into the string exactly when the string has no backslash and
no newline. -/
theorem C02_token_read_back_iff (s : Str) :
    visitNode (.node (some .quotedString) (strLit .mql s) []) = .ok (.str s) ↔ '\\' ∉ s ∧ '\n' ∉ s := by
  have : visitNode (.node (some .quotedString) (strLit .mql s) []) = .ok (.str (unescapeQuotes (slice1m1 (strLit .mql s)))) := rfl
  rw [this, unescapeQuotes_strLit, ← stays_escaped s]
  simp [V.str]

omit S in
/-- **C02.** The same for the value of a filter. -/
theorem C02_filter_value_read_back_iff (s : Str) :
    visitNode (.node (some .quotedStringFilter) (strLit .mql s) []) = .ok (.factor (.str s) false) ↔ '\\' ∉ s ∧ '\n' ∉ s := by
  have : visitNode (.node (some .quotedStringFilter) (strLit .mql s) []) =
      .ok (.factor (.str (unescapeQuotes (slice1m1 (strLit .mql s)))) false) := rfl
  rw [this, unescapeQuotes_strLit, ← stays_escaped s]
  simp

omit U in
/-- **C41.** For every text the parser ends with one answer: with `20 · length + 20` nested calls it does not run out of
calls, and with more calls the answer is the same. -/
theorem C41_parser_terminates (text : Str) :
    ∃ answer, answer ≠ .out ∧ ∀ n, 20 * text.length + 20 ≤ n → pegRun mqlGrammar n (.rule .expression) text = answer :=
  ⟨_, pegRun_enough (Nat.le_refl (20 * text.length + 20)),
    fun _ hn => pegRun_mono mqlGrammar hn (pegRun_enough (Nat.le_refl _))⟩

omit U in
/-- **C41.** The same for every rule of the grammar, so that no part of a text can make the parser loop. -/
theorem C41_rules_terminate (r : Rule) (text : Str) :
    ∃ answer, answer ≠ .out ∧ ∀ n, 20 * text.length + 20 ≤ n → pegRun mqlGrammar n (.rule r) text = answer :=
  ⟨_, pegRun_enough (Nat.le_refl (20 * text.length + 20)),
    fun _ hn => pegRun_mono mqlGrammar hn (pegRun_enough (Nat.le_refl _))⟩

omit U in
/-- **C41.** `parse_mql` rejects a text as a syntax error exactly when no number of nested calls leads to a match of the
whole text. -/
theorem C41_syntax_error_iff (mql : Str) :
    (parseTree (stripP isSpace mql) = none) ↔
      ∀ n nd, pegRun mqlGrammar n (.rule .expression) (stripP isSpace mql) ≠ .ok nd [] := by
  constructor
  · intro h n nd hn
    rw [parseTree_of_parse ⟨n, hn⟩] at h
    cases h
  · intro h
    cases hp : parseTree (stripP isSpace mql) with
    | none => rfl
    | some nd =>
      simp only [parseTree] at hp
      split at hp
      · rename_i nd' hr
        exact absurd hr (h _ _)
      · cases hp

end

section Examples

local instance exTokenUnicode : PyUnicode := asciiUnicode
local instance exTokenSpace : RegexSpace := pySpace

/-- C02 on a string with a quote, followed by a closing brace. -/
example : translate .mql (.str c!"a\"b") = .ok c!"\"a\\\"b\"" ∧
    visitNode (.node (some .quotedString) c!"\"a\\\"b\"" []) = .ok (.str c!"a\"b") :=
  ⟨rfl, rfl⟩

/-- Outside the proviso of C02: a newline comes back as a backslash and an `n`. -/
example : visitNode (.node (some .quotedString) (strLit .mql c!"\n") []) = .ok (.str c!"\\n") := rfl

/-- C41 on a text that is rejected only after trying every alternative. -/
example : parseTree c!"sum(foo" = none := by rfl

/-- C41 on a text that is accepted. -/
example : (parseTree c!"sum(foo)").isSome = true := by rfl

end Examples

end Verif
