import Verif.Lemmas.MqlOutcome
import Verif.Lemmas.MqlTrim
import Verif.Lemmas.Legacy

/-!
# C58: how `parse_mql` fails

The grammar accepts more than the methods of the visitor and the constructors, so that the question is which of their
checks can be reached, and by which texts.
-/

namespace Verif

open Spec

section
variable [U : PyUnicode] [S : RegexSpace]

omit U S in
theorem strip_split (mql : Str) : ∃ a b, mql = a ++ (stripP isSpace mql ++ b) ∧ (∀ c ∈ a, isSpace c = true) ∧ ∀ c ∈ b, isSpace c = true := by
  obtain ⟨a, b, h, hab, _⟩ := stripP_iff.1 (rfl : stripP isSpace mql = stripP isSpace mql)
  exact ⟨a, b, h.trans (List.append_assoc ..), fun c hc => hab c (by simp [hc]), fun c hc => hab c (by simp [hc])⟩

/-- **C58.** Every failure of `parse_mql` is an `InvalidMQLQueryError`, or an `InvalidColumnError` and the text has a key
that begins with a digit or a point, or an `AssertionError` and the text is only a number or a string, or has a number or a
string alone in parentheses. -/
theorem C58_failures (mql : Str) (e : Err) (h : parseMql mql = .error e) :
    e = .invalidMQL ∨ (e = .invalidColumn ∧ BadKeyIn mql) ∨ (e = .assertion ∧ (OnlyScalar mql ∨ ScalarInParens mql)) := by
  obtain ⟨a, b, hab, ha, hb⟩ := strip_split mql
  unfold parseMql at h
  generalize stripP isSpace mql = t at hab h
  subst hab
  split at h
  · cases h; exact .inl rfl
  · rename_i nd hnd
    obtain ⟨h1, h2⟩ := parseTree_outcome hnd
    rcases bind_eq_error.1 h with h | ⟨v, hv, h⟩
    · rcases (h2 e h).infix a b with h | h | ⟨h, h'⟩
      · exact .inl h
      · exact .inr (.inl h)
      · exact .inr (.inr ⟨h, .inr h'⟩)
    · rcases h1 v hv with hq | ⟨hs, ht⟩
      · obtain ⟨m, hm, _⟩ := asQuery_ok hq
        rw [hm] at h
        cases h
      · rw [asQuery_scalar hs] at h
        cases h
        exact .inr (.inr ⟨rfl, .inl ⟨a, t, b, rfl, ha, hb, ht⟩⟩)

theorem operand_string {u : Str} (h : QuotedInner u) : ∃ s, Operand ('"' :: (u ++ ['"'])) (.val (.str s)) := by
  have hev : ∀ R, Follow R → Ev (.rule .coefficient) ('"' :: (u ++ ['"']) ++ R)
      (.obj (.val (.str (unescapeQuotes (slice1m1 ('"' :: (u ++ ['"']))))))) R := by
    intro R _
    have hq : Kids (mqlGrammar .quotedString) ('"' :: (u ++ ['"']) ++ R) [] R := Kids.re (by
      have := quotedRe_head (scanRest_inner h R)
      simpa using this)
    have hk : Kids (mqlGrammar .coefficient) ('"' :: (u ++ ['"']) ++ R) [.obj (.val (.str (unescapeQuotes (slice1m1 ('"' :: (u ++ ['"']))))))] R :=
      Kids.alt (.there (fails_number (.cons rfl)) (.here (hq.rule' rfl)))
    exact hk.rule rfl
  exact ⟨_, .of_coefficient (by simp) (notAt_visible (by decide)) (.cons rfl) rfl hev⟩

theorem operand_scalar {t : Str} (h : ScalarText t) : ∃ v, SignedV (.obj v) ∧ Operand t v := by
  have hnum : ∀ {t : Str}, DigitsText t → ∃ f, NotNegative f ∧ NumText t f := by
    rintro t ⟨a, f, ha, had, hfd, rfl | ⟨hf, rfl⟩⟩
    · exact ⟨_, notNegative_decimal _ _, t, [], ha, had, by simp, .inl ⟨rfl, rfl⟩, rfl⟩
    · exact ⟨_, notNegative_decimal _ _, a, f, ha, had, hfd, .inr ⟨hf, rfl⟩, rfl⟩
  rcases h with h | ⟨u, rfl, h⟩ | ⟨u, rfl, h⟩
  · obtain ⟨f, hf, h⟩ := hnum h
    exact ⟨_, .inl ⟨f, (by rintro rfl; cases hf), rfl⟩, (operand_number h).2⟩
  · obtain ⟨f, hf, h⟩ := hnum h
    exact ⟨_, .inl ⟨f.negate, negate_not_nan hf, rfl⟩, operand_negate (operand_number h).1 rfl⟩
  · obtain ⟨s, h⟩ := operand_string h
    exact ⟨_, .inr ⟨s, rfl⟩, h⟩

omit U S in
theorem scalar_trim {t : Str} (h : ScalarText t) : Front t ∧ Back t := by
  have hd : ∀ c, isDigit c = true → isSpace c = false := fun c hc => keyChar_space (by simp [hc])
  have hnum : ∀ {t : Str}, DigitsText t → Front t ∧ Back t := by
    rintro t ⟨a, f, ha, had, hfd, rfl | ⟨hf, rfl⟩⟩
    · exact ⟨front_of ha had hd, back_of ha had hd⟩
    · exact ⟨(front_of ha had hd).append _, ((back_of hf hfd hd).cons '.').append a⟩
  rcases h with h | ⟨u, rfl, h⟩ | ⟨u, rfl, h⟩
  · exact hnum h
  · exact ⟨⟨'-', u, rfl, by decide⟩, (hnum h).2.cons '-'⟩
  · exact ⟨⟨'"', _, rfl, by decide⟩, ⟨'"' :: u, '"', rfl, by decide⟩⟩

/-- **C58** (numbers and strings). A text that is only a number or a string is an `AssertionError`. -/
theorem C58_only_scalar (mql : Str) (h : OnlyScalar mql) : parseMql mql = .error .assertion := by
  obtain ⟨a, t, b, rfl, ha, hb, ht⟩ := h
  obtain ⟨⟨c, r, hc, hc'⟩, ⟨r', c', hr, hr'⟩⟩ := scalar_trim ht
  have hs : stripP isSpace (a ++ (t ++ b)) = t := stripP_iff.2 ⟨a, b, by simp, by
    intro c hc
    exact (List.mem_append.1 hc).elim (ha c) (hb c), by
    intro d u hd
    rw [hc] at hd
    cases hd
    exact hc', by
    intro d u hd
    rw [hr] at hd
    obtain ⟨_, h⟩ := List.append_inj' hd rfl
    cases h
    exact hr'⟩
  obtain ⟨v, hv, ho⟩ := operand_scalar ht
  obtain ⟨tr, htidy, hflat, hev⟩ := ev_chain ho (ls := []) (by simp) (R := []) (.nil)
  have := htidy.unique (t' := .leaf v) trivial hflat
  subst this
  have hev' : Ev (.rule .expression) (stripP isSpace (a ++ (t ++ b))) (.obj v) [] := by
    have he : chainText t ([] : List (Link MVal)) ++ [] = t := by simp [chainText]
    rw [he] at hev
    rw [hs]
    exact hev
  rw [parseMql_of_ev hev']
  exact asQuery_scalar hv

end

section Examples

attribute [local instance] asciiUnicode pySpace

/-- Whether the result is the error. -/
private def failsWith (e : Err) : Except Err MVal → Bool
  | .error e' => e' == e
  | .ok _ => false

private theorem failsWith_iff {e : Err} {r : Except Err MVal} (h : failsWith e r = true) : r = .error e := by
  cases r with
  | ok x => cases h
  | error e' => rw [eq_of_beq h]

/-- A syntax error, a variable, the negation of a string, and a metric without an aggregate are `InvalidMQLQueryError`. -/
example : parseMql c!"sum(a" = .error .invalidMQL ∧ parseMql c!"$a" = .error .invalidMQL ∧
    parseMql c!"-\"a\"" = .error .invalidMQL ∧ parseMql c!"ff((a))" = .error .invalidMQL := by
  refine ⟨?_, ?_, ?_, ?_⟩ <;> exact failsWith_iff (by decide +kernel)

/-- A key that begins with a digit. -/
theorem C58_column_error : parseMql c!"sum(a){1:\"b\"}" = .error .invalidColumn ∧ parseMql c!"sum(a) by (b, .c)" = .error .invalidColumn := by
  constructor <;> exact failsWith_iff (by decide +kernel)

/-- A number in parentheses, though the formula would have one in their place without them. -/
theorem C58_assertion_error : parseMql c!"sum(a) * ( 1)" = .error .assertion ∧ (∃ x, parseMql c!"sum(a) * 1" = .ok x) := by
  constructor
  · exact failsWith_iff (by decide +kernel)
  · exact ⟨_, rfl⟩

example : OnlyScalar c!" -2.5 " :=
  ⟨c!" ", c!"-2.5", c!" ", rfl, by decide, by decide, .inr (.inl ⟨c!"2.5", rfl, c!"2", c!"5", by decide, by decide, by decide, .inr ⟨by decide, rfl⟩⟩)⟩

example : BadKeyIn c!"sum(a){1:\"b\"}" :=
  ⟨c!"sum(a){", c!"1", c!":\"b\"}", rfl, ⟨by decide, '1', [], rfl, .inl rfl⟩, .inl ⟨[], _, rfl, by simp [Blanks]⟩⟩

example : ScalarInParens c!"sum(a) * ( 1)" :=
  ⟨c!"sum(a) * ", c!" ", c!"1", [], [], rfl, by simp [Blanks, RegexSpace.isSpace, isSpace], by simp [Blanks], .inl ⟨c!"1", [], by decide, by decide, by decide, .inl rfl⟩⟩

end Examples

end Verif
