import Verif.Lemmas.MqlRegex
import Verif.Spec.MqlText

/-!
# Tokens of the MQL grammar: blanks, punctuation, names, numbers, strings
-/

namespace Verif

section
variable [U : PyUnicode] [S : RegexSpace]

/-- The text after the blanks. -/
def skip (s : Str) : Str := s.dropWhile S.isSpace

omit U in
theorem skip_blank_append {w r : Str} (hw : ∀ c ∈ w, S.isSpace c = true) : skip (w ++ r) = skip r := by
  induction w with
  | nil => rfl
  | cons c w ih =>
    simp only [List.mem_cons, forall_eq_or_imp] at hw
    simp only [skip, List.cons_append, List.dropWhile_cons, hw.1, if_true]
    exact ih hw.2

omit U in
theorem skip_of_notAt {r : Str} (h : NotAt S.isSpace r) : skip r = r := by
  cases r with
  | nil => rfl
  | cons c r => simp [skip, List.dropWhile_cons, h c (by simp)]

omit U in
theorem skip_append {w r : Str} (hw : ∀ c ∈ w, S.isSpace c = true) (h : NotAt S.isSpace r) : skip (w ++ r) = r := by
  rw [skip_blank_append hw, skip_of_notAt h]

omit U in
theorem skip_notAt (s : Str) : NotAt S.isSpace (skip s) := by
  induction s with
  | nil => exact .nil
  | cons c s ih =>
    simp only [skip, List.dropWhile_cons]
    split
    · exact ih
    · rename_i h; exact .cons (by simpa using h)

omit U in
theorem skip_split (s : Str) : ∃ w, s = w ++ skip s ∧ ∀ c ∈ w, S.isSpace c = true := by
  induction s with
  | nil => exact ⟨[], rfl, by simp⟩
  | cons c s ih =>
    by_cases hc : S.isSpace c = true
    · obtain ⟨w, hw, hb⟩ := ih
      refine ⟨c :: w, ?_, by simp only [List.mem_cons, forall_eq_or_imp]; exact ⟨hc, hb⟩⟩
      simp only [skip, List.dropWhile_cons, hc, if_true, List.cons_append, List.cons.injEq, true_and]
      exact hw
    · exact ⟨[], by simp [skip, List.dropWhile_cons, hc], by simp⟩

/-- Blanks are skipped. -/
theorem ev_ws (s : Str) : Ev ws s (.list []) (skip s) := by
  obtain ⟨w, hw, hb⟩ := skip_split s
  have h : Kids (mqlGrammar .space) (w ++ skip s) [] (skip s) := Kids.re (star_head hb (skip_notAt s))
  have := h.rule (k := .space) (v := .list []) rfl
  rw [← hw] at this
  exact this

theorem ev_ws_none {s : Str} (h : NotAt S.isSpace s) : Ev ws s (.list []) s := by
  have := ev_ws s
  rwa [skip_of_notAt h] at this

theorem ev_ws_some {w r : Str} (hw : ∀ c ∈ w, S.isSpace c = true) (h : NotAt S.isSpace r) : Ev ws (w ++ r) (.list []) r := by
  have := ev_ws (w ++ r)
  rwa [skip_append hw h] at this

theorem ev_ws_blank {r : Str} (h : NotAt S.isSpace r) : Ev ws (' ' :: r) (.list []) r :=
  ev_ws_some (w := [' ']) (by simp [S.blank]) h

omit U in
/-- Visible ASCII characters are not blanks. -/
theorem notAt_visible {c : Char} {r : Str} (h : 33 ≤ c.toNat ∧ c.toNat < 127) : NotAt S.isSpace (c :: r) :=
  .cons (S.visible c h.1 h.2)

/-! ### Punctuation -/

theorem ev_lit1 {k : Rule} {c : Char} {r : Str} {v : V} (hk : mqlGrammar k = .lit [c]) (hv : visitRule k [c] [] = .ok v) :
    Ev (.rule k) (c :: r) v r := by
  have h : Kids (mqlGrammar k) ([c] ++ r) [] r := by rw [hk]; exact Kids.lit
  exact h.rule' hv

omit U in
theorem fails_lit1 {k : Rule} {c : Char} {s : Str} (hk : mqlGrammar k = .lit [c]) (h : NotAt (· == c) s) : Fails (.rule k) s := by
  refine .rule ?_
  rw [hk]
  refine .lit ?_
  cases s with
  | nil => rfl
  | cons d s =>
    have : d ≠ c := by simpa using h d (by simp)
    simp [List.isPrefixOf, this.symm]

omit U S in
theorem notAt_cons {c d : Char} {s : Str} (h : d ≠ c) : NotAt (· == c) (d :: s) := .cons (by simpa using h)

theorem ev_openParen (r : Str) : Ev (.rule .openParen) ('(' :: r) (.list []) r := ev_lit1 rfl rfl
theorem ev_closeParen (r : Str) : Ev (.rule .closeParen) (')' :: r) (.list []) r := ev_lit1 rfl rfl
theorem ev_openSquare (r : Str) : Ev (.rule .openSquare) ('[' :: r) (.list []) r := ev_lit1 rfl rfl
theorem ev_closeSquare (r : Str) : Ev (.rule .closeSquare) (']' :: r) (.list []) r := ev_lit1 rfl rfl
theorem ev_openBrace (r : Str) : Ev (.rule .openBrace) ('{' :: r) (.list []) r := ev_lit1 rfl rfl
theorem ev_closeBrace (r : Str) : Ev (.rule .closeBrace) ('}' :: r) (.list []) r := ev_lit1 rfl rfl
theorem ev_comma (r : Str) : Ev (.rule .comma) (',' :: r) (.list []) r := ev_lit1 rfl rfl
theorem ev_colon (r : Str) : Ev (.rule .colon) (':' :: r) (.list []) r := ev_lit1 rfl rfl
theorem ev_quote (r : Str) : Ev (.rule .quote) ('"' :: r) (.list []) r := ev_lit1 rfl rfl
theorem ev_wildcard (r : Str) : Ev (.rule .wildcard) ('*' :: r) (.list []) r := ev_lit1 rfl rfl
theorem ev_backtick (r : Str) : Ev (.rule .backtick) ('`' :: r) (.list []) r := ev_lit1 rfl rfl
theorem ev_unaryOp (r : Str) : Ev (.rule .unaryOp) ('-' :: r) (.str c!"negate") r := ev_lit1 rfl rfl
theorem ev_conditionOp (r : Str) : Ev (.rule .conditionOp) ('!' :: r) (.obj (.val (.op .not))) r := ev_lit1 rfl rfl

omit U in
theorem fails_openParen {s : Str} (h : NotAt (· == '(') s) : Fails (.rule .openParen) s := fails_lit1 rfl h
omit U in
theorem fails_closeParen {s : Str} (h : NotAt (· == ')') s) : Fails (.rule .closeParen) s := fails_lit1 rfl h
omit U in
theorem fails_openSquare {s : Str} (h : NotAt (· == '[') s) : Fails (.rule .openSquare) s := fails_lit1 rfl h
omit U in
theorem fails_openBrace {s : Str} (h : NotAt (· == '{') s) : Fails (.rule .openBrace) s := fails_lit1 rfl h
omit U in
theorem fails_comma {s : Str} (h : NotAt (· == ',') s) : Fails (.rule .comma) s := fails_lit1 rfl h
omit U in
theorem fails_colon {s : Str} (h : NotAt (· == ':') s) : Fails (.rule .colon) s := fails_lit1 rfl h
omit U in
theorem fails_quote {s : Str} (h : NotAt (· == '"') s) : Fails (.rule .quote) s := fails_lit1 rfl h
omit U in
theorem fails_backtick {s : Str} (h : NotAt (· == '`') s) : Fails (.rule .backtick) s := fails_lit1 rfl h
omit U in
theorem fails_wildcard {s : Str} (h : NotAt (· == '*') s) : Fails (.rule .wildcard) s := fails_lit1 rfl h
omit U in
theorem fails_unaryOp {s : Str} (h : NotAt (· == '-') s) : Fails (.rule .unaryOp) s := fails_lit1 rfl h
omit U in
theorem fails_conditionOp {s : Str} (h : NotAt (· == '!') s) : Fails (.rule .conditionOp) s := fails_lit1 rfl h

omit U in
theorem fails_variable {s : Str} (h : NotAt (· == '$') s) : Fails (.rule .variable_) s := by
  refine .rule (.seq (.here (.lit ?_)))
  cases s with
  | nil => rfl
  | cons d s =>
    have : d ≠ '$' := by simpa using h d (by simp)
    simp [List.isPrefixOf, this.symm]

omit U in
theorem fails_nestedExpression {s : Str} (h : NotAt (· == '(') s) : Fails (.rule .nestedExpression) s :=
  .rule (.seq (.here (fails_openParen h)))

/-! ### Operators -/

theorem ev_alt_lit1 {k : Rule} {c : Char} {ps : List (Peg Rule)} {r : Str} {v : V} (hk : mqlGrammar k = .alt (.lit [c] :: ps))
    (hv : visitRule k [c] [.list []] = .ok v) : Ev (.rule k) (c :: r) v r := by
  have h : Kids (mqlGrammar k) ([c] ++ r) [.list []] r := by
    rw [hk]; exact Kids.alt (.here (Kids.ev (Kids.lit (l := [c]))))
  exact h.rule' hv

theorem ev_alt_lit2 {k : Rule} {c d : Char} {ps : List (Peg Rule)} {r : Str} {v : V}
    (hk : mqlGrammar k = .alt (.lit [d] :: .lit [c] :: ps)) (hd : c ≠ d)
    (hv : visitRule k [c] [.list []] = .ok v) : Ev (.rule k) (c :: r) v r := by
  have h : Kids (mqlGrammar k) ([c] ++ r) [.list []] r := by
    rw [hk]
    refine Kids.alt (.there (.lit ?_) (.here (Kids.ev (Kids.lit (l := [c])))))
    simp [List.isPrefixOf, hd.symm]
  exact h.rule' hv

theorem ev_plus (r : Str) : Ev (.rule .exprOp) ('+' :: r) (.str c!"plus") r := ev_alt_lit1 rfl rfl
theorem ev_minus (r : Str) : Ev (.rule .exprOp) ('-' :: r) (.str c!"minus") r := ev_alt_lit2 rfl (by decide) rfl
theorem ev_times (r : Str) : Ev (.rule .termOp) ('*' :: r) (.str c!"multiply") r := ev_alt_lit1 rfl rfl
theorem ev_divide (r : Str) : Ev (.rule .termOp) ('/' :: r) (.str c!"divide") r := ev_alt_lit2 rfl (by decide) rfl

omit U S in
theorem lit1_not_prefix {c : Char} {s : Str} (h : NotAt (· == c) s) : [c].isPrefixOf s = false := by
  cases s with
  | nil => rfl
  | cons d s =>
    have : d ≠ c := by simpa using h d (by simp)
    simp [List.isPrefixOf, this.symm]

omit U in
theorem fails_exprOp {s : Str} (h : NotAt (fun c => c == '+' || c == '-') s) : Fails (.rule .exprOp) s := by
  refine .rule (.alt (.cons (.lit ?_) (.cons (.lit ?_) .nil))) <;> refine lit1_not_prefix fun c hc => ?_
  · have := h c hc; simp only [Bool.or_eq_false_iff] at this; exact this.1
  · have := h c hc; simp only [Bool.or_eq_false_iff] at this; exact this.2

omit U in
theorem fails_termOp {s : Str} (h : NotAt (fun c => c == '*' || c == '/') s) : Fails (.rule .termOp) s := by
  refine .rule (.alt (.cons (.lit ?_) (.cons (.lit ?_) .nil))) <;> refine lit1_not_prefix fun c hc => ?_
  · have := h c hc; simp only [Bool.or_eq_false_iff] at this; exact this.1
  · have := h c hc; simp only [Bool.or_eq_false_iff] at this; exact this.2

/-! ### Tokens given by a class of characters -/

theorem ev_plusTok {k : Rule} {p : Char → Bool} {u r : Str} {v : V} (hk : mqlGrammar k = .re (Regex.cls p).plus)
    (hne : u ≠ []) (hu : ∀ c ∈ u, p c = true) (hr : NotAt p r) (hv : visitRule k u [] = .ok v) : Ev (.rule k) (u ++ r) v r := by
  have h : Kids (mqlGrammar k) (u ++ r) [] r := by rw [hk]; exact Kids.re (plus_head hne hu hr)
  exact h.rule' hv

omit U in
theorem fails_plusTok {k : Rule} {p : Char → Bool} {s : Str} (hk : mqlGrammar k = .re (Regex.cls p).plus) (h : NotAt p s) :
    Fails (.rule k) s := by
  refine .rule ?_
  rw [hk]
  exact .re (plus_fail h)

theorem ev_quotedString (s r : Str) (h : '\\' ∉ s ∧ '\n' ∉ s) (hs : unescapeQuotes (slice1m1 (strLit .mql s)) = s) :
    Ev (.rule .quotedString) (strLit .mql s ++ r) (.str s) r := by
  have hk : Kids (mqlGrammar .quotedString) (strLit .mql s ++ r) [] r := Kids.re (quotedRe_strLit s r)
  exact hk.rule' (by simp only [visitRule, hs])

omit U in
theorem fails_quotedString {s : Str} (h : NotAt (· == '"') s) : Fails (.rule .quotedString) s :=
  .rule (.re (quotedRe_fail h))

/-! ### Numbers -/

/-- What may follow a number: no digit, and no point. -/
def NumStop (r : Str) : Prop := NotAt (fun c => isDigit c || c == '.') r

omit U S in
theorem digitsNat_eq (ds : Str) : digitsNat ds = Spec.numeral ds := rfl

omit U S in
theorem splitOnce_none {c : Char} {s : Str} (h : c ∉ s) : splitOnce c s = none := by
  induction s with
  | nil => rfl
  | cons x s ih =>
    simp only [List.mem_cons, not_or] at h
    simp [splitOnce, Ne.symm h.1, ih h.2]

omit U S in
theorem splitOnce_some {c : Char} {a b : Str} (h : c ∉ a) : splitOnce c (a ++ c :: b) = some (a, b) := by
  induction a with
  | nil => simp [splitOnce]
  | cons x a ih =>
    simp only [List.mem_cons, not_or] at h
    simp [splitOnce, Ne.symm h.1, ih h.2]

omit U S in
theorem NumText.float {t : Str} {x : PyFloat} (h : NumText t x) : floatOfText t = .ok x := by
  obtain ⟨a, f, ha, had, hfd, h, rfl⟩ := h
  have hpa : '.' ∉ a := fun hc => by have := had _ hc; cases this
  rcases h with ⟨rfl, rfl⟩ | ⟨hfn, rfl⟩
  · simp only [floatOfText, splitOnce_none hpa, List.append_nil, digitsNat_eq]
    rw [if_pos]
    · rfl
    · simp only [Bool.and_eq_true, List.all_eq_true, Bool.not_eq_true', List.isEmpty_eq_false_iff]
      exact ⟨had, ha⟩
  · simp only [floatOfText, splitOnce_some hpa, digitsNat_eq]
    rw [if_pos]
    simp only [Bool.and_eq_true, List.all_eq_true, Bool.not_eq_true', List.isEmpty_eq_false_iff, List.mem_append]
    exact ⟨fun c hc => hc.elim (had c) (hfd c), by simp [ha]⟩

theorem ev_number {t r : Str} {x : PyFloat} (ht : NumText t x) (hr : NumStop r) :
    Ev (.rule .number) (t ++ r) (.obj (.val (.float x))) r := by
  have hf := ht.float
  obtain ⟨a, fr, ha, had, hfd, h, _⟩ := ht
  have hr1 : NotAt isDigit r := fun c hc => by have := hr c hc; simp only [Bool.or_eq_false_iff] at this; exact this.1
  have hr2 : NotAt (· == '.') r := fun c hc => by have := hr c hc; simp only [Bool.or_eq_false_iff] at this; exact this.2
  rcases h with ⟨rfl, rfl⟩ | ⟨hfn, rfl⟩
  · have hk : Kids (mqlGrammar .number) (t ++ r) [.list [], .list []] r := by
      refine Kids.seq (.cons (Kids.re (plus_head ha had hr1)).ev (.cons (Kids.opt_none ?_).ev .nil))
      exact .inr (.seq (.here (.lit (lit1_not_prefix hr2))))
    exact hk.rule' (by simp only [visitRule, hf]; rfl)
  · have hk : Kids (mqlGrammar .number) ((a ++ '.' :: fr) ++ r) [.list [], .list [.list [.list [], .list []]]] r := by
      rw [List.append_assoc, List.cons_append]
      refine Kids.seq (.cons (Kids.re (plus_head ha had ?_)).ev (.cons (Kids.opt_some (by simp) (Kids.seq (.cons (Kids.lit (l := ['.'])).ev
        (.cons (Kids.re (plus_head hfn hfd hr1)).ev .nil))).ev).ev .nil))
      exact .cons (by decide)
    exact hk.rule' (by simp only [visitRule, hf]; rfl)

omit U in
theorem fails_number {s : Str} (h : NotAt isDigit s) : Fails (.rule .number) s :=
  .rule (.seq (.here (.re (plus_fail h))))

end

end Verif
