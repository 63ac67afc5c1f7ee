import Verif.Lemmas.MqlStays

/-!
# Functions: which of the four alternatives matches
-/

namespace Verif

section
variable [U : PyUnicode] [S : RegexSpace]

/-- Characters other than quotes, parentheses and opening braces. -/
def isFree (c : Char) : Bool := !(c == '"' || c == '(' || c == ')' || c == '{')

/-- The texts whose first quote, parenthesis or opening brace is the character `d`, with `R` behind it. -/
def UpTo (d : Char) (R s : Str) : Prop := ∃ a, s = a ++ d :: R ∧ ∀ x ∈ a, isFree x = true

omit U S in
theorem UpTo.step {d : Char} {R : Str} {x : Char} {s : Str} (h : UpTo d R (x :: s)) (hx : x ≠ d) : UpTo d R s := by
  obtain ⟨a, ha, hf⟩ := h
  cases a with
  | nil => simp only [List.nil_append, List.cons.injEq] at ha; exact absurd ha.1 hx
  | cons y a =>
    simp only [List.cons_append, List.cons.injEq] at ha
    exact ⟨a, ha.2, fun z hz => hf z (by simp [hz])⟩

omit U S in
theorem UpTo.drop {d : Char} {R : Str} {u s : Str} (h : UpTo d R (u ++ s)) (hu : d ∉ u) : UpTo d R s := by
  induction u with
  | nil => exact h
  | cons x u ih =>
    simp only [List.mem_cons, not_or] at hu
    exact ih (h.step (Ne.symm hu.1)) hu.2

omit U S in
theorem UpTo.head {d : Char} {R : Str} {x : Char} {s : Str} (h : UpTo d R (x :: s)) (hx : isFree x = false) : x = d ∧ s = R := by
  obtain ⟨a, ha, hf⟩ := h
  cases a with
  | nil => simpa using ha
  | cons y a =>
    simp only [List.cons_append, List.cons.injEq] at ha
    rw [ha.1, hf y (by simp)] at hx
    cases hx

omit U in
theorem stays_class_star {d : Char} {R : Str} {p : Char → Bool} (h : p d = false) : Stays (UpTo d R) (.re (.star (.cls p))) := by
  refine .re fun s t hs ht => ?_
  obtain ⟨u, rfl, hu⟩ := (mem_run_star (OneChar.cls p)).1 ht
  exact hs.drop fun hd => by rw [hu d hd] at h; cases h

omit U in
theorem stays_class {d : Char} {R : Str} {p : Char → Bool} (h : p d = false) : Stays (UpTo d R) (.re (Regex.cls p).plus) := by
  refine .re fun s t hs ht => ?_
  obtain ⟨u, rfl, _, hu⟩ := (mem_run_plus (OneChar.cls p)).1 ht
  exact hs.drop fun hd => by rw [hu d hd] at h; cases h

omit U in
theorem stays_lit {d c : Char} {R : Str} (h : c ≠ d) : Stays (UpTo d R) (.lit [c]) :=
  .lit fun r hr => UpTo.drop (u := [c]) hr (by simpa using h.symm)

/-- A parenthesis or an opening brace. -/
def Paren (d : Char) : Prop := d = '(' ∨ d = ')' ∨ d = '{'

omit U in
theorem Paren.not_space {d : Char} (h : Paren d) : S.isSpace d = false := by
  rcases h with rfl | rfl | rfl <;> exact S.visible _ (by decide) (by decide)

omit U in
theorem stays_ws {d : Char} {R : Str} (h : Paren d) : Stays (UpTo d R) ws := .rule (stays_class_star h.not_space)

omit U in
theorem stays_quoted {d : Char} {R : Str} (h : Paren d) : Stays (UpTo d R) (.re quotedRe) := by
  refine .re fun s t hs ht => ?_
  obtain ⟨u, m, rfl, _⟩ := mem_quotedRe.1 ht
  have := (hs.head (by decide)).1
  rcases h with rfl | rfl | rfl <;> cases this

omit U in
theorem stays_number {d : Char} {R : Str} (h : Paren d) : Stays (UpTo d R) (.rule .number) := by
  have hd : isDigit d = false := by rcases h with rfl | rfl | rfl <;> rfl
  refine .rule (.seq ?_)
  simp only [List.mem_cons, List.not_mem_nil, or_false, forall_eq_or_imp, forall_eq]
  refine ⟨stays_class hd, .opt (.seq ?_)⟩
  simp only [List.mem_cons, List.not_mem_nil, or_false, forall_eq_or_imp, forall_eq]
  exact ⟨stays_lit (by rcases h with rfl | rfl | rfl <;> decide), stays_class hd⟩

omit U in
theorem stays_paramExpression {d : Char} {R : Str} (h : Paren d) : Stays (UpTo d R) (.rule .paramExpression) := by
  refine .rule (.alt ?_)
  simp only [List.mem_cons, List.not_mem_nil, or_false, forall_eq_or_imp, forall_eq]
  refine ⟨stays_number h, .rule (stays_quoted h), .rule (stays_class ?_)⟩
  rcases h with rfl | rfl | rfl <;> simp [isUnquotedChar]

omit U in
theorem stays_aggregateList {d : Char} {R : Str} (h : Paren d) : Stays (UpTo d R) (.rule .aggregateList) := by
  refine .rule (.seq ?_)
  simp only [List.mem_cons, List.not_mem_nil, or_false, forall_eq_or_imp, forall_eq]
  refine ⟨.star (.rule (.seq ?_)), stays_paramExpression h⟩
  simp only [List.mem_cons, List.not_mem_nil, or_false, forall_eq_or_imp, forall_eq]
  exact ⟨stays_paramExpression h, stays_ws h, .rule (stays_lit (by rcases h with rfl | rfl | rfl <;> decide)), stays_ws h⟩

omit U in
theorem Stays.pa {D : Str → Prop} {p : Peg Rule} (h : Stays D p) {s r : Str} (hp : Pa p s r) (hs : D s) : D r := by
  obtain ⟨nd, n, hr⟩ := hp
  exact h.run n s nd r hr hs

/-- The parameters of a curried function in parentheses. -/
abbrev curriedHead : List (Peg Rule) := [.rule .openParen, ws, .opt (.rule .aggregateList), ws, .rule .closeParen]

/-- If the first quote or bracket behind `(` is another opening one, there are no parameters; if it is a
closing one, the parameters end there if anywhere. -/
theorem curriedHead_cases {d : Char} {R s : Str} (hd : Paren d) (hs : UpTo d R s) :
    Fails (.seq curriedHead) ('(' :: s) ∨ (d = ')' ∧ Pa (.seq curriedHead) ('(' :: s) R) := by
  have h1 : UpTo d R (skip s) := (stays_ws hd).pa (ev_ws s).pa hs
  have h2 : ∃ r, Pa (.opt (.rule .aggregateList)) (skip s) r ∧ UpTo d R r := by
    rcases pa_or_fails .aggregateList (skip s) with ⟨r, hr⟩ | hf
    · refine ⟨r, Pa.opt_some ?_ hr, (stays_aggregateList hd).pa hr h1⟩
      obtain ⟨a, ha, _⟩ := h1
      rw [ha]
      simp
    · exact ⟨skip s, Pa.opt_none (.inr hf), h1⟩
  obtain ⟨r, hr, hr'⟩ := h2
  have h3 : UpTo d R (skip r) := (stays_ws hd).pa (ev_ws r).pa hr'
  by_cases hc : ∃ t, skip r = ')' :: t
  · obtain ⟨t, ht⟩ := hc
    rw [ht] at h3
    obtain ⟨rfl, rfl⟩ := h3.head (by decide)
    refine .inr ⟨rfl, Pa.seq (.cons (ev_openParen _).pa (.cons (ev_ws s).pa (.cons hr (.cons (ev_ws r).pa ?_))))⟩
    rw [ht]
    exact .cons (ev_closeParen _).pa .nil
  · refine .inl (.seq (.pa (ev_openParen _).pa (.pa (ev_ws s).pa (.pa hr (.pa (ev_ws r).pa (.here (fails_closeParen ?_)))))))
    cases ht : skip r with
    | nil => exact .nil
    | cons x t =>
      refine notAt_cons ?_
      rintro rfl
      exact hc ⟨t, ht⟩

/-! ### Names -/

theorem ev_name {k : Rule} {n r : Str} (hk : mqlGrammar k = .re nameRe) (h : NameText n) (hv : visitRule k n [] = .ok (.str n)) :
    Ev (.rule k) (n ++ '(' :: r) (.str n) ('(' :: r) :=
  ev_plusTok hk h.ne h.chars (.cons (by decide)) hv

omit U S in
theorem isNameChar_bounds {c : Char} (h : isNameChar c = true) : 48 ≤ c.toNat ∧ c.toNat < 127 := by
  simp only [isNameChar, isAlpha, Bool.or_eq_true, Bool.and_eq_true, decide_eq_true_eq, beq_iff_eq] at h
  rcases h with (h | h) | rfl
  · rcases h with h | h
    · have h1 : 97 ≤ c.toNat := h.1
      have h2 : c.toNat ≤ 122 := h.2
      omega
    · have h1 : 65 ≤ c.toNat := h.1
      have h2 : c.toNat ≤ 90 := h.2
      omega
  · have := isDigit_bounds h; omega
  · decide

omit U in
theorem NameText.visible {n : Str} (h : NameText n) : NotAt S.isSpace n := by
  intro c hc
  have hm : c ∈ n := List.mem_of_mem_head? hc
  have := isNameChar_bounds (h.chars c hm)
  exact S.visible c (by omega) (by omega)

omit U S in
/-- A name does not begin with another character. -/
theorem NameText.notAt {n r : Str} (h : NameText n) {d : Char} (hd : isNameChar d = false) : NotAt (· == d) (n ++ r) := by
  refine notAt_append h.ne fun c hc => ?_
  have hm : isNameChar c = true := h.chars c (List.mem_of_mem_head? hc)
  simp only [beq_eq_false_iff_ne, ne_eq]
  rintro rfl
  rw [hm] at hd
  cases hd

/-- The two curried alternatives fail on `name(…` unless parameters and then another `(` follow. -/
theorem curried_fails {n s R : Str} {d : Char} (hn : NameText n) (hd : Paren d) (hs : UpTo d R s)
    (hR : d = ')' → NotAt (· == '(') R) :
    Fails (.rule .curriedAggregate) (n ++ '(' :: s) ∧ Fails (.rule .curriedArbitraryFunction) (n ++ '(' :: s) := by
  rcases curriedHead_cases hd hs with hf | ⟨rfl, hp⟩
  · exact ⟨.rule (.seq (.pa (ev_name rfl hn rfl).pa (.here hf))), .rule (.seq (.pa (ev_name rfl hn rfl).pa (.here hf)))⟩
  · have hR := hR rfl
    exact ⟨.rule (.seq (.pa (ev_name rfl hn rfl).pa (.pa hp (.here (.seq (.here (fails_openParen hR))))))),
      .rule (.seq (.pa (ev_name rfl hn rfl).pa (.pa hp (.here (.seq (.here (fails_openParen hR)))))))⟩

end

end Verif
