import Verif.Lemmas.MqlArith
import Verif.Spec.MqlReads

/-!
# Operands: numbers, parentheses, negation
-/

namespace Verif

open Spec (Arith Tree Link chainText)

section
variable [U : PyUnicode] [S : RegexSpace]

omit U S in
theorem isDigit_bounds {c : Char} (h : isDigit c = true) : 48 ≤ c.toNat ∧ c.toNat ≤ 57 := by
  simp only [isDigit, Bool.and_eq_true, decide_eq_true_eq] at h
  exact ⟨h.1, h.2⟩

omit U in
theorem isDigit_not_space {c : Char} (h : isDigit c = true) : S.isSpace c = false :=
  S.visible c (by have := isDigit_bounds h; omega) (by have := isDigit_bounds h; omega)

omit U S in
theorem isFollow_iff {c : Char} : isFollow c = true ↔ c = '+' ∨ c = '-' ∨ c = '*' ∨ c = '/' ∨ c = ')' ∨ c = ',' := by
  simp only [isFollow, Bool.or_eq_true, beq_iff_eq, or_assoc]

omit U S in
theorem isDigit_not_follow {c : Char} (h : isDigit c = true) : isFollow c = false := by
  cases hf : isFollow c with
  | false => rfl
  | true =>
    rcases isFollow_iff.1 hf with rfl | rfl | rfl | rfl | rfl | rfl <;> cases h

omit U in
theorem Follow.numStop {R : Str} (h : Follow R) : NumStop R := by
  refine h.notAt fun c hc => ?_
  simp only [Bool.or_eq_true, beq_iff_eq] at hc
  rcases hc with hc | rfl
  · have := isDigit_bounds hc
    exact ⟨by omega, by omega, isDigit_not_follow hc⟩
  · decide

omit U S in
theorem NumText.head {t : Str} {x : PyFloat} (h : NumText t x) : ∃ c r, t = c :: r ∧ isDigit c = true := by
  obtain ⟨a, f, ha, had, _, h, _⟩ := h
  cases a with
  | nil => exact absurd rfl ha
  | cons c a =>
    have := had c (by simp)
    rcases h with ⟨rfl, _⟩ | ⟨_, rfl⟩
    · exact ⟨c, a, rfl, this⟩
    · exact ⟨c, _, rfl, this⟩

/-- An operand that does not begin with the minus sign. -/
theorem Operand.of_coefficient {t : Str} {x : MVal} (ne : t ≠ []) (hv : NotAt S.isSpace t) (hm : NotAt (· == '-') t)
    (ht : (V.obj x).isTerm = true) (ev : ∀ R, Follow R → Ev (.rule .coefficient) (t ++ R) (.obj x) R) : Operand t x := by
  refine ⟨ne, hv, ht, fun R hR => ?_⟩
  have hm' : NotAt (· == '-') (t ++ R) := by
    cases t with
    | nil => exact absurd rfl ne
    | cons c t => exact hm
  have hk : Kids (mqlGrammar .unary) (t ++ R) [.list [], .obj x] R :=
    Kids.seq (.cons (Kids.opt_none (.inr (fails_unaryOp hm'))).ev (.cons (ev R hR) .nil))
  exact hk.rule rfl

/-- A number is an operand. -/
theorem operand_number {t : Str} {f : PyFloat} (h : NumText t f) :
    (∀ R, Follow R → Ev (.rule .coefficient) (t ++ R) (.obj (.val (.float f))) R) ∧ Operand t (.val (.float f)) := by
  obtain ⟨c, r, hc, hd⟩ := h.head
  have hev : ∀ R, Follow R → Ev (.rule .coefficient) (t ++ R) (.obj (.val (.float f))) R := by
    intro R hR
    have hk : Kids (mqlGrammar .coefficient) (t ++ R) [.obj (.val (.float f))] R :=
      Kids.alt (.here (ev_number h hR.numStop))
    exact hk.rule rfl
  refine ⟨hev, .of_coefficient (by rw [hc]; simp) (by rw [hc]; exact .cons (isDigit_not_space hd)) ?_ rfl hev⟩
  rw [hc]
  refine .cons ?_
  simp only [beq_eq_false_iff_ne, ne_eq]
  rintro rfl
  cases hd

/-- The negation of an operand that does not begin with the minus sign is an operand. -/
theorem operand_negate {t : Str} {x y : MVal} (h : ∀ R, Follow R → Ev (.rule .coefficient) (t ++ R) (.obj x) R)
    (hy : negateM x = some y) : Operand ('-' :: t) y := by
  refine ⟨by simp, notAt_visible (by decide), ?_, fun R hR => ?_⟩
  · unfold negateM at hy
    split at hy <;> simp only [Option.some.injEq, reduceCtorEq] at hy <;> subst hy <;> rfl
  · have hk : Kids (mqlGrammar .unary) ('-' :: (t ++ R)) [.list [.str c!"negate"], .obj x] R :=
      Kids.seq (.cons (Kids.opt_some (by simp) (ev_unaryOp _)).ev (.cons (h R hR) .nil))
    refine hk.rule ?_
    unfold negateM at hy
    split at hy <;> simp only [Option.some.injEq, reduceCtorEq] at hy <;> subst hy <;> rfl

omit U S in
theorem lit_not_prefix {c : Char} {l s : Str} (h : NotAt (· == c) s) : (c :: l).isPrefixOf s = false := by
  cases s with
  | nil => rfl
  | cons d s =>
    have : d ≠ c := by simpa using h d (by simp)
    simp [List.isPrefixOf, this.symm]

theorem fails_groupBy {R : Str} (h : NotAt (· == 'b') (skip R)) : Fails (.rule .groupBy) R :=
  .rule (.seq (.pa (ev_ws R).pa (.here (.lit (lit_not_prefix h)))))

/-- An arithmetic expression in parentheses, as the target of a filter. -/
theorem ev_nestedExpression {w w' t R : Str} {q : MVal} (hw : ∀ c ∈ w, S.isSpace c = true) (hv : NotAt S.isSpace (t ++ (w' ++ ')' :: R)))
    (hw' : ∀ c ∈ w', S.isSpace c = true) (hq : q.isQuery = true)
    (h : Ev (.rule .expression) (t ++ (w' ++ ')' :: R)) (.obj q) (w' ++ ')' :: R)) :
    Ev (.rule .nestedExpression) ('(' :: (w ++ (t ++ (w' ++ ')' :: R)))) (.obj q) R := by
  have hk : Kids (mqlGrammar .nestedExpression) ('(' :: (w ++ (t ++ (w' ++ ')' :: R)))) [.list [], .list [], .obj q, .list [], .list []] R :=
    Kids.seq (.cons (ev_openParen _) (.cons (ev_ws_some hw hv) (.cons h (.cons (ev_ws_some hw' (notAt_visible (by decide)))
      (.cons (ev_closeParen R) .nil)))))
  exact hk.rule (by simp only [visitRule, visitNestedExpression, V.asQuery, hq, if_true]; rfl)

/-- The value of a query as the result of `target`. -/
theorem targetQuery_query {q : MVal} (h : q.isQuery = true) : targetQuery (.obj q) = .ok (.obj q) := by
  cases q <;> first | rfl | cases h

/-- A target without filters and groupby. -/
theorem ev_filter_plain {s R : Str} {q : MVal} (h : Ev (.rule .target) s (.obj q) R) (hq : q.isQuery = true)
    (hb : NotAt (· == '{') R) (hg : R = [] ∨ Fails (.rule .groupBy) R) : Ev (.rule .filter) s (.obj q) R := by
  have hk : Kids (mqlGrammar .filter) s [.obj q, .list [], .list []] R :=
    Kids.seq (.cons h (.cons (Kids.opt_none (.inr (.seq (.here (fails_openBrace hb))))).ev (.cons (Kids.opt_none hg).ev .nil)))
  refine hk.rule ?_
  simp only [visitRule, visitFilter, packedFilters, V.truthy, List.isEmpty_nil, Bool.not_true, Bool.false_eq_true, if_false,
    V.asQuery, hq, if_true, ok_bind, addFilterIf, addGroupbyIf]

/-- A filter as a coefficient. -/
theorem ev_coefficient_filter {s R : Str} {v : V} (h : Ev (.rule .filter) s v R) (hd : NotAt isDigit s) (hq : NotAt (· == '"') s) :
    Ev (.rule .coefficient) s v R := by
  have hk : Kids (mqlGrammar .coefficient) s [v] R :=
    Kids.alt (.there (fails_number hd) (.there (fails_quotedString hq) (.here h)))
  exact hk.rule rfl

omit U in
theorem Follow.no_brace {R : Str} (h : Follow R) : NotAt (· == '{') R :=
  h.notAt fun c hc => by simp only [beq_iff_eq] at hc; subst hc; decide

omit U in
theorem Follow.no_paren {R : Str} (h : Follow R) : NotAt (· == '(') R :=
  h.notAt fun c hc => by simp only [beq_iff_eq] at hc; subst hc; decide

theorem Follow.no_by {R : Str} (h : Follow R) : Fails (.rule .groupBy) R :=
  fails_groupBy (h.notAt_skip fun c hc => by simp only [beq_iff_eq] at hc; subst hc; decide)

theorem ev_target_nested {s R : Str} {q : MVal} (h : Ev (.rule .nestedExpression) s (.obj q) R) (hq : q.isQuery = true)
    (hs : NotAt (· == '$') s) : Ev (.rule .target) s (.obj q) R := by
  have hk : Kids (mqlGrammar .target) s [.obj q] R := Kids.alt (.there (fails_variable hs) (.here h))
  exact hk.rule (by simp only [visitRule, visitTarget, unwrapTarget, ok_bind, targetQuery_query hq])

omit U in
theorem stop_close (w R : Str) (hw : ∀ c ∈ w, S.isSpace c = true) : ChainEnd (w ++ ')' :: R) := by
  rw [ChainEnd, skip_append hw (notAt_visible (by decide))]
  exact .cons rfl

end

end Verif
