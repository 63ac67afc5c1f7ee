import Verif.Lemmas.MqlFilterValue

/-!
# Chains of filters
-/

namespace Verif

open Spec (FilterLink filterChain ValueKind compareOp groups conj disj orOfAnds)

section
variable [U : PyUnicode] [S : RegexSpace]

/-- A text that is read as one filter, whatever admissible text follows. -/
structure Factor (t : Str) (v : Val) : Prop where
  ne : t ≠ []
  visible : NotAt S.isSpace t
  notColon : NotAt (· == ':') t
  notComma : NotAt (· == ',') t
  cond : v.isCondition = true
  ev : ∀ R, ValueEnd R → Ev (.rule .filterFactor) (t ++ R) (.obj (.val v)) R

/-! ### Comparisons -/

omit U S in
theorem isKeyChar_bounds {c : Char} (h : isKeyChar c = true) : 33 ≤ c.toNat ∧ c.toNat < 127 := by
  simp only [isKeyChar, isNameChar, isAlpha, isDigit, Bool.or_eq_true, Bool.and_eq_true, decide_eq_true_eq, beq_iff_eq] at h
  have e : ∀ a b : Char, a ≤ b → a.toNat ≤ b.toNat := fun a b h => h
  have e0 : ∀ a b : Char, a = b → a.toNat = b.toNat := fun a b h => by rw [h]
  rcases h with ((h | h) | h) | h
  · rcases h with ⟨h1, h2⟩ | ⟨h1, h2⟩ <;> have h1 := e _ _ h1 <;> have h2 := e _ _ h2 <;> simp at h1 h2 <;> omega
  · obtain ⟨h1, h2⟩ := h
    have h1 := e _ _ h1; have h2 := e _ _ h2; simp at h1 h2; omega
  · have := e0 _ _ h; simp at this; omega
  · have := e0 _ _ h; simp at this; omega

omit U S in
theorem KeyText.all {k : Str} (h : KeyText k) : ∀ c ∈ k, isKeyChar c = true := h.chars

omit U S in
theorem KeyText.notAt {k R : Str} (h : KeyText k) {d : Char} (hd : isKeyChar d = false) : NotAt (· == d) (k ++ R) := by
  cases k with
  | nil => exact absurd rfl h.ne
  | cons c k =>
    refine notAt_cons ?_
    rintro rfl
    have := h.all c (by simp)
    rw [hd] at this
    cases this

omit U in
theorem KeyText.visible {k R : Str} (h : KeyText k) : NotAt S.isSpace (k ++ R) := by
  cases k with
  | nil => exact absurd rfl h.ne
  | cons c k => exact notAt_visible (isKeyChar_bounds (h.all c (by simp)))

omit U in
theorem notAt_key_blanks {w R : Str} (hw : Blanks w) (hR : NotAt isKeyChar R) : NotAt isKeyChar (w ++ R) := by
  cases w with
  | nil => exact hR
  | cons c w =>
    refine .cons ?_
    cases hc : isKeyChar c with
    | false => rfl
    | true =>
      have hb := isKeyChar_bounds hc
      have := S.visible c hb.1 hb.2
      rw [hw c (by simp)] at this
      cases this

omit S in
theorem mkColumn_key {k : Str} (h : KeyText k) : mkColumn (.str k) .none = .ok (keyColumn k) := by
  have hm : columnNameRe.matches k = true := by
    refine columnNameRe_iff.2 (.inl (.inl ?_))
    have hc := h.chars
    cases k with
    | nil => exact absurd rfl h.ne
    | cons c k =>
      refine ⟨c, k, rfl, by simpa using h.head c (by simp), fun d hd => ?_⟩
      have := hc d (by simp [hd])
      have hb := isKeyChar_bounds this
      rw [U.ascii d (by omega)]
      simp only [Bool.or_eq_true, beq_iff_eq] at this ⊢
      rcases this with h | h
      · exact .inl h
      · exact .inr (.inl h)
  have hs : splitSubscript k = none := by
    rw [splitSubscript, splitOnce_none]
    · rfl
    · intro hb
      have := h.chars _ hb
      cases this
  simp only [mkColumn, asStr, asEntity, ColumnObj.validate, ColumnObj.checkEntity, ColumnObj.setSubscript, hm, hs, ensure, if_true,
    ok_bind]
  rfl

omit U S in
theorem allScalar_strs (ss : List Str) : allScalar (ss.map .str) = .ok true := by
  induction ss with
  | nil => simp only [List.map_nil, allScalar]
  | cons s ss ih => simp only [List.map_cons, allScalar, isScalar, isLiteral, ok_bind, Bool.true_or, if_true, ih]

/-- A comparison is a filter. -/
theorem factor_compare {neg : Bool} {k w w' t : Str} {kind : ValueKind} {v : Val} (hk : KeyText k) (hw : Blanks w)
    (hw' : Blanks w') (ht : FilterValueText t kind v) :
    Factor ((if neg then ['!'] else []) ++ (k ++ (w ++ ':' :: (w' ++ t)))) (.cond (keyColumn k) (compareOp neg kind) v) := by
  have hvis : NotAt S.isSpace t ∧ t ≠ [] := by
    have hb : ∀ u r, BareText u → NotAt S.isSpace (u ++ r) ∧ u ++ r ≠ [] := by
      intro u r h
      cases u with
      | nil => exact absurd rfl h.1
      | cons c u => exact ⟨.cons (h.2 c (by simp)).2, by simp⟩
    cases ht with
    | quoted _ _ => exact ⟨notAt_visible (by decide), by simp [quoteText]⟩
    | bare h => simpa using hb t [] h
    | quotedPattern _ => exact ⟨notAt_visible (by decide), by simp [quoteText]⟩
    | pattern h => exact hb _ _ h
    | list _ _ _ => exact ⟨notAt_visible (by decide), by simp⟩
  have hscalar : checkRhs v = .ok () ∧ filterOp (some neg) (decide (kind = .pattern)) v = compareOp neg kind := by
    cases ht with
    | quoted _ _ => cases neg <;> exact ⟨rfl, rfl⟩
    | bare _ => cases neg <;> exact ⟨rfl, rfl⟩
    | quotedPattern _ => cases neg <;> exact ⟨rfl, rfl⟩
    | pattern _ => cases neg <;> exact ⟨rfl, rfl⟩
    | @list w t r s ss _ _ _ =>
      refine ⟨?_, by cases neg <;> rfl⟩
      have := allScalar_strs (s :: ss)
      simp only [checkRhs, isScalar, this, ok_bind, if_true, ite_self]
  have hun : checkUnary (compareOp neg kind) v = .ok () := by cases neg <;> cases kind <;> rfl
  have hcond : mkCondition (keyColumn k) (.op (compareOp neg kind)) v = .ok (.cond (keyColumn k) (compareOp neg kind) v) := by
    have : ensure (keyColumn k).isColOrFn .invalidCondition = .ok () := rfl
    simp only [mkCondition, checkCondition, this, asOp, hun, hscalar.1, ok_bind]
  have hcol : ∀ R, NotAt isKeyChar R → Ev (.rule .tagKey) (k ++ R) (.obj (.val (keyColumn k))) R := fun R hR =>
    ev_plusTok rfl hk.ne hk.all hR (by simp only [visitRule, visitColumn, mkColumn_key hk]; rfl)
  have htail : ∀ R, ValueEnd R → ∀ o, (negated? o = some neg) → ∀ s, Ev (.opt (.rule .conditionOp)) s o (k ++ (w ++ ':' :: (w' ++ t)) ++ R) →
      Ev (.rule .filterFactor) s (.obj (.val (.cond (keyColumn k) (compareOp neg kind) v))) R := by
    intro R hR o ho s hs
    have e : k ++ (w ++ ':' :: (w' ++ t)) ++ R = k ++ (w ++ ':' :: (w' ++ (t ++ R))) := by simp
    rw [e] at hs
    have hkids : Kids (mqlGrammar .filterFactor) s
        [.list [o, .list [.obj (.val (keyColumn k))], .list [], .list [], .list [], .factor v (decide (kind = .pattern))]] R := by
      refine Kids.alt (.here (Kids.seq (.cons hs (.cons (Kids.alt (.there (fails_variable (hk.notAt rfl)) (.here (hcol _ ?_)))).ev
        (.cons (ev_ws_some hw (notAt_visible (by decide))) (.cons (ev_colon _) (.cons (ev_ws_some hw' ?_) (.cons (ev_value ht hR) .nil))))))).ev)
      · exact notAt_key_blanks hw (.cons rfl)
      · exact notAt_append hvis.2 hvis.1
    refine hkids.rule ?_
    simp only [visitRule, visitFilterFactor, V.item0, ok_bind, ho, hscalar.2, V.toVal, hcond]
  cases neg with
  | false =>
    refine ⟨by simp, hk.visible, hk.notAt rfl, hk.notAt rfl, rfl, fun R hR => ?_⟩
    refine htail R hR (.list []) rfl _ ?_
    have : Ev (.opt (.rule .conditionOp)) (k ++ (w ++ ':' :: (w' ++ t)) ++ R) (.list []) (k ++ (w ++ ':' :: (w' ++ t)) ++ R) := by
      refine (Kids.opt_none (.inr (fails_conditionOp ?_))).ev
      rw [List.append_assoc]
      exact hk.notAt rfl
    simpa using this
  | true =>
    refine ⟨by simp, notAt_visible (by decide), notAt_cons (by decide), notAt_cons (by decide), rfl, fun R hR => ?_⟩
    exact htail R hR (.list [.obj (.val (.op .not))]) rfl _ (Kids.opt_some (by simp) (ev_conditionOp _)).ev

/-! ### Where a chain ends -/

/-- Blanks and a closing parenthesis or brace. -/
def FilterEnd (R : Str) : Prop := ∃ w d r, R = w ++ d :: r ∧ Blanks w ∧ (d = ')' ∨ d = '}')

omit U in
theorem FilterEnd.value {R : Str} (h : FilterEnd R) : ValueEnd R := by
  obtain ⟨w, d, r, rfl, hw, hd⟩ := h
  refine valueEnd_blanks hw (valueEnd_cons ?_)
  rcases hd with rfl | rfl <;> simp

/-- The rule that joins filters. -/
abbrev andLink : Peg Rule := .seq [ws, .opt (.rule .jointOperator), ws, .rule .filterFactor]

/-- The rule that joins groups of filters. -/
abbrev orLink : Peg Rule := .seq [ws, .rule .or_, ws, .rule .filterTerm]

omit U in
theorem fails_word {c c' : Char} {l l' : Str} {s : Str} (k : Rule) (hk : mqlGrammar k = .alt [.lit (c :: l), .lit (c' :: l')])
    (h : NotAt (fun x => x == c || x == c') s) : Fails (.rule k) s := by
  have hn : ∀ (d : Char) (m : Str), NotAt (· == d) s → Fails (.lit (d :: m)) s := by
    intro d m h
    refine .lit ?_
    cases s with
    | nil => rfl
    | cons x s =>
      have : x ≠ d := by simpa using h x (by simp)
      simp [List.isPrefixOf, this.symm]
  refine .rule ?_
  rw [hk]
  refine .alt (.cons (hn _ _ fun x hx => ?_) (.cons (hn _ _ fun x hx => ?_) .nil))
  · have := h x hx; simp only [Bool.or_eq_false_iff] at this; exact this.1
  · have := h x hx; simp only [Bool.or_eq_false_iff] at this; exact this.2

omit U in
theorem fails_joint {s : Str} (h : NotAt (fun x => x == ',' || x == 'A' || x == 'a') s) : Fails (.rule .jointOperator) s := by
  refine .rule (.alt (.cons (fails_comma fun x hx => ?_) (.cons (fails_word .and_ rfl fun x hx => ?_) .nil)))
  · have := h x hx; simp only [Bool.or_eq_false_iff] at this; exact this.1.1
  · have := h x hx; simp only [Bool.or_eq_false_iff] at this ⊢; exact ⟨this.1.2, this.2⟩

/-- A text that begins with none of the characters of a filter is no filter. -/
theorem fails_factor {c : Char} {s : Str} (h1 : isKeyChar c = false) (h2 : c ≠ '!') (h3 : c ≠ '(') (h4 : c ≠ '$') :
    Fails (.rule .filterFactor) (c :: s) := by
  refine .rule (.alt (.cons (.seq ?_) (.cons ?_ .nil)))
  · refine .pa (Kids.opt_none (.inr (fails_conditionOp (notAt_cons h2)))).ev.pa (.here ?_)
    exact .alt (.cons (fails_variable (notAt_cons h4)) (.cons (fails_plusTok rfl (.cons h1)) .nil))
  · exact .rule (.seq (.here (fails_openParen (notAt_cons h3))))

theorem FilterEnd.no_and {R : Str} (h : FilterEnd R) : Fails andLink R := by
  obtain ⟨w, d, r, rfl, hw, hd⟩ := h
  have hv : NotAt S.isSpace (d :: r) := by rcases hd with rfl | rfl <;> exact notAt_visible (by decide)
  have hj : Fails (.rule .jointOperator) (d :: r) := fails_joint (by rcases hd with rfl | rfl <;> exact .cons rfl)
  refine .seq (.pa (ev_ws_some hw hv).pa (.pa (Kids.opt_none (.inr hj)).ev.pa (.pa (ev_ws_none hv).pa (.here ?_))))
  rcases hd with rfl | rfl <;> exact fails_factor rfl (by decide) (by decide) (by decide)

theorem FilterEnd.no_or {R : Str} (h : FilterEnd R) : Fails orLink R := by
  obtain ⟨w, d, r, rfl, hw, hd⟩ := h
  have hv : NotAt S.isSpace (d :: r) := by rcases hd with rfl | rfl <;> exact notAt_visible (by decide)
  refine .seq (.pa (ev_ws_some hw hv).pa (.here (fails_word .or_ rfl ?_)))
  rcases hd with rfl | rfl <;> exact .cons rfl

/-! ### Joints -/

theorem ev_and_word {word r : Str} (h : word = c!"AND" ∨ word = c!"and") : ∃ v, Ev (.rule .jointOperator) (word ++ r) v r := by
  have ha : ∃ v, Ev (.rule .and_) (word ++ r) v r := by
    rcases h with rfl | rfl
    · exact ⟨_, Kids.rule' (k := .and_) (Kids.alt (.here (Kids.lit (l := c!"AND")).ev)) rfl⟩
    · exact ⟨_, Kids.rule' (k := .and_) (Kids.alt (.there (.lit rfl) (.here (Kids.lit (l := c!"and")).ev))) rfl⟩
  obtain ⟨v, ha⟩ := ha
  refine ⟨_, Kids.rule (k := .jointOperator) (Kids.alt (.there (fails_comma ?_) (.here ha))) rfl⟩
  rcases h with rfl | rfl <;> exact notAt_cons (by decide)

theorem ev_comma_joint (r : Str) : ∃ v, Ev (.rule .jointOperator) (',' :: r) v r :=
  ⟨_, Kids.rule (k := .jointOperator) (Kids.alt (.here (ev_comma r))) rfl⟩

theorem ev_or_word {word r : Str} (h : word = c!"OR" ∨ word = c!"or") : ∃ v, Ev (.rule .or_) (word ++ r) v r := by
  rcases h with rfl | rfl
  · exact ⟨_, Kids.rule' (k := .or_) (Kids.alt (.here (Kids.lit (l := c!"OR")).ev)) rfl⟩
  · exact ⟨_, Kids.rule' (k := .or_) (Kids.alt (.there (.lit rfl) (.here (Kids.lit (l := c!"or")).ev))) rfl⟩

omit U S in
theorem isPrefixOf_append_false {l t R : Str} (h : ¬ l <+: t) (hl : l.length ≤ t.length ∨ ∀ c ∈ R.head?, c ∉ l) :
    l.isPrefixOf (t ++ R) = false := by
  cases hp : l.isPrefixOf (t ++ R) with
  | false => rfl
  | true =>
    exfalso
    rw [List.isPrefixOf_iff_prefix] at hp
    obtain ⟨r, hr⟩ := hp
    rcases List.append_eq_append_iff.1 hr with ⟨as, h1, h2⟩ | ⟨bs, h1, h2⟩
    · exact h ⟨as, h1.symm⟩
    · cases bs with
      | nil => simp only [List.append_nil] at h1; exact h (by rw [h1]; exact List.prefix_refl _)
      | cons b bs =>
        rcases hl with hl | hl
        · rw [h1] at hl; simp at hl; omega
        · rw [h2] at hl
          exact hl b (by simp) (by rw [h1]; simp)

/-- A joint that means "and", with the filter after it. -/
theorem ev_andLink {j t R : Str} {v : Val} (hj : JointText j false t) (h : Factor t v) (hR : ValueEnd R) :
    ∃ a b c, Ev andLink (j ++ t ++ R) (.list [a, b, c, .obj (.val v)]) R := by
  have hvis : NotAt S.isSpace (t ++ R) := notAt_append h.ne h.visible
  cases hj with
  | @and w w' word _ hw hne hword hw' =>
    obtain ⟨x, hx⟩ := ev_and_word (r := w' ++ (t ++ R)) hword
    refine ⟨.list [], .list [x], .list [], ?_⟩
    simp only [List.append_assoc]
    refine (Kids.seq (.cons (ev_ws_some hw ?_) (.cons (Kids.opt_some ?_ hx).ev (.cons (ev_ws_some hw' hvis) (.cons (h.ev R hR) .nil))))).ev
    · rcases hword with rfl | rfl <;> exact notAt_visible (by decide)
    · rcases hword with rfl | rfl <;> simp
  | @comma w w' _ hw hw' =>
    obtain ⟨x, hx⟩ := ev_comma_joint (w' ++ (t ++ R))
    refine ⟨.list [], .list [x], .list [], ?_⟩
    simp only [List.append_assoc, List.cons_append]
    exact (Kids.seq (.cons (ev_ws_some hw (notAt_visible (by decide))) (.cons (Kids.opt_some (by simp) hx).ev
      (.cons (ev_ws_some hw' hvis) (.cons (h.ev R hR) .nil))))).ev
  | blank hw hne h1 h2 =>
    refine ⟨.list [], .list [], .list [], ?_⟩
    simp only [List.append_assoc]
    have hlet : ∀ c ∈ R.head?, c ∉ c!"AND" ∧ c ∉ c!"and" := by
      intro c hc
      have key : ∀ d : Char, 33 ≤ d.toNat ∧ d.toNat < 127 → d ∉ c!",)]}" → c ≠ d := by
        rintro d hd hn rfl
        have := hR.not hd hn c hc
        simp at this
      simp only [List.mem_cons, List.not_mem_nil, or_false, not_or]
      exact ⟨⟨key _ (by decide) (by decide), key _ (by decide) (by decide), key _ (by decide) (by decide)⟩,
        key _ (by decide) (by decide), key _ (by decide) (by decide), key _ (by decide) (by decide)⟩
    have hf : Fails (.rule .jointOperator) (t ++ R) := by
      refine .rule (.alt (.cons (fails_comma (notAt_append h.ne h.notComma)) (.cons (.rule (.alt (.cons (.lit ?_) (.cons (.lit ?_) .nil)))) .nil)))
      · exact isPrefixOf_append_false h1 (.inr fun c hc => (hlet c hc).1)
      · exact isPrefixOf_append_false h2 (.inr fun c hc => (hlet c hc).2)
    exact (Kids.seq (.cons (ev_ws_some hw hvis) (.cons (Kids.opt_none (.inr hf)).ev (.cons (ev_ws_none hvis) (.cons (h.ev R hR) .nil))))).ev

omit U in
theorem JointText.end {j t R : Str} {b : Bool} (h : JointText j b t) : ValueEnd (j ++ t ++ R) := by
  have hb : ∀ w r, Blanks w → w ≠ [] → ValueEnd (w ++ r) := by
    intro w r hw hne
    cases w with
    | nil => exact absurd rfl hne
    | cons c w =>
      intro d hd
      simp only [List.cons_append, List.head?_cons, Option.mem_some_iff] at hd
      subst hd
      exact .inl (hw c (by simp))
  cases h with
  | and hw hne _ _ => simp only [List.append_assoc]; exact hb _ _ hw hne
  | comma hw _ => simp only [List.append_assoc, List.cons_append]; exact valueEnd_blanks hw (valueEnd_cons (by decide))
  | blank hw hne _ _ => simp only [List.append_assoc]; exact hb _ _ hw hne
  | or hw hne _ _ _ => simp only [List.append_assoc]; exact hb _ _ hw hne

/-- A joint that means "or" does not continue a conjunction. -/
theorem or_no_and {j t R : Str} {v : Val} (hj : JointText j true t) (h : Factor t v) : Fails andLink (j ++ t ++ R) := by
  cases hj with
  | @or w w' word _ hw hne hword hw' hne' =>
    have hvis : NotAt S.isSpace (t ++ R) := notAt_append h.ne h.visible
    have hword' : NotAt S.isSpace (word ++ (w' ++ (t ++ R))) := by rcases hword with rfl | rfl <;> exact notAt_visible (by decide)
    have hj : Fails (.rule .jointOperator) (word ++ (w' ++ (t ++ R))) := fails_joint (by rcases hword with rfl | rfl <;> exact .cons rfl)
    simp only [List.append_assoc]
    refine .seq (.pa (ev_ws_some hw hword').pa (.pa (Kids.opt_none (.inr hj)).ev.pa (.pa (ev_ws_none hword').pa (.here ?_))))
    refine .rule (.alt (.cons (.seq ?_) (.cons (.rule (.seq (.here (fails_openParen ?_)))) .nil)))
    · have hkey : KeyText word := by
        rcases hword with rfl | rfl
        · exact ⟨by simp, by decide, by decide⟩
        · exact ⟨by simp, by decide, by decide⟩
      have htag : Pa (.alt [.rule .variable_, .rule .tagKey]) (word ++ (w' ++ (t ++ R))) (w' ++ (t ++ R)) := by
        have hr : NotAt isKeyChar (w' ++ (t ++ R)) := by
          cases w' with
          | nil => exact absurd rfl hne'
          | cons c w' => exact notAt_key_blanks (w := [c]) (R := []) (fun d hd => hw' d (by simp at hd; simp [hd])) .nil
        exact (Kids.alt (.there (fails_variable (hkey.notAt rfl)) (.here (ev_plusTok (k := .tagKey) rfl hkey.ne hkey.all hr
          (by simp only [visitRule, visitColumn, mkColumn_key hkey]; rfl))))).ev.pa
      refine .pa (Kids.opt_none (.inr (fails_conditionOp (hkey.notAt rfl)))).ev.pa (.pa htag (.pa (ev_ws_some hw' hvis).pa (.here ?_)))
      exact fails_colon (notAt_append h.ne h.notColon)
    · rcases hword with rfl | rfl <;> exact notAt_cons (by decide)

/-! ### Chains -/

/-- The values joined by "and" at the start of a chain, and what is left of the chain. -/
def spanAnds : List FilterLink → List Val × List FilterLink
  | [] => ([], [])
  | l :: ls => if l.isOr then ([], l :: ls) else (l.value :: (spanAnds ls).1, (spanAnds ls).2)

/-- The groups of a chain that begins with "or". -/
def orGroups : List FilterLink → List (List Val)
  | [] => []
  | l :: ls => groups l.value (ls.map fun l => (l.isOr, l.value))

omit U S in
theorem groups_span (x : Val) (ls : List FilterLink) :
    groups x (ls.map fun l => (l.isOr, l.value)) = (x :: (spanAnds ls).1) :: orGroups (spanAnds ls).2 := by
  induction ls generalizing x with
  | nil => rfl
  | cons l ls ih =>
    cases hl : l.isOr with
    | true => simp only [List.map_cons, hl, groups, spanAnds, if_true, orGroups]
    | false =>
      simp only [List.map_cons, hl, groups, spanAnds, Bool.false_eq_true, if_false]
      rw [ih]

/-- The links of a chain are readable. -/
def GoodLinks (ls : List FilterLink) : Prop := ∀ l ∈ ls, Factor l.text l.value ∧ JointText l.joint l.isOr l.text

omit U S in
theorem spanAnds_rest (ls : List FilterLink) : (spanAnds ls).2 <:+ ls ∧ ∀ l ∈ (spanAnds ls).2.head?, l.isOr = true := by
  induction ls with
  | nil => exact ⟨List.suffix_refl _, by simp [spanAnds]⟩
  | cons l ls ih =>
    simp only [spanAnds]
    split
    · rename_i hl
      exact ⟨List.suffix_refl _, by simpa using hl⟩
    · exact ⟨ih.1.trans (List.suffix_cons _ _), ih.2⟩

/-- The text of the links of a chain. -/
abbrev linksText (ls : List FilterLink) : Str := ls.flatMap fun l => l.joint ++ l.text

theorem linksText_end {ls : List FilterLink} {R : Str} (hg : GoodLinks ls) (hR : FilterEnd R) : ValueEnd (linksText ls ++ R) := by
  cases ls with
  | nil => exact hR.value
  | cons l ls =>
    simp only [List.flatMap_cons, List.append_assoc]
    rw [← List.append_assoc l.joint]
    exact (hg l (by simp)).2.end

omit U in
theorem joint_pos {j t : Str} {b : Bool} (h : JointText j b t) : 0 < j.length := by
  have : ∀ w : Str, w ≠ [] → 0 < w.length := fun w h => List.length_pos_iff.2 h
  cases h with
  | and _ hne _ _ => have := this _ hne; simp only [List.length_append]; omega
  | comma _ _ => simp only [List.length_append, List.length_cons]; omega
  | blank _ hne _ _ => exact this _ hne
  | or _ hne _ _ _ => have := this _ hne; simp only [List.length_append]; omega

/-- The loop over the links that mean "and". -/
theorem ev_ands {ls : List FilterLink} {R : Str} (hg : GoodLinks ls) (hR : FilterEnd R) :
    ∃ vs, EvStar andLink (linksText ls ++ R) vs (linksText (spanAnds ls).2 ++ R) ∧
      fourths vs = .ok ((spanAnds ls).1.map fun v => .obj (.val v)) := by
  induction ls with
  | nil => exact ⟨[], .stop (.inr hR.no_and), rfl⟩
  | cons l ls ih =>
    have hl := hg l (by simp)
    have hg' : GoodLinks ls := fun x hx => hg x (by simp [hx])
    have e : linksText (l :: ls) ++ R = l.joint ++ l.text ++ (linksText ls ++ R) := by simp
    simp only [spanAnds]
    cases hor : l.isOr with
    | true =>
      refine ⟨[], ?_, rfl⟩
      simp only [if_true]
      refine .stop (.inr ?_)
      rw [e]
      exact or_no_and (hor ▸ hl.2) hl.1
    | false =>
      obtain ⟨vs, hev, hf⟩ := ih hg'
      obtain ⟨a, b, c, hl'⟩ := ev_andLink (hor ▸ hl.2) hl.1 (linksText_end hg' hR)
      refine ⟨.list [a, b, c, .obj (.val l.value)] :: vs, ?_, ?_⟩
      · simp only [Bool.false_eq_true, if_false]
        rw [e]
        refine .cons hl' ?_ hev
        have := joint_pos hl.2
        simp only [List.length_append]; omega
      · simp only [fourths, hf, ok_bind, Bool.false_eq_true, if_false, List.map_cons]

omit U S in
theorem toVals_objs (vs : List Val) : V.toVals (vs.map fun v => .obj (.val v)) = vs := by
  induction vs with
  | nil => rfl
  | cons v vs ih => simp only [List.map_cons, V.toVals, V.toVal, ih]

omit U S in
theorem visitFilters_and {v : Val} {vs : List V} {xs : List Val} (h : fourths vs = .ok (xs.map fun v => .obj (.val v)))
    (hv : v.isCondition = true) (hx : ∀ x ∈ xs, x.isCondition = true) :
    visitFilters .and [.obj (.val v), .list vs] = .ok (.obj (.val (conj (v :: xs)))) := by
  cases xs with
  | nil => simp only [visitFilters, V.items, ok_bind, h, List.map_nil, conj]
  | cons x xs =>
    have ht : V.toVals (.obj (.val v) :: (x :: xs).map fun v => .obj (.val v)) = v :: x :: xs := toVals_objs (v :: x :: xs)
    have hall : (v :: x :: xs).all Val.isCondition = true := by
      simp only [List.all_eq_true, List.mem_cons]
      rintro y (rfl | rfl | hy)
      · exact hv
      · exact hx y (by simp)
      · exact hx y (by simp [hy])
    simp only [visitFilters, V.items, ok_bind, h, List.map_cons] at ht ⊢
    rw [ht]
    simp only [mkAnd, mkBool, Val.listOrTuple?, checkConditionItems, hall, ensure, if_true, ok_bind, List.length_cons, conj]
    rw [if_pos (by simp)]
    rfl

omit U S in
theorem visitFilters_or {v : Val} {vs : List V} {xs : List Val} (h : fourths vs = .ok (xs.map fun v => .obj (.val v)))
    (hv : v.isCondition = true) (hx : ∀ x ∈ xs, x.isCondition = true) :
    visitFilters .or [.obj (.val v), .list vs] = .ok (.obj (.val (disj (v :: xs)))) := by
  cases xs with
  | nil => simp only [visitFilters, V.items, ok_bind, h, List.map_nil, disj]
  | cons x xs =>
    have ht : V.toVals (.obj (.val v) :: (x :: xs).map fun v => .obj (.val v)) = v :: x :: xs := toVals_objs (v :: x :: xs)
    have hall : (v :: x :: xs).all Val.isCondition = true := by
      simp only [List.all_eq_true, List.mem_cons]
      rintro y (rfl | rfl | hy)
      · exact hv
      · exact hx y (by simp)
      · exact hx y (by simp [hy])
    simp only [visitFilters, V.items, ok_bind, h, List.map_cons] at ht ⊢
    rw [ht]
    simp only [mkOr, mkBool, Val.listOrTuple?, checkConditionItems, hall, ensure, if_true, ok_bind, List.length_cons, disj]
    rw [if_pos (by simp)]
    rfl

omit U S in
theorem spanAnds_mem {ls : List FilterLink} {P : Val → Prop} (h : ∀ l ∈ ls, P l.value) : ∀ x ∈ (spanAnds ls).1, P x := by
  induction ls with
  | nil => simp [spanAnds]
  | cons l ls ih =>
    simp only [spanAnds]
    split
    · simp
    · simp only [List.mem_cons, forall_eq_or_imp]
      exact ⟨h l (by simp), ih fun x hx => h x (by simp [hx])⟩

omit U S in
theorem conj_condition {v : Val} {xs : List Val} (hv : v.isCondition = true) : (conj (v :: xs)).isCondition = true := by
  cases xs with
  | nil => exact hv
  | cons x xs => rfl

omit U S in
theorem disj_condition {v : Val} {xs : List Val} (hv : v.isCondition = true) : (disj (v :: xs)).isCondition = true := by
  cases xs with
  | nil => exact hv
  | cons x xs => rfl

/-- A conjunction. -/
theorem ev_filterTerm {t : Str} {v : Val} {ls : List FilterLink} {R : Str} (h : Factor t v) (hg : GoodLinks ls) (hR : FilterEnd R) :
    Ev (.rule .filterTerm) (t ++ (linksText ls ++ R)) (.obj (.val (conj (v :: (spanAnds ls).1)))) (linksText (spanAnds ls).2 ++ R) := by
  obtain ⟨vs, hev, hf⟩ := ev_ands hg hR
  have hk : Kids (mqlGrammar .filterTerm) (t ++ (linksText ls ++ R)) [.obj (.val v), .list vs] (linksText (spanAnds ls).2 ++ R) :=
    Kids.seq (.cons (h.ev _ (linksText_end hg hR)) (.cons (Kids.star hev).ev .nil))
  exact hk.rule (visitFilters_and hf h.cond (spanAnds_mem fun l hl => (hg l hl).1.cond))

/-- The loop over the links that mean "or". -/
theorem ev_ors {R : Str} (hR : FilterEnd R) : ∀ (n : Nat) (ls : List FilterLink), ls.length ≤ n → GoodLinks ls →
    (∀ l ∈ ls.head?, l.isOr = true) →
    ∃ vs, EvStar orLink (linksText ls ++ R) vs R ∧ fourths vs = .ok (((orGroups ls).map conj).map fun v => .obj (.val v)) ∧
      ∀ g ∈ orGroups ls, (conj g).isCondition = true := by
  intro n
  induction n with
  | zero =>
    intro ls hn
    cases ls with
    | nil => intro _ _; exact ⟨[], .stop (.inr hR.no_or), rfl, by simp [orGroups]⟩
    | cons l ls => simp at hn
  | succ n ih =>
    intro ls hn hg hor
    cases ls with
    | nil => exact ⟨[], .stop (.inr hR.no_or), rfl, by simp [orGroups]⟩
    | cons l ls =>
      have hl := hg l (by simp)
      have hlor : l.isOr = true := hor l (by simp)
      have hg' : GoodLinks ls := fun x hx => hg x (by simp [hx])
      have hs := spanAnds_rest ls
      have hlen : (spanAnds ls).2.length ≤ n := by
        have := hs.1.length_le
        simp only [List.length_cons] at hn
        omega
      obtain ⟨vs, hev, hf, hc⟩ := ih (spanAnds ls).2 hlen (fun x hx => hg' x (hs.1.subset hx)) hs.2
      have hterm := ev_filterTerm hl.1 hg' hR
      have hj := hl.2
      rw [hlor] at hj
      have e : linksText (l :: ls) ++ R = l.joint ++ (l.text ++ (linksText ls ++ R)) := by simp
      rw [e]
      have hvis : NotAt S.isSpace (l.text ++ (linksText ls ++ R)) := notAt_append hl.1.ne hl.1.visible
      have hlt : (linksText (spanAnds ls).2 ++ R).length < (l.joint ++ (l.text ++ (linksText ls ++ R))).length := by
        have h1 := joint_pos hl.2
        obtain ⟨p, hp⟩ := hs.1
        have : (linksText (spanAnds ls).2).length ≤ (linksText ls).length := by
          conv => rhs; rw [← hp]
          simp only [linksText, List.flatMap_append, List.length_append]; omega
        simp only [List.length_append]; omega
      obtain ⟨a, b, c, hlink⟩ : ∃ a b c, Ev orLink (l.joint ++ (l.text ++ (linksText ls ++ R)))
          (.list [a, b, c, .obj (.val (conj (l.value :: (spanAnds ls).1)))]) (linksText (spanAnds ls).2 ++ R) := by
        generalize l.joint = j at hj
        cases hj with
        | @or w w' word _ hw hne hword hw' hne' =>
          obtain ⟨x, hx⟩ := ev_or_word (r := w' ++ (l.text ++ (linksText ls ++ R))) hword
          refine ⟨.list [], x, .list [], ?_⟩
          simp only [List.append_assoc]
          refine (Kids.seq (.cons (ev_ws_some hw ?_) (.cons hx (.cons (ev_ws_some hw' hvis) (.cons hterm .nil))))).ev
          rcases hword with rfl | rfl <;> exact notAt_visible (by decide)
      refine ⟨_, .cons hlink hlt hev, ?_, ?_⟩
      · rw [orGroups, groups_span]
        simp only [fourths, hf, ok_bind, List.map_cons]
      · rw [orGroups, groups_span]
        simp only [List.mem_cons, forall_eq_or_imp]
        exact ⟨conj_condition hl.1.cond, hc⟩

/-- A chain of filters is read as a disjunction of conjunctions. -/
theorem ev_filterChain {t : Str} {v : Val} {ls : List FilterLink} {R : Str} (h : Factor t v) (hg : GoodLinks ls) (hR : FilterEnd R) :
    Ev (.rule .filterExpr) (filterChain t ls ++ R) (.obj (.val (orOfAnds v (ls.map fun l => (l.isOr, l.value))))) R := by
  have hs := spanAnds_rest ls
  obtain ⟨vs, hev, hf, hc⟩ := ev_ors hR _ (spanAnds ls).2 (Nat.le_refl _) (fun x hx => hg x (hs.1.subset hx)) hs.2
  have hk : Kids (mqlGrammar .filterExpr) (filterChain t ls ++ R) [.obj (.val (conj (v :: (spanAnds ls).1))), .list vs] R := by
    rw [filterChain, List.append_assoc]
    exact Kids.seq (.cons (ev_filterTerm h hg hR) (.cons (Kids.star hev).ev .nil))
  refine hk.rule ?_
  rw [orOfAnds, groups_span, List.map_cons]
  exact visitFilters_or hf (conj_condition h.cond) (by simpa using hc)

omit U S in
theorem orOfAnds_condition {v : Val} {ls : List FilterLink} (hv : v.isCondition = true) :
    (orOfAnds v (ls.map fun l => (l.isOr, l.value))).isCondition = true := by
  rw [orOfAnds, groups_span, List.map_cons]
  exact disj_condition (conj_condition hv)

/-- A chain in parentheses is a filter. -/
theorem factor_group {w w' t : Str} {v : Val} {ls : List FilterLink} (hw : Blanks w) (hw' : Blanks w') (h : Factor t v)
    (hg : GoodLinks ls) :
    Factor ('(' :: (w ++ (filterChain t ls ++ (w' ++ [')'])))) (orOfAnds v (ls.map fun l => (l.isOr, l.value))) := by
  refine ⟨by simp, notAt_visible (by decide), notAt_cons (by decide), notAt_cons (by decide), orOfAnds_condition h.cond, fun R hR => ?_⟩
  have e : ('(' :: (w ++ (filterChain t ls ++ (w' ++ [')'])))) ++ R = '(' :: (w ++ (filterChain t ls ++ (w' ++ ')' :: R))) := by simp
  rw [e]
  have hvis : NotAt S.isSpace (filterChain t ls ++ (w' ++ ')' :: R)) := by
    rw [filterChain, List.append_assoc]
    exact notAt_append h.ne h.visible
  have hend : FilterEnd (w' ++ ')' :: R) := ⟨w', ')', R, rfl, hw', .inl rfl⟩
  have hk : Kids (mqlGrammar .nestedExpr) ('(' :: (w ++ (filterChain t ls ++ (w' ++ ')' :: R))))
      [.list [], .list [], .obj (.val (orOfAnds v (ls.map fun l => (l.isOr, l.value)))), .list [], .list []] R :=
    Kids.seq (.cons (ev_openParen _) (.cons (ev_ws_some hw hvis) (.cons (ev_filterChain h hg hend)
      (.cons (ev_ws_some hw' (notAt_visible (by decide))) (.cons (ev_closeParen _) .nil)))))
  have hne : Ev (.rule .nestedExpr) ('(' :: (w ++ (filterChain t ls ++ (w' ++ ')' :: R))))
      (.obj (.val (orOfAnds v (ls.map fun l => (l.isOr, l.value))))) R := hk.rule rfl
  have hf : Fails (.seq [.opt (.rule .conditionOp), .alt [.rule .variable_, .rule .tagKey], ws, .rule .colon, ws, .rule .tagValue])
      ('(' :: (w ++ (filterChain t ls ++ (w' ++ ')' :: R)))) := by
    refine .seq (.pa (Kids.opt_none (.inr (fails_conditionOp (notAt_cons (by decide))))).ev.pa (.here ?_))
    exact .alt (.cons (fails_variable (notAt_cons (by decide))) (.cons (fails_plusTok rfl (.cons rfl)) .nil))
  have hk2 : Kids (mqlGrammar .filterFactor) ('(' :: (w ++ (filterChain t ls ++ (w' ++ ')' :: R))))
      [.obj (.val (orOfAnds v (ls.map fun l => (l.isOr, l.value))))] R := Kids.alt (.there hf (.here hne))
  refine hk2.rule ?_
  simp only [visitRule, visitFilterFactor, orOfAnds_condition h.cond, if_true]

/-- Every filter in the sense of the specification is read as its value. -/
theorem factor_of_text {t : Str} {v : Val} (h : FilterText t v) : Factor t v := by
  induction h with
  | compare hk hw hw' ht => exact factor_compare hk hw hw' ht
  | group hw hw' _ _ hj ih ihl => exact factor_group hw hw' ih fun l hl => ⟨ihl l hl, hj l hl⟩

end

end Verif
