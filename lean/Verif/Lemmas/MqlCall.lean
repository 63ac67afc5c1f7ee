import Verif.Lemmas.MqlBlock

/-!
# Calls of aggregates and functions
-/

namespace Verif

open Spec (Arg argsText addFilters addGroups optList)

section
variable [U : PyUnicode] [S : RegexSpace]

/-! ### The metric of an aggregate -/

theorem fails_groupBy_blanks {w r : Str} {d : Char} (hw : Blanks w) (hd : 33 ≤ d.toNat ∧ d.toNat < 127) (hb : d ≠ 'b') :
    Fails (.rule .groupBy) (w ++ d :: r) := by
  refine fails_groupBy ?_
  rw [skip_append hw (notAt_visible hd)]
  exact notAt_cons hb

omit U in
theorem MetricText.series {m : Str} {o : MetricObj} (h : MetricText m o) :
    placeholderSeries o = .ok ⟨o, .str aggregatePlaceholder, .none, .none, .none⟩ := by
  cases h <;> rfl

omit U S in
theorem PackedBlock.inner {fs : List Val} {v : V} {t : TimeseriesObj} (h : PackedBlock fs v) (ht : t.validate = .ok ())
    (hf : t.filters = .none) (hg : OptAll Val.isGroupItem t.groupby) :
    ∃ p, packedFilters v = .ok p ∧ innerFilters p t = .ok { t with filters := optList fs } ∧
      ({ t with filters := optList fs } : TimeseriesObj).validate = .ok () := by
  have hp := validate_parts ht
  obtain ⟨p, hp', ⟨rfl, hfalse⟩ | ⟨c, a, z, rfl, hc, rfl⟩⟩ := h
  · have e : ({ t with filters := optList [] } : TimeseriesObj) = t := by
      cases t; simp only at hf; rw [hf]; rfl
    rw [e]
    exact ⟨p, hp', by unfold innerFilters; rw [hfalse]; rfl, ht⟩
  · have hv : ({ t with filters := optList [c] } : TimeseriesObj).validate = .ok () :=
      validate_of_parts hp.1 hp.2.1 hp.2.2 (.inr ⟨[c], rfl, by simpa using hc⟩) hg
    refine ⟨_, hp', ?_, hv⟩
    have hm := mkTimeseries_ok hv
    simp only [optList] at hm
    simp only [innerFilters, V.truthy, List.isEmpty_cons, Bool.not_false, if_true, TimeseriesObj.setFilters, V.toVal, listType, List.all_cons,
      hc, List.all_nil, Bool.and_true, Bool.or_true, ensure, ok_bind, hm, optList]

omit U S in
theorem PackedGroup.inner {gs : List Val} {v : V} {t : TimeseriesObj} (h : PackedGroup gs v) (ht : t.validate = .ok ())
    (hf : OptAll Val.isCondition t.filters) (hg : t.groupby = .none) :
    innerGroupby v t = .ok { t with groupby := optList gs } := by
  have hp := validate_parts ht
  obtain ⟨hall, ⟨rfl, rfl⟩ | ⟨hne, x, rfl, hx⟩⟩ := h
  · have e : ({ t with groupby := optList [] } : TimeseriesObj) = t := by
      cases t; simp only at hg; rw [hg]; rfl
    rw [e]
    rfl
  · have e : optList gs = .list gs := by
      cases gs with
      | nil => exact absurd rfl hne
      | cons g gs => rfl
    have hv : ({ t with groupby := optList gs } : TimeseriesObj).validate = .ok () :=
      validate_of_parts hp.1 hp.2.1 hp.2.2 hf (.inr ⟨gs, e, List.all_eq_true.2 hall⟩)
    have hm := mkTimeseries_ok hv
    rw [e] at hm ⊢
    simp only at hm
    simp only [innerGroupby, V.truthy, List.isEmpty_cons, Bool.not_false, if_true, V.item0, ok_bind, TimeseriesObj.setGroupby, hx, listType,
      List.all_eq_true.2 hall, Bool.or_true, ensure, hm]

omit U S in
theorem optAll_optList {p : Val → Bool} {xs : List Val} (h : ∀ x ∈ xs, p x = true) : OptAll p (optList xs) := by
  cases xs with
  | nil => exact .inl rfl
  | cons x xs => exact .inr ⟨_, rfl, List.all_eq_true.2 h⟩

/-- A metric with its filters and columns. -/
theorem ev_inner {i r : Str} {o : MetricObj} {fs gs : List Val} (h : InnerText i o fs gs) :
    (∀ x ∈ fs, x.isCondition = true) ∧ (∀ x ∈ gs, x.isGroupItem = true) ∧ o.validate = .ok () ∧
    ∃ w, Blanks w ∧ Ev (.rule .innerFilter) (i ++ ')' :: r)
      (.obj (.ts ⟨o, .str aggregatePlaceholder, .none, optList fs, optList gs⟩)) (w ++ ')' :: r) := by
  have main : ∀ m b g w : Str, MetricText m o → BlockText b fs → GroupText g gs → Blanks w → (b ≠ [] ∨ g = [] ∧ w = []) →
      (∀ x ∈ fs, x.isCondition = true) ∧ (∀ x ∈ gs, x.isGroupItem = true) ∧ o.validate = .ok () ∧
      Ev (.rule .innerFilter) (m ++ (b ++ (g ++ (w ++ ')' :: r))))
        (.obj (.ts ⟨o, .str aggregatePlaceholder, .none, optList fs, optList gs⟩)) (w ++ ')' :: r) := by
    intro m b g w hm hb hg hw hne
    have hd : ∃ d s, b ++ (g ++ (w ++ ')' :: r)) = d :: s ∧ (d = ')' ∨ d = '{') := by
      rcases hne with hne | ⟨rfl, rfl⟩
      · obtain ⟨s, rfl⟩ := hb.head hne
        exact ⟨_, _, rfl, .inr rfl⟩
      · cases hb with
        | none => exact ⟨_, _, rfl, .inl rfl⟩
        | empty => exact ⟨_, _, rfl, .inr rfl⟩
        | some => exact ⟨_, _, rfl, .inr rfl⟩
    obtain ⟨d, s, hds, hd⟩ := hd
    have hmetric := ev_metric (r := s) hm hd
    rw [← hds] at hmetric
    have hgroup := ev_group hg (R := w ++ ')' :: r) (notAt_key_blanks hw (.cons rfl))
      (.inr (fails_groupBy_blanks hw (by decide) (by decide)))
    have hblock := ev_block hb (R := g ++ (w ++ ')' :: r)) (fun hnil => by
      rcases hne with hne | ⟨rfl, rfl⟩
      · exact absurd hnil hne
      · exact notAt_cons (by decide))
    obtain ⟨bv, hbev, hbp⟩ := hblock
    obtain ⟨gv, hgev, hgp⟩ := hgroup
    have hk : Kids (mqlGrammar .innerFilter) (m ++ (b ++ (g ++ (w ++ ')' :: r)))) [.list [.obj (.metric o)], bv, gv] (w ++ ')' :: r) :=
      Kids.seq (.cons hmetric (.cons hbev (.cons hgev .nil)))
    have hv0 : (⟨o, .str aggregatePlaceholder, .none, .none, .none⟩ : TimeseriesObj).validate = .ok () :=
      validate_of_parts hm.validate rfl rfl (.inl rfl) (.inl rfl)
    obtain ⟨p, hp1, hp2, hv1⟩ := hbp.inner hv0 rfl (.inl rfl)
    have hg1 := hgp.inner hv1 (optAll_optList hbp.cond) rfl
    refine ⟨hbp.cond, hgp.1, hm.validate, hk.rule ?_⟩
    simp only [visitRule, visitInnerFilter, hp1, ok_bind, V.metric0, V.item0, hm.series, hp2, hg1]
  cases h with
  | plain hm =>
    obtain ⟨h1, h2, h3, h4⟩ := main i [] [] [] hm .none .none (by simp [Blanks]) (.inr ⟨rfl, rfl⟩)
    exact ⟨h1, h2, h3, [], by simp [Blanks], h4⟩
  | @filtered m b g w _ _ _ hm hb hne hg hw =>
    obtain ⟨h1, h2, h3, h4⟩ := main m b g w hm hb hg hw (.inl hne)
    refine ⟨h1, h2, h3, w, hw, ?_⟩
    simpa using h4

omit U in
theorem InnerText.visible {i r : Str} {o : MetricObj} {fs gs : List Val} (h : InnerText i o fs gs) : NotAt S.isSpace (i ++ r) := by
  cases h with
  | plain hm => exact notAt_append hm.ne hm.visible
  | filtered hm _ _ _ _ => rw [List.append_assoc]; exact notAt_append hm.ne hm.visible

omit U in
theorem blank_free {w : Str} (hw : Blanks w) : ∀ x ∈ w, isFree x = true ∧ x ≠ ':' := by
  intro x hx
  have h := hw x hx
  have hne : ∀ d : Char, 33 ≤ d.toNat → d.toNat < 127 → x ≠ d := by
    rintro d h1 h2 rfl
    rw [S.visible x h1 h2] at h
    cases h
  refine ⟨?_, hne _ (by decide) (by decide)⟩
  simp only [isFree, Bool.not_eq_true', Bool.or_eq_false_iff, beq_eq_false_iff_ne]
  exact ⟨⟨⟨hne _ (by decide) (by decide), hne _ (by decide) (by decide)⟩, hne _ (by decide) (by decide)⟩, hne _ (by decide) (by decide)⟩

omit U in
/-- The first bracket behind the parenthesis that opens an aggregate. -/
theorem InnerText.upTo {w i r : Str} {o : MetricObj} {fs gs : List Val} (h : InnerText i o fs gs) (hw : Blanks w) :
    ∃ d R, Paren d ∧ UpTo d R (w ++ (i ++ ')' :: r)) ∧ (d = ')' → R = r) := by
  have hfree : ∀ m : Str, MetricText m o → ∀ x ∈ w ++ m, isFree x = true := by
    intro m hm x hx
    rcases List.mem_append.1 hx with hx | hx
    · exact (blank_free hw x hx).1
    · exact hm.free x hx
  cases h with
  | plain hm => exact ⟨')', r, .inr (.inl rfl), ⟨w ++ i, by simp, hfree i hm⟩, fun _ => rfl⟩
  | @filtered m b g w' _ _ _ hm hb hne hg hw' =>
    obtain ⟨s, rfl⟩ := hb.head hne
    exact ⟨'{', s ++ (g ++ (w' ++ ')' :: r)), .inr (.inr rfl), ⟨w ++ m, by simp, hfree m hm⟩, fun h => (by cases h)⟩

/-! ### Parameters of aggregates -/

omit U in
theorem ValueEnd.num {R : Str} (h : ValueEnd R) : NumStop R := by
  intro c hc
  rcases h c hc with h | h
  · cases hd : isDigit c || c == '.' with
    | false => exact hd
    | true =>
      have hv : S.isSpace c = false := by
        simp only [Bool.or_eq_true, beq_iff_eq] at hd
        rcases hd with hd | rfl
        · exact isDigit_not_space hd
        · exact S.visible _ (by decide) (by decide)
      rw [h] at hv
      cases hv
  · simp only [List.mem_cons, List.not_mem_nil, or_false] at h
    rcases h with rfl | rfl | rfl | rfl <;> rfl

omit U in
theorem ParamText.head {t : Str} {v : Val} (h : ParamText t v) : t ≠ [] ∧ NotAt S.isSpace t ∧ isLiteral v = true := by
  cases h with
  | number h =>
    obtain ⟨c, r, rfl, hc⟩ := h.head
    exact ⟨by simp, .cons (isDigit_not_space hc), rfl⟩
  | quoted h => exact ⟨by simp [quoteText], notAt_visible (by decide), rfl⟩
  | bare h _ =>
    cases t with
    | nil => exact absurd rfl h.1
    | cons c t => exact ⟨by simp, .cons (h.2 c (by simp)).2, rfl⟩

theorem ev_param {t R : Str} {v : Val} (h : ParamText t v) (hR : ValueEnd R) :
    Ev (.rule .paramExpression) (t ++ R) (.obj (.val v)) R := by
  cases h with
  | number h =>
    have hk : Kids (mqlGrammar .paramExpression) _ [_] R := Kids.alt (.here (ev_number h hR.num))
    exact hk.rule rfl
  | @quoted s h =>
    have hs : Ev (.rule .quotedString) (quoteText s ++ R) (.str s) R := by
      rw [quoteText_eq h]
      exact ev_quotedString s R h (unescape_safe h)
    have hk : Kids (mqlGrammar .paramExpression) _ [_] R :=
      Kids.alt (.there (fails_number (.cons rfl)) (.here hs))
    exact hk.rule rfl
  | bare h hd =>
    have hk : Kids (mqlGrammar .paramExpression) _ [_] R :=
      Kids.alt (.there (fails_number (notAt_append h.1 hd)) (.there (fails_quotedString (h.notAt (by simp))) (.here (ev_bare h hR.bare))))
    exact hk.rule rfl

omit U in
theorem ParamsTail.end {r : Str} {vs : List Val} (h : ParamsTail r vs) (R : Str) : ValueEnd (r ++ R) := by
  cases h with
  | nil hw => rw [List.append_assoc]; exact valueEnd_blanks hw (valueEnd_cons (by simp))
  | cons hw _ _ _ => rw [List.append_assoc]; exact valueEnd_blanks hw (valueEnd_cons (by simp))

theorem ev_paramsStar {r : Str} {vs : List Val} (h : ParamsTail r vs) : ∀ (t : Str) (v : Val) (R : Str), ParamText t v →
    (∀ x ∈ v :: vs, isLiteral x = true) ∧
    ∃ us t' v' w, EvStar (.rule .param) (t ++ (r ++ R)) us (t' ++ (w ++ ')' :: R)) ∧ ParamText t' v' ∧ Blanks w ∧
      us ++ [.obj (.val v')] = (v :: vs).map fun v => .obj (.val v) := by
  induction h with
  | @nil w hw =>
    intro t v R ht
    refine ⟨by simpa using ht.head.2.2, [], t, v, w, ?_, ht, hw, rfl⟩
    · have e : (w ++ [')']) ++ R = w ++ ')' :: R := by simp
      rw [e]
      refine .stop (.inr (Fails.rule (k := .param) (.seq ?_)))
      exact .pa (ev_param ht (valueEnd_blanks hw (valueEnd_cons (by simp)))).pa (.pa (ev_ws_some hw (notAt_visible (by decide))).pa
        (.here (fails_comma (notAt_cons (by decide)))))
  | @cons w w' t1 r v1 vs hw hw' ht1 hr ih =>
    intro t v R ht
    obtain ⟨hl, us, t', v', w2, hev, ht', hw2, heq⟩ := ih t1 v1 R ht1
    refine ⟨?_, .obj (.val v) :: us, t', v', w2, ?_, ht', hw2, ?_⟩
    · intro x hx
      rcases List.mem_cons.1 hx with rfl | hx
      · exact ht.head.2.2
      · exact hl x hx
    · have e : t ++ ((w ++ ',' :: (w' ++ (t1 ++ r))) ++ R) = t ++ (w ++ ',' :: (w' ++ (t1 ++ (r ++ R)))) := by simp
      rw [e]
      have hk : Kids (mqlGrammar .param) (t ++ (w ++ ',' :: (w' ++ (t1 ++ (r ++ R))))) [.obj (.val v), .list [], .list [], .list []] (t1 ++ (r ++ R)) :=
        Kids.seq (.cons (ev_param ht (valueEnd_blanks hw (valueEnd_cons (by simp)))) (.cons (ev_ws_some hw (notAt_visible (by decide)))
          (.cons (ev_comma _) (.cons (ev_ws_some hw' (notAt_append ht1.head.1 ht1.head.2.1)) .nil))))
      have hv : visitParam [.obj (.val v), .list [], .list [], .list []] = .ok (.obj (.val v)) := by
        cases ht <;> rfl
      refine .cons (hk.rule hv) ?_ hev
      simp only [List.length_append, List.length_cons]; omega
    · simp only [List.cons_append, heq, List.map_cons]

/-- The parameters in parentheses. -/
theorem ev_params {w t r R : Str} {v : Val} {vs : List Val} (hw : Blanks w) (ht : ParamText t v) (hr : ParamsTail r vs) :
    (∀ x ∈ v :: vs, isLiteral x = true) ∧
    Ev (.seq curriedHead) ('(' :: (w ++ (t ++ (r ++ R))))
      (.list [.list [], .list [], .list [.list ((v :: vs).map fun v => .obj (.val v))], .list [], .list []]) R := by
  obtain ⟨hl, us, t', v', w2, hev, ht', hw2, heq⟩ := ev_paramsStar hr t v R ht
  refine ⟨hl, ?_⟩
  have hk : Kids (mqlGrammar .aggregateList) (t ++ (r ++ R)) [.list us, .obj (.val v')] (w2 ++ ')' :: R) :=
    Kids.seq (.cons (Kids.star hev).ev (.cons (ev_param ht' (valueEnd_blanks hw2 (valueEnd_cons (by simp)))) .nil))
  have hl : Ev (.rule .aggregateList) (t ++ (r ++ R)) (.list ((v :: vs).map fun v => .obj (.val v))) (w2 ++ ')' :: R) :=
    hk.rule (by simp only [visitRule, visitAggregateList, heq])
  have hne : t ++ (r ++ R) ≠ [] := by simp [ht.head.1]
  exact (Kids.seq (.cons (ev_openParen _) (.cons (ev_ws_some hw (notAt_append ht.head.1 ht.head.2.1)) (.cons (Kids.opt_some hne hl).ev
    (.cons (ev_ws_some hw2 (notAt_visible (by decide))) (.cons (ev_closeParen _) .nil)))))).ev

/-! ### Aggregates -/

/-- The alternatives of a function. -/
abbrev functionAlts : List (Peg Rule) :=
  [.rule .curriedAggregate, .rule .curriedArbitraryFunction, .rule .aggregate, .rule .arbitraryFunction]

/-- The metric in parentheses. -/
abbrev innerSeq : List (Peg Rule) := [.rule .openParen, ws, .rule .innerFilter, ws, .rule .closeParen]

omit U S in
theorem toVal_list (vs : List Val) : (V.list (vs.map fun v => .obj (.val v))).toVal = .list vs := by
  rw [V.toVal, toVals_objs]

theorem ev_innerSeq {w i r : Str} {o : MetricObj} {fs gs : List Val} (hw : Blanks w) (hi : InnerText i o fs gs) :
    Ev (.seq innerSeq) ('(' :: (w ++ (i ++ ')' :: r)))
      (.list [.list [], .list [], .obj (.ts ⟨o, .str aggregatePlaceholder, .none, optList fs, optList gs⟩), .list [], .list []]) r := by
  obtain ⟨_, _, _, w2, hw2, hev⟩ := ev_inner (r := r) hi
  exact (Kids.seq (.cons (ev_openParen _) (.cons (ev_ws_some hw hi.visible) (.cons hev (.cons (ev_ws_some hw2 (notAt_visible (by decide)))
    (.cons (ev_closeParen _) .nil)))))).ev

/-- What is known of a call. -/
structure Call (t : Str) (x : MVal) : Prop where
  named : ∃ n r, NameText n ∧ t = n ++ '(' :: r
  query : IsQuery x
  good : Good x
  ev : ∀ R, NotAt (· == '(') R → EvAlt functionAlts (t ++ R) (.obj x) R

theorem call_aggregate {n p w i : Str} {o : MetricObj} {ps : Val} {fs gs : List Val} (hn : NameText n) (hp : ParamsText p ps) (hw : Blanks w)
    (hi : InnerText i o fs gs) : Call (n ++ (p ++ '(' :: (w ++ (i ++ [')'])))) (.ts ⟨o, .str n, ps, optList fs, optList gs⟩) := by
  obtain ⟨hc, hg, hv, _⟩ := ev_inner (r := []) hi
  cases hp with
  | none =>
    have hval : (⟨o, .str n, .none, optList fs, optList gs⟩ : TimeseriesObj).validate = .ok () :=
      validate_of_parts hv rfl rfl (optAll_optList hc) (optAll_optList hg)
    refine ⟨⟨n, _, hn, rfl⟩, trivial, ⟨hval, optAll_optList hc, optAll_optList hg⟩, fun R hR => ?_⟩
    have e : n ++ ([] ++ '(' :: (w ++ (i ++ [')']))) ++ R = n ++ '(' :: (w ++ (i ++ ')' :: R)) := by simp
    rw [e]
    obtain ⟨d, R', hd, hup, hdR⟩ := hi.upTo (r := R) hw
    have hf := curried_fails hn hd hup (fun h => by rw [hdR h]; exact hR)
    have hk : Kids (mqlGrammar .aggregate) (n ++ '(' :: (w ++ (i ++ ')' :: R))) [_, _] R :=
      Kids.seq (.cons (ev_name rfl hn rfl) (.cons (ev_innerSeq hw hi) .nil))
    refine .there hf.1 (.there hf.2 (.here (hk.rule ?_)))
    have hm := mkTimeseries_ok hval
    simp only at hm
    have hph : (⟨o, .str aggregatePlaceholder, .none, optList fs, optList gs⟩ : TimeseriesObj).isPlaceholder = true := rfl
    have hstr : (V.str n).toVal = .str n := rfl
    simp only [visitRule, visitAggregate, V.asTimeseries, ok_bind, hph, if_true, TimeseriesObj.setAggregate, hstr, Val.isStr, Val.given, ensure,
      Bool.not_false, Bool.true_or, hm]
    rfl
  | @some w0 t r v vs hw0 ht hr =>
    obtain ⟨hlit, _⟩ := ev_params (R := []) hw0 ht hr
    have hval : (⟨o, .str n, .list (v :: vs), optList fs, optList gs⟩ : TimeseriesObj).validate = .ok () :=
      validate_of_parts hv rfl (List.all_eq_true.2 hlit) (optAll_optList hc) (optAll_optList hg)
    refine ⟨⟨n, _, hn, rfl⟩, trivial, ⟨hval, optAll_optList hc, optAll_optList hg⟩, fun R hR => ?_⟩
    have e : n ++ ('(' :: (w0 ++ (t ++ r)) ++ '(' :: (w ++ (i ++ [')']))) ++ R = n ++ '(' :: (w0 ++ (t ++ (r ++ '(' :: (w ++ (i ++ ')' :: R))))) := by simp
    rw [e]
    have hk : Kids (mqlGrammar .curriedAggregate) (n ++ '(' :: (w0 ++ (t ++ (r ++ '(' :: (w ++ (i ++ ')' :: R)))))) [_, _, _] R :=
      Kids.seq (.cons (ev_name rfl hn rfl) (.cons (ev_params hw0 ht hr).2 (.cons (ev_innerSeq hw hi) .nil)))
    refine .here (hk.rule ?_)
    have hm := mkTimeseries_ok hval
    simp only at hm
    have hstr : (V.str n).toVal = .str n := rfl
    have hps : aggregateParamsOf (.list [.list ((v :: vs).map fun v => .obj (.val v))]) = .ok (.list ((v :: vs).map fun v => .obj (.val v))) := rfl
    simp only [visitRule, visitCurriedAggregate, hps, V.asTimeseries, ok_bind, TimeseriesObj.setAggregate, hstr, Val.isStr, Val.isList,
      toVal_list, ensure, Bool.or_true, if_true, hm]
    rfl

/-! ### The beginnings of expressions -/

/-- No quotes, brackets and colons before the first opening parenthesis. -/
def Opening (t : Str) : Prop :=
  (∀ x ∈ t, isFree x = true ∧ x ≠ ':') ∨ ∃ a r, t = a ++ '(' :: r ∧ ∀ x ∈ a, isFree x = true ∧ x ≠ ':'

omit U S in
theorem Opening.append {t u : Str} (ht : Opening t) (hu : Opening u) : Opening (t ++ u) := by
  rcases ht with ht | ⟨a, r, rfl, ha⟩
  · rcases hu with hu | ⟨b, r, rfl, hb⟩
    · exact .inl fun x hx => (List.mem_append.1 hx).elim (ht x) (hu x)
    · exact .inr ⟨t ++ b, r, by simp, fun x hx => (List.mem_append.1 hx).elim (ht x) (hb x)⟩
  · exact .inr ⟨a, r ++ u, by simp, ha⟩

omit U S in
theorem Opening.cons {c : Char} {u : Str} (hc : isFree c = true ∧ c ≠ ':') (hu : Opening u) : Opening (c :: u) :=
  Opening.append (t := [c]) (.inl (by simpa using hc)) hu

omit U in
theorem Blanks.opening {w : Str} (h : Blanks w) : Opening w := .inl (blank_free h)

omit U S in
theorem NameText.opening {n r : Str} (h : NameText n) : Opening (n ++ '(' :: r) := by
  refine .inr ⟨n, r, rfl, fun x hx => ?_⟩
  have hc : isNameChar x = true := h.chars x hx
  have hne : ∀ d : Char, isNameChar d = false → x ≠ d := by
    rintro d hd rfl
    rw [hc] at hd
    cases hd
  refine ⟨?_, hne _ rfl⟩
  simp only [isFree, Bool.not_eq_true', Bool.or_eq_false_iff, beq_eq_false_iff_ne]
  exact ⟨⟨⟨hne _ rfl, hne _ rfl⟩, hne _ rfl⟩, hne _ rfl⟩

omit U S in
theorem NumText.opening {t : Str} {x : PyFloat} (h : NumText t x) : Opening t := by
  obtain ⟨a, f, _, ha, hf, h, _⟩ := h
  have hfree : ∀ c, isDigit c = true → isFree c = true ∧ c ≠ ':' := by
    intro c hc
    have hb := isDigit_bounds hc
    have hne : ∀ d : Char, isDigit d = false → c ≠ d := by
      rintro d hd rfl
      rw [hc] at hd
      cases hd
    refine ⟨?_, hne _ rfl⟩
    simp only [isFree, Bool.not_eq_true', Bool.or_eq_false_iff, beq_eq_false_iff_ne]
    exact ⟨⟨⟨hne _ rfl, hne _ rfl⟩, hne _ rfl⟩, hne _ rfl⟩
  refine .inl fun c hc => ?_
  rcases h with ⟨rfl, _⟩ | ⟨_, rfl⟩
  · exact hfree c (ha c hc)
  · rcases List.mem_append.1 hc with hc | hc
    · exact hfree c (ha c hc)
    · rcases List.mem_cons.1 hc with rfl | hc
      · exact ⟨rfl, by decide⟩
      · exact hfree c (hf c hc)

/-- An expression begins with a name and a parenthesis, or with another character than a small letter. -/
def Begins (t : Str) : Prop :=
  (∃ n r, NameText n ∧ t = n ++ '(' :: r) ∨
  ∃ c r, t = c :: r ∧ isLowerChar c = false ∧ c ≠ '`' ∧ 33 ≤ c.toNat ∧ c.toNat < 127

omit U S in
theorem Begins.append {t : Str} (h : Begins t) (R : Str) : Begins (t ++ R) := by
  rcases h with ⟨n, r, hn, rfl⟩ | ⟨c, r, rfl, hc⟩
  · exact .inl ⟨n, r ++ R, hn, by simp⟩
  · exact .inr ⟨c, r ++ R, rfl, hc⟩

omit U in
theorem Begins.visible {t : Str} (h : Begins t) : NotAt S.isSpace t := by
  rcases h with ⟨n, r, hn, rfl⟩ | ⟨c, r, rfl, _, _, hc⟩
  · exact notAt_append hn.ne hn.visible
  · exact notAt_visible hc

omit U S in
theorem Begins.ne {t : Str} (h : Begins t) : t ≠ [] := by
  rcases h with ⟨n, r, hn, rfl⟩ | ⟨c, r, rfl, _⟩ <;> simp

omit U S in
/-- The lower-case beginning of a name and the rest. -/
theorem lower_prefix (n : Str) (hn : ∀ c ∈ n, isNameChar c = true) : ∃ a b, n = a ++ b ∧ (∀ c ∈ a, isLowerChar c = true) ∧
    NotAt isLowerChar b ∧ ∀ c ∈ b, isNameChar c = true := by
  induction n with
  | nil => exact ⟨[], [], rfl, by simp, .nil, by simp⟩
  | cons c n ih =>
    simp only [List.mem_cons, forall_eq_or_imp] at hn
    by_cases hc : isLowerChar c = true
    · obtain ⟨a, b, rfl, ha, hb, hb'⟩ := ih hn.2
      exact ⟨c :: a, b, rfl, by simpa [hc] using ha, hb, hb'⟩
    · refine ⟨[], c :: n, rfl, by simp, .cons (by simpa using hc), ?_⟩
      simpa [hn.1] using hn.2

omit U S in
theorem publicName_head {a r : Str} (ha : a ≠ []) (hl : ∀ c ∈ a, isLowerChar c = true) (hr : NotAt (fun c => isLowerChar c || c == '.') r) :
    (publicNameRe.run (a ++ r)).head? = some r :=
  publicNameRe_head ⟨a, [], by simp, ⟨ha, hl⟩, by simp⟩ hr

/-- An expression is not a metric in parentheses. -/
theorem fails_innerSeq {w s : Str} {a r : Str} {d : Char} (hw : Blanks w) (hs : Begins s) (hup : s = a ++ d :: r) (ha : ':' ∉ a)
    (hd : isMriStop d = true) : Fails (.seq innerSeq) ('(' :: (w ++ s)) := by
  refine .seq (.pa (ev_openParen _).pa (.pa (ev_ws_some hw hs.visible).pa ?_))
  have hmri : Fails (.rule .unquotedMri) s := .rule (.re (by rw [hup]; exact unquotedMriRe_fail ha hd))
  rcases hs with ⟨n, r', hn, rfl⟩ | ⟨c, r', rfl, hc, hc', _⟩
  · have hbt : NotAt (· == '`') (n ++ '(' :: r') := hn.notAt rfl
    have hq1 : Fails (.rule .quotedMri) (n ++ '(' :: r') := .rule (.seq (.here (fails_backtick hbt)))
    have hq2 : Fails (.rule .quotedPublicName) (n ++ '(' :: r') := .rule (.seq (.here (fails_backtick hbt)))
    obtain ⟨a', b, hab, hla, hlb, hnb⟩ := lower_prefix n hn.chars
    by_cases ha' : a' = []
    · have hf : Fails (.rule .unquotedPublicName) (n ++ '(' :: r') := by
        refine .rule (.re ?_)
        refine run_eq_nil fun t ht => ?_
        obtain ⟨m, hm, _⟩ := mem_run_seq.1 ht
        have : ((Regex.cls isLowerChar).plus).run (n ++ '(' :: r') = [] := plus_fail (by
          rw [hab, ha', List.nil_append]
          cases b with
          | nil => exact .cons (by decide)
          | cons x b => exact hlb)
        rw [this] at hm
        cases hm
      exact .here (.rule (.seq (.here (.rule (.alt (.cons hq1 (.cons hmri (.cons hq2 (.cons hf .nil)))))))))
    · have hbr : ∃ x t, b ++ '(' :: r' = x :: t ∧ isLowerChar x = false ∧ (isNameChar x = true ∨ x = '(') := by
        cases b with
        | nil => exact ⟨_, _, rfl, by decide, .inr rfl⟩
        | cons x b => exact ⟨x, _, rfl, hlb x (by simp), .inl (hnb x (by simp))⟩
      obtain ⟨x, t, hxt, hxl, hx⟩ := hbr
      have hxd : ∀ e : Char, isNameChar e = false → e ≠ '(' → x ≠ e := by
        rintro e h1 h2 rfl
        rcases hx with hx | hx
        · rw [hx] at h1; cases h1
        · exact h2 hx
      have hxb : x ≠ 'b' := by rintro rfl; cases hxl
      have hvis : 33 ≤ x.toNat ∧ x.toNat < 127 := by
        rcases hx with hx | rfl
        · have := isNameChar_bounds hx; omega
        · decide
      have hpub : Pa (.rule .unquotedPublicName) (n ++ '(' :: r') (b ++ '(' :: r') := by
        have : Pa (.re publicNameRe) (a' ++ (b ++ '(' :: r')) (b ++ '(' :: r') := Pa.re (publicName_head ha' hla (by
          rw [hxt]
          refine .cons ?_
          simp [hxl, hxd '.' rfl (by decide)]))
        rw [hab, List.append_assoc]
        exact Pa.rule this
      have hmet : Pa (.rule .metric) (n ++ '(' :: r') (b ++ '(' :: r') := by
        obtain ⟨nd, h⟩ := hpub
        exact Pa.rule ⟨_, .alt (.there hq1 (.there hmri (.there hq2 (.here h))))⟩
      have hin : Pa (.rule .innerFilter) (n ++ '(' :: r') (b ++ '(' :: r') := by
        refine Pa.rule (Pa.seq (.cons hmet (.cons (Pa.opt_none (.inr (.seq (.here (fails_openBrace ?_))))) (.cons (Pa.opt_none (.inr (fails_groupBy ?_))) .nil))))
        · rw [hxt]; exact notAt_cons (hxd '{' rfl (by decide))
        · rw [hxt, skip_of_notAt (notAt_visible hvis)]; exact notAt_cons hxb
      refine .pa hin (.pa (s' := b ++ '(' :: r') ?_ (.here (fails_closeParen ?_)))
      · rw [hxt]; exact (ev_ws_none (notAt_visible hvis)).pa
      · rw [hxt]; exact notAt_cons (hxd ')' rfl (by decide))
  · have hbt : NotAt (· == '`') (c :: r') := notAt_cons hc'
    have hq1 : Fails (.rule .quotedMri) (c :: r') := .rule (.seq (.here (fails_backtick hbt)))
    have hq2 : Fails (.rule .quotedPublicName) (c :: r') := .rule (.seq (.here (fails_backtick hbt)))
    have hf : Fails (.rule .unquotedPublicName) (c :: r') := by
      refine .rule (.re ?_)
      refine run_eq_nil fun t ht => ?_
      obtain ⟨m, hm, _⟩ := mem_run_seq.1 ht
      have : ((Regex.cls isLowerChar).plus).run (c :: r') = [] := plus_fail (.cons hc)
      rw [this] at hm
      cases hm
    exact .here (.rule (.seq (.here (.rule (.alt (.cons hq1 (.cons hmri (.cons hq2 (.cons hf .nil)))))))))

/-! ### Functions -/

/-- What is known of an expression. -/
structure Expr (t : Str) (x : MVal) : Prop where
  begins : Begins t
  opening : Opening t
  good : Good x
  ev : ∀ R, ChainEnd R → Ev (.rule .expression) (t ++ R) (.obj x) R

omit U in
theorem chainEnd_comma {w R : Str} (hw : Blanks w) : ChainEnd (w ++ ',' :: R) := by
  rw [ChainEnd, skip_append hw (notAt_visible (by decide))]
  exact .cons rfl

/-- The arguments after the first. -/
theorem ev_args {R : Str} : ∀ as : List Arg, (∀ a ∈ as, Expr a.text a.value ∧ Blanks a.gap ∧ Blanks a.before) →
    Opening (argsText as) ∧ ChainEnd (argsText as ++ ')' :: R) ∧
    ∃ vs, EvStar (.seq [ws, .rule .comma, ws, .rule .expression]) (argsText as ++ ')' :: R) vs (')' :: R) ∧
      lasts vs = .ok (as.map fun a => .obj a.value) := by
  intro as
  induction as with
  | nil =>
    intro _
    refine ⟨.inl (by simp [argsText]), stop_close [] R (by simp), [], .stop (.inr (.seq ?_)), rfl⟩
    exact .pa (ev_ws_none (notAt_visible (by decide))).pa (.here (fails_comma (notAt_cons (by decide))))
  | cons a as ih =>
    intro h
    simp only [List.mem_cons, forall_eq_or_imp] at h
    obtain ⟨⟨ha, hg, hb⟩, h⟩ := h
    obtain ⟨ho, hend, vs, hev, hl⟩ := ih h
    have e : argsText (a :: as) = a.gap ++ ',' :: (a.before ++ (a.text ++ argsText as)) := by simp [argsText]
    have e' : argsText (a :: as) ++ ')' :: R = a.gap ++ ',' :: (a.before ++ (a.text ++ (argsText as ++ ')' :: R))) := by simp [e]
    refine ⟨?_, ?_, ?_⟩
    · rw [e]
      exact hg.opening.append (.cons ⟨rfl, by decide⟩ (hb.opening.append (ha.opening.append ho)))
    · rw [e']; exact chainEnd_comma hg
    · rw [e']
      refine ⟨_, .cons (Kids.seq (.cons (ev_ws_some hg (notAt_visible (by decide))) (.cons (ev_comma _)
        (.cons (ev_ws_some hb (ha.begins.append _).visible) (.cons (ha.ev _ hend) .nil))))).ev ?_ hev, ?_⟩
      · simp only [List.length_append, List.length_cons]; omega
      · simp only [lasts, hl, ok_bind, List.map_cons]
        rfl

omit U S in
theorem toMVals_objs (as : List Arg) : V.toMVals (as.map fun a => .obj a.value) = as.map (·.value) := by
  induction as with
  | nil => rfl
  | cons a as ih => simp only [List.map_cons, V.toMVals, V.toMVal, ih]

omit U S in
theorem Aggregated.placeholder {x : MVal} (h : Aggregated x) : (V.obj x).isPlaceholderSeries = false := by
  cases x <;> try rfl
  rename_i t
  simp only [V.isPlaceholderSeries, TimeseriesObj.isPlaceholder]
  simp only [Aggregated] at h
  split
  · rename_i s hs
    rw [hs] at h
    simp only [beq_eq_false_iff_ne, ne_eq]
    rintro rfl
    exact h rfl
  · rfl

theorem call_function {n p w t w' : Str} {ps : Val} {x : MVal} {as : List Arg} (hn : NameText n) (hp : ParamsText p ps) (hw : Blanks w)
    (hw' : Blanks w') (hlast : as ≠ [] → w' = []) (hx : Expr t x) (ha : Aggregated x)
    (has : ∀ a ∈ as, Expr a.text a.value ∧ Blanks a.gap ∧ Blanks a.before) :
    Call (n ++ (p ++ '(' :: (w ++ (t ++ (argsText as ++ (w' ++ [')'])))))) (.formula (.str n) (.list (x :: as.map (·.value))) ps .none .none) := by
  -- the part in the parentheses
  have body : ∀ R, ∃ vs R', Ev (.seq [ws, .rule .expression, ws]) (w ++ (t ++ (argsText as ++ (w' ++ ')' :: R)))) (.list [.list [], .obj x, .list []]) R' ∧
      Ev (.seq [ws, .rule .expression, ws]) (t ++ (argsText as ++ (w' ++ ')' :: R))) (.list [.list [], .obj x, .list []]) R' ∧
      Ev (.star (.seq [ws, .rule .comma, ws, .rule .expression])) R' (.list vs) (')' :: R) ∧
      lasts vs = .ok (as.map fun a => .obj a.value) := by
    intro R
    have key : ∀ gap s, Blanks gap → NotAt S.isSpace s → ChainEnd (gap ++ s) →
        Ev (.seq [ws, .rule .expression, ws]) (w ++ (t ++ (gap ++ s))) (.list [.list [], .obj x, .list []]) s ∧
        Ev (.seq [ws, .rule .expression, ws]) (t ++ (gap ++ s)) (.list [.list [], .obj x, .list []]) s := by
      intro gap s hgap hs hend
      exact ⟨(Kids.seq (.cons (ev_ws_some hw (hx.begins.append _).visible) (.cons (hx.ev _ hend) (.cons (ev_ws_some hgap hs) .nil)))).ev,
        (Kids.seq (.cons (ev_ws_none (hx.begins.append _).visible) (.cons (hx.ev _ hend) (.cons (ev_ws_some hgap hs) .nil)))).ev⟩
    cases as with
    | nil =>
      obtain ⟨_, _, vs, hev, hl⟩ := ev_args (R := R) [] (by simp)
      have hk := key w' (')' :: R) hw' (notAt_visible (by decide)) (stop_close w' R hw')
      exact ⟨vs, ')' :: R, hk.1, hk.2, (Kids.star hev).ev, hl⟩
    | cons a as =>
      have hw'' := hlast (by simp)
      subst hw''
      have hga := (has a (by simp)).2.1
      obtain ⟨_, hend, vs, hev, hl⟩ := ev_args (R := R) ({ a with gap := [] } :: as) (by
        intro b hb
        rcases List.mem_cons.1 hb with rfl | hb
        · exact ⟨(has a (by simp)).1, by simp [Blanks], (has a (by simp)).2.2⟩
        · exact has b (by simp [hb]))
      have e : argsText (a :: as) ++ ([] ++ ')' :: R) = a.gap ++ (argsText ({ a with gap := [] } :: as) ++ ')' :: R) := by simp [argsText]
      rw [e]
      have hs : ∃ u, argsText ({ a with gap := [] } :: as) ++ ')' :: R = ',' :: u := ⟨_, by simp only [argsText, List.flatMap_cons, List.nil_append]; rfl⟩
      obtain ⟨u, hu⟩ := hs
      have hk := key a.gap (argsText ({ a with gap := [] } :: as) ++ ')' :: R) hga (by rw [hu]; exact notAt_visible (by decide))
        (by rw [hu]; exact chainEnd_comma hga)
      exact ⟨vs, _, hk.1, hk.2, (Kids.star hev).ev, hl⟩
  have hopen : Opening (t ++ (argsText as ++ w')) := hx.opening.append ((ev_args (R := []) as has).1.append hw'.opening)
  have hup : ∀ R, ∃ a d r, t ++ (argsText as ++ (w' ++ ')' :: R)) = a ++ d :: r ∧ (∀ x ∈ a, isFree x = true ∧ x ≠ ':') ∧
      (d = '(' ∨ d = ')' ∧ r = R) := by
    intro R
    have e : t ++ (argsText as ++ (w' ++ ')' :: R)) = (t ++ (argsText as ++ w')) ++ ')' :: R := by simp
    rw [e]
    rcases hopen with h | ⟨a, r, h, ha⟩
    · exact ⟨_, ')', R, rfl, h, .inr ⟨rfl, rfl⟩⟩
    · exact ⟨a, '(', r ++ ')' :: R, by rw [h]; simp, ha, .inl rfl⟩
  have hbeg : ∀ R, Begins (t ++ R) := fun R => hx.begins.append R
  have hinner : ∀ R, Fails (.seq innerSeq) ('(' :: (w ++ (t ++ (argsText as ++ (w' ++ ')' :: R))))) := by
    intro R
    obtain ⟨a, d, r, he, ha, hd⟩ := hup R
    refine fails_innerSeq hw (hbeg _) he (fun h => (ha _ h).2 rfl) ?_
    rcases hd with rfl | ⟨rfl, _⟩ <;> rfl
  have hstr : (V.str n).toVal = .str n := rfl
  have hmv : V.toMVals (.obj x :: as.map fun a => .obj a.value) = x :: as.map (·.value) := by
    simp only [V.toMVals, V.toMVal, toMVals_objs]
  refine ⟨⟨n, (p ++ '(' :: (w ++ (t ++ (argsText as ++ (w' ++ [')']))))).tail, hn, ?_⟩, trivial, ⟨.inl rfl, .inl rfl⟩, fun R hR => ?_⟩
  · cases hp <;> rfl
  · obtain ⟨vs, R', hb1, hb2, hst, hl⟩ := body R
    cases hp with
    | none =>
      have e : n ++ ([] ++ '(' :: (w ++ (t ++ (argsText as ++ (w' ++ [')']))))) ++ R = n ++ '(' :: (w ++ (t ++ (argsText as ++ (w' ++ ')' :: R)))) := by simp
      rw [e]
      obtain ⟨a, d, r, he, ha', hd⟩ := hup R
      have hup' : UpTo d r (w ++ (t ++ (argsText as ++ (w' ++ ')' :: R)))) := by
        refine ⟨w ++ a, by rw [he]; simp, fun x hx => ?_⟩
        rcases List.mem_append.1 hx with hx | hx
        · exact (blank_free hw x hx).1
        · exact (ha' x hx).1
      have hdp : Paren d := by
        rcases hd with rfl | ⟨rfl, _⟩
        · exact .inl rfl
        · exact .inr (.inl rfl)
      have hf := curried_fails hn hdp hup' (fun h => by
        rcases hd with rfl | ⟨_, rfl⟩
        · cases h
        · exact hR)
      have hagg : Fails (.rule .aggregate) (n ++ '(' :: (w ++ (t ++ (argsText as ++ (w' ++ ')' :: R))))) :=
        .rule (.seq (.pa (ev_name rfl hn rfl).pa (.here (hinner R))))
      have hk : Kids (mqlGrammar .arbitraryFunction) (n ++ '(' :: (w ++ (t ++ (argsText as ++ (w' ++ ')' :: R)))))
          [.str n, .list [.list [], .list [.list [], .obj x, .list []], .list vs, .list []]] R :=
        Kids.seq (.cons (ev_name rfl hn rfl) (.cons (Kids.seq (.cons (ev_openParen _) (.cons hb1 (.cons hst (.cons (ev_closeParen _) .nil))))).ev .nil))
      refine .there hf.1 (.there hf.2 (.there hagg (.here (hk.rule ?_))))
      simp only [visitRule, visitArbitraryFunction, hl, ok_bind, ha.placeholder, Bool.false_eq_true, if_false, hstr, hmv]
    | @some w0 t0 r0 v0 vs0 hw0 ht0 hr0 =>
      have e : n ++ ('(' :: (w0 ++ (t0 ++ r0)) ++ '(' :: (w ++ (t ++ (argsText as ++ (w' ++ [')']))))) ++ R =
          n ++ '(' :: (w0 ++ (t0 ++ (r0 ++ '(' :: (w ++ (t ++ (argsText as ++ (w' ++ ')' :: R))))))) := by simp
      rw [e]
      have hpar := (ev_params (R := '(' :: (w ++ (t ++ (argsText as ++ (w' ++ ')' :: R))))) hw0 ht0 hr0).2
      have hagg : Fails (.rule .curriedAggregate) (n ++ '(' :: (w0 ++ (t0 ++ (r0 ++ '(' :: (w ++ (t ++ (argsText as ++ (w' ++ ')' :: R)))))))) :=
        .rule (.seq (.pa (ev_name rfl hn rfl).pa (.pa hpar.pa (.here (hinner R)))))
      have hk : Kids (mqlGrammar .curriedArbitraryFunction) (n ++ '(' :: (w0 ++ (t0 ++ (r0 ++ '(' :: (w ++ (t ++ (argsText as ++ (w' ++ ')' :: R))))))))
          [_, _, .list [.list [], .list [], .list [.list [], .obj x, .list []], .list vs, .list []]] R :=
        Kids.seq (.cons (ev_name rfl hn rfl) (.cons hpar (.cons (Kids.seq (.cons (ev_openParen _)
          (.cons (ev_ws_some hw (hbeg _).visible) (.cons hb2 (.cons hst (.cons (ev_closeParen _) .nil)))))).ev .nil)))
      refine .there hagg (.here (hk.rule ?_))
      have hps : aggregateParamsOf (.list [.list ((v0 :: vs0).map fun v => .obj (.val v))]) = .ok (.list ((v0 :: vs0).map fun v => .obj (.val v))) := rfl
      have hph := ha.placeholder
      cases x with
      | ts ts =>
        simp only [V.isPlaceholderSeries] at hph
        simp only [visitRule, visitCurriedFunction, hps, hl, ok_bind, hph, Bool.false_eq_true, if_false, hstr, hmv, toVal_list]
      | _ => simp only [visitRule, visitCurriedFunction, hps, hl, ok_bind, hstr, hmv, toVal_list]

end

end Verif
