import Verif.Spec.MqlReads
import Verif.Lemmas.MqlFilterChain
import Verif.Lemmas.MqlMetric

/-!
# Filters in braces and columns to group by
-/

namespace Verif

open Spec (FilterLink filterChain orOfAnds prepend addFilters addGroups optList)

section
variable [U : PyUnicode] [S : RegexSpace]

/-! ### Filters -/

/-- The filters of a query in the grammar. -/
abbrev blockPeg : Peg Rule :=
  .opt (.seq [.rule .openBrace, .opt (.seq [ws, .rule .filterExpr, ws]), .rule .closeBrace])

/-- What the visitor makes of the filters of a query. -/
def PackedBlock (fs : List Val) (v : V) : Prop :=
  ∃ p, packedFilters v = .ok p ∧ (fs = [] ∧ p.truthy = false ∨
    ∃ c a z, fs = [c] ∧ c.isCondition = true ∧ p = .list [.list [a, .obj (.val c), z]])

theorem ev_block {b R : Str} {fs : List Val} (h : BlockText b fs) (hb : b = [] → NotAt (· == '{') R) :
    ∃ v, Ev blockPeg (b ++ R) v R ∧ PackedBlock fs v := by
  cases h with
  | none => exact ⟨_, (Kids.opt_none (.inr (.seq (.here (fails_openBrace (hb rfl)))))).ev, _, rfl, .inl ⟨rfl, rfl⟩⟩
  | empty =>
    have hf : Fails (.rule .filterExpr) ('}' :: R) :=
      .rule (.seq (.here (.rule (.seq (.here (fails_factor rfl (by decide) (by decide) (by decide)))))))
    refine ⟨_, (Kids.opt_some (by simp) (Kids.seq (.cons (ev_openBrace _) (.cons (Kids.opt_none (.inr (.seq ?_))).ev
      (.cons (ev_closeBrace _) .nil)))).ev).ev, _, rfl, .inl ⟨rfl, rfl⟩⟩
    exact .pa (ev_ws_none (notAt_visible (by decide))).pa (.here hf)
  | @some w w' t v ls hw hw' ht hl hj =>
    have hft := factor_of_text ht
    have hg : GoodLinks ls := fun l h => ⟨factor_of_text (hl l h), hj l h⟩
    have e : ('{' :: (w ++ (filterChain t ls ++ (w' ++ ['}'])))) ++ R = '{' :: (w ++ (filterChain t ls ++ (w' ++ '}' :: R))) := by simp
    have hev := ev_filterChain hft hg (R := w' ++ '}' :: R) ⟨w', '}', R, rfl, hw', .inr rfl⟩
    have hvis : NotAt S.isSpace (filterChain t ls ++ (w' ++ '}' :: R)) := by
      rw [filterChain, List.append_assoc]
      exact notAt_append hft.ne hft.visible
    rw [e]
    refine ⟨_, (Kids.opt_some (by simp) (Kids.seq (.cons (ev_openBrace _) (.cons (Kids.opt_some ?_ (Kids.seq (.cons (ev_ws_some hw hvis)
      (.cons hev (.cons (ev_ws_some hw' (notAt_visible (by decide))) .nil)))).ev).ev (.cons (ev_closeBrace _) .nil)))).ev).ev,
      _, rfl, .inr ⟨_, _, _, rfl, orOfAnds_condition hft.cond, rfl⟩⟩
    simp

omit U in
theorem BlockText.head {b : Str} {fs : List Val} (h : BlockText b fs) (hne : b ≠ []) : ∃ r, b = '{' :: r := by
  cases h with
  | none => exact absurd rfl hne
  | empty => exact ⟨_, rfl⟩
  | some => exact ⟨_, rfl⟩

omit U in
theorem BlockText.conditions {b : Str} {fs : List Val} (h : BlockText b fs) : fs.length ≤ 1 := by
  cases h <;> simp

/-! ### Columns -/

theorem ev_groupByName {k R : Str} (hk : KeyText k) (hR : NotAt isKeyChar R) :
    Ev (.rule .groupByName) (k ++ R) (.obj (.val (keyColumn k))) R :=
  ev_plusTok rfl hk.ne hk.all hR (by simp only [visitRule, visitColumn, mkColumn_key hk]; rfl)

theorem ev_keys {r : Str} {ks : List Str} (h : KeysText r ks) : ∀ R,
    NotAt isKeyChar (r ++ R) ∧ ∃ w, Blanks w ∧ ∃ vs, EvStar (.seq [ws, .rule .comma, ws, .rule .groupByName]) (r ++ R) vs (w ++ ')' :: R) ∧
      fourths vs = .ok ((ks.map keyColumn).map fun v => .obj (.val v)) := by
  induction h with
  | @nil w hw =>
    intro R
    have e : (w ++ [')']) ++ R = w ++ ')' :: R := by simp
    rw [e]
    refine ⟨notAt_key_blanks hw (.cons rfl), w, hw, [], .stop (.inr (.seq ?_)), rfl⟩
    exact .pa (ev_ws_some hw (notAt_visible (by decide))).pa (.here (fails_comma (notAt_cons (by decide))))
  | @cons w w' k r ks hw hw' hk _ ih =>
    intro R
    obtain ⟨hn, w2, hw2, vs, hev, hf⟩ := ih R
    have e : (w ++ ',' :: (w' ++ (k ++ r))) ++ R = w ++ ',' :: (w' ++ (k ++ (r ++ R))) := by simp
    rw [e]
    refine ⟨notAt_key_blanks hw (.cons rfl), w2, hw2, _, .cons (Kids.seq (.cons (ev_ws_some hw (notAt_visible (by decide)))
      (.cons (ev_comma _) (.cons (ev_ws_some hw' hk.visible) (.cons (ev_groupByName hk hn) .nil))))).ev ?_ hev, ?_⟩
    · simp only [List.length_append, List.length_cons]; omega
    · simp only [fourths, hf, ok_bind, List.map_cons]

/-- What the visitor makes of the columns. -/
def PackedGroup (gs : List Val) (v : V) : Prop :=
  (∀ g ∈ gs, g.isGroupItem = true) ∧ (gs = [] ∧ v = .list [] ∨ gs ≠ [] ∧ ∃ x, v = .list [x] ∧ groupItems x = gs)

theorem ev_group {g R : Str} {gs : List Val} (h : GroupText g gs) (hk : NotAt isKeyChar R) (hR : R = [] ∨ Fails (.rule .groupBy) R) :
    ∃ v, Ev (.opt (.rule .groupBy)) (g ++ R) v R ∧ PackedGroup gs v := by
  cases h with
  | none => exact ⟨_, (Kids.opt_none hR).ev, by simp, .inl ⟨rfl, rfl⟩⟩
  | @one w w' k hw hw' hne hkey =>
    have e : (w ++ (c!"by" ++ (w' ++ k))) ++ R = w ++ (c!"by" ++ (w' ++ (k ++ R))) := by simp
    rw [e]
    have hkids : Kids (mqlGrammar .groupBy) (w ++ (c!"by" ++ (w' ++ (k ++ R))))
        [.list [], .list [], .list [], .list [.obj (.val (keyColumn k))]] R :=
      Kids.seq (.cons (ev_ws_some hw (notAt_visible (by decide))) (.cons Kids.lit.ev (.cons (ev_ws_some hw' hkey.visible)
        (.cons (Kids.alt (.here (ev_groupByName hkey hk))).ev .nil))))
    have hev : Ev (.rule .groupBy) (w ++ (c!"by" ++ (w' ++ (k ++ R)))) (.obj (.val (keyColumn k))) R := hkids.rule rfl
    exact ⟨_, (Kids.opt_some (by simp) hev).ev, by simp [keyColumn, Val.isGroupItem], .inr ⟨by simp, _, rfl, rfl⟩⟩
  | @many w w' w'' k r ks hw hw' hw'' hkey hr =>
    obtain ⟨hn, w2, hw2, vs, hev, hf⟩ := ev_keys hr R
    have e : (w ++ (c!"by" ++ (w' ++ '(' :: (w'' ++ (k ++ r))))) ++ R = w ++ (c!"by" ++ (w' ++ '(' :: (w'' ++ (k ++ (r ++ R))))) := by simp
    rw [e]
    have htuple : Kids (mqlGrammar .groupByNameTuple) ('(' :: (w'' ++ (k ++ (r ++ R))))
        [.list [], .list [], .obj (.val (keyColumn k)), .list vs, .list [], .list []] R :=
      Kids.seq (.cons (ev_openParen _) (.cons (ev_ws_some hw'' hkey.visible) (.cons (ev_groupByName hkey hn)
        (.cons (Kids.star hev).ev (.cons (ev_ws_some hw2 (notAt_visible (by decide))) (.cons (ev_closeParen _) .nil))))))
    have htev : Ev (.rule .groupByNameTuple) ('(' :: (w'' ++ (k ++ (r ++ R))))
        (.list (((k :: ks).map keyColumn).map fun v => .obj (.val v))) R :=
      htuple.rule (by simp only [visitRule, visitGroupTuple, V.items, ok_bind, hf, List.map_cons])
    have hkids : Kids (mqlGrammar .groupBy) (w ++ (c!"by" ++ (w' ++ '(' :: (w'' ++ (k ++ (r ++ R))))))
        [.list [], .list [], .list [], .list [.list (((k :: ks).map keyColumn).map fun v => .obj (.val v))]] R :=
      Kids.seq (.cons (ev_ws_some hw (notAt_visible (by decide))) (.cons Kids.lit.ev (.cons (ev_ws_some hw' (notAt_visible (by decide)))
        (.cons (Kids.alt (.there (fails_plusTok rfl (.cons rfl)) (.here htev))).ev .nil))))
    have hgev : Ev (.rule .groupBy) (w ++ (c!"by" ++ (w' ++ '(' :: (w'' ++ (k ++ (r ++ R))))))
        (.list (((k :: ks).map keyColumn).map fun v => .obj (.val v))) R := hkids.rule rfl
    refine ⟨_, (Kids.opt_some (by simp) hgev).ev, ?_, .inr ⟨by simp, _, rfl, ?_⟩⟩
    · intro g hg
      obtain ⟨k', _, rfl⟩ := List.mem_map.1 hg
      rfl
    · rw [groupItems, toVals_objs]

omit U in
/-- What is before the columns does not matter for a visible character other than `b`. -/
theorem GroupText.notAt {g R : Str} {gs : List Val} (h : GroupText g gs) {d : Char} (hd : 33 ≤ d.toNat ∧ d.toNat < 127) (hb : d ≠ 'b')
    (hR : NotAt (· == d) R) : NotAt (· == d) (g ++ R) := by
  have key : ∀ w r, Blanks w → NotAt (· == d) (w ++ (c!"by" ++ r)) := by
    intro w r hw
    cases w with
    | nil => exact notAt_cons hb.symm
    | cons c w =>
      refine notAt_cons ?_
      rintro rfl
      have := hw c (by simp)
      rw [S.visible c hd.1 hd.2] at this
      cases this
  cases h with
  | none => exact hR
  | one hw _ _ _ => rw [List.append_assoc, List.append_assoc]; exact key _ _ hw
  | many hw _ _ _ _ => rw [List.append_assoc, List.append_assoc]; exact key _ _ hw

/-! ### What the visitor makes of them -/

/-- Absent, or a list of conditions or columns. -/
def OptAll (p : Val → Bool) (v : Val) : Prop := v = .none ∨ ∃ xs, v = .list xs ∧ xs.all p = true

/-- The filters and columns of a query are absent or lists, and a timeseries is valid. -/
def Good : MVal → Prop
  | .ts t => t.validate = .ok () ∧ OptAll Val.isCondition t.filters ∧ OptAll Val.isGroupItem t.groupby
  | .formula _ _ _ f g => OptAll Val.isCondition f ∧ OptAll Val.isGroupItem g
  | _ => True

omit U S in
theorem OptAll.items {p : Val → Bool} {v : Val} (h : OptAll p v) {xs : List Val} (hx : xs ≠ []) (hp : ∀ x ∈ xs, p x = true) :
    ∃ ys, currentItems v = .ok ys ∧ prepend xs v = .list (xs ++ ys) ∧ (xs ++ ys).all p = true := by
  rcases h with rfl | ⟨ys, rfl, hy⟩
  · refine ⟨[], rfl, ?_, ?_⟩
    · cases xs with
      | nil => exact absurd rfl hx
      | cons x xs => simp [prepend]
    · rw [List.append_nil]; exact List.all_eq_true.2 hp
  · refine ⟨ys, ?_, rfl, ?_⟩
    · cases ys with
      | nil => rfl
      | cons y ys => rfl
    · rw [List.all_append, hy, List.all_eq_true.2 hp]; rfl

omit U S in
theorem OptAll.prepend {p : Val → Bool} {v : Val} (h : OptAll p v) {xs : List Val} (hp : ∀ x ∈ xs, p x = true) : OptAll p (prepend xs v) := by
  by_cases hx : xs = []
  · subst hx
    rcases h with rfl | ⟨ys, rfl, hy⟩
    · exact .inl rfl
    · exact .inr ⟨ys, rfl, hy⟩
  · obtain ⟨ys, _, h1, h2⟩ := h.items hx hp
    exact .inr ⟨_, h1, h2⟩

omit U S in
theorem OptAll.opt {p : Val → Bool} {v : Val} (h : OptAll p v) : optListOf p v = true := by
  rcases h with rfl | ⟨ys, rfl, hy⟩
  · rfl
  · exact hy

omit U S in
theorem validate_parts {t : TimeseriesObj} (h : t.validate = .ok ()) :
    t.metric.validate = .ok () ∧ t.aggregate.isStr = true ∧ optListOf isLiteral t.aggregateParams = true := by
  simp only [TimeseriesObj.validate, bind_eq_ok, ensure_eq_ok] at h
  obtain ⟨_, h1, _, h2, _, h3, _⟩ := h
  exact ⟨h1, h2, h3⟩

omit U S in
theorem validate_of_parts {t : TimeseriesObj} (h1 : t.metric.validate = .ok ()) (h2 : t.aggregate.isStr = true)
    (h3 : optListOf isLiteral t.aggregateParams = true) (h4 : OptAll Val.isCondition t.filters) (h5 : OptAll Val.isGroupItem t.groupby) :
    t.validate = .ok () := by
  simp only [TimeseriesObj.validate, h1, h2, h3, h4.opt, h5.opt, ensure, if_true, ok_bind]

omit U S in
theorem mkTimeseries_ok {t : TimeseriesObj} (h : t.validate = .ok ()) :
    mkTimeseries (.metric t.metric) t.aggregate t.aggregateParams t.filters t.groupby = .ok t := by
  simp only [mkTimeseries, asMetric, ok_bind, h]

omit U S in
theorem Good.addFilters {q : MVal} (h : Good q) {fs : List Val} (hp : ∀ x ∈ fs, x.isCondition = true) : Good (addFilters fs q) := by
  cases q <;> try exact trivial
  · obtain ⟨h1, h2, h3⟩ := h
    have := validate_parts h1
    exact ⟨validate_of_parts this.1 this.2.1 this.2.2 (h2.prepend hp) h3, h2.prepend hp, h3⟩
  · exact ⟨h.1.prepend hp, h.2⟩

omit U S in
theorem Good.addGroups {q : MVal} (h : Good q) {gs : List Val} (hp : ∀ x ∈ gs, x.isGroupItem = true) : Good (addGroups gs q) := by
  cases q <;> try exact trivial
  · obtain ⟨h1, h2, h3⟩ := h
    have := validate_parts h1
    exact ⟨validate_of_parts this.1 this.2.1 this.2.2 h2 (h3.prepend hp), h2, h3.prepend hp⟩
  · exact ⟨h.1, h.2.prepend hp⟩

omit U S in
theorem IsQuery.addFilters {q : MVal} (h : IsQuery q) (fs : List Val) : IsQuery (addFilters fs q) := by
  cases q <;> exact h

omit U S in
theorem IsQuery.addGroups {q : MVal} (h : IsQuery q) (gs : List Val) : IsQuery (addGroups gs q) := by
  cases q <;> exact h

omit U S in
theorem prepend_nil {p : Val → Bool} {v : Val} (h : OptAll p v) : prepend [] v = v := by
  rcases h with rfl | ⟨ys, rfl, _⟩ <;> rfl

omit U S in
theorem PackedBlock.cond {fs : List Val} {v : V} (h : PackedBlock fs v) : ∀ x ∈ fs, x.isCondition = true := by
  obtain ⟨p, _, ⟨rfl, _⟩ | ⟨c, a, z, rfl, hc, _⟩⟩ := h
  · simp
  · simpa using hc

omit U S in
theorem PackedBlock.add {fs : List Val} {v : V} {q : MVal} (h : PackedBlock fs v) (hq : IsQuery q) (hg : Good q) :
    ∃ p, packedFilters v = .ok p ∧ addFilterIf p q = .ok (addFilters fs q) := by
  have hcond := h.cond
  obtain ⟨p, hp, ⟨rfl, ht⟩ | ⟨c, a, z, rfl, hc, rfl⟩⟩ := h
  · refine ⟨p, hp, ?_⟩
    rw [addFilterIf, ht]
    cases q with
    | ts t => simp only [addFilters, prepend_nil hg.2.1]; rfl
    | formula n ps a f g => simp only [addFilters, prepend_nil hg.1]; rfl
    | _ => cases hq
  · refine ⟨_, hp, ?_⟩
    have hg' := hg.addFilters hcond
    cases q with
    | ts t =>
      obtain ⟨ys, h1, h2, h3⟩ := hg.2.1.items (by simp) hcond
      rw [addFilters, h2] at hg' ⊢
      have hm := mkTimeseries_ok hg'.1
      simp only [List.cons_append, List.nil_append] at h3 hm ⊢
      simp only [addFilterIf, V.truthy, List.isEmpty_cons, Bool.not_false, if_true, addFilter, MVal.filters, ok_bind, h1,
        MVal.setFilters, TimeseriesObj.setFilters, listType, V.toVal, h3, Bool.or_true, ensure, hm]
      rfl
    | formula n ps a f g =>
      obtain ⟨ys, h1, h2, h3⟩ := hg.1.items (by simp) hcond
      simp only [List.cons_append, List.nil_append] at h3 h2
      rw [addFilters, h2]
      simp only [addFilterIf, V.truthy, List.isEmpty_cons, Bool.not_false, if_true, addFilter, MVal.filters, ok_bind, h1,
        MVal.setFilters, setFormulaFilters, listType, V.toVal, h3, Bool.or_true, ensure]
    | _ => cases hq

omit U S in
theorem PackedGroup.add {gs : List Val} {v : V} {q : MVal} (h : PackedGroup gs v) (hq : IsQuery q) (hg : Good q) :
    addGroupbyIf v q = .ok (addGroups gs q) := by
  obtain ⟨hcond, ⟨rfl, rfl⟩ | ⟨hne, x, rfl, hx⟩⟩ := h
  · rw [addGroupbyIf]
    cases q with
    | ts t => simp only [addGroups, prepend_nil hg.2.2]; rfl
    | formula n ps a f g => simp only [addGroups, prepend_nil hg.2]; rfl
    | _ => cases hq
  · have hg' := hg.addGroups hcond
    cases q with
    | ts t =>
      obtain ⟨ys, h1, h2, h3⟩ := hg.2.2.items hne hcond
      rw [addGroups, h2] at hg' ⊢
      have hm := mkTimeseries_ok hg'.1
      simp only at hm
      simp only [addGroupbyIf, V.truthy, List.isEmpty_cons, Bool.not_false, if_true, addGroupby, MVal.groupby, ok_bind, h1, V.item0, hx,
        MVal.setGroupby, TimeseriesObj.setGroupby, listType, h3, Bool.or_true, ensure, hm]
      rfl
    | formula n ps a f g =>
      obtain ⟨ys, h1, h2, h3⟩ := hg.2.items hne hcond
      rw [addGroups, h2]
      simp only [addGroupbyIf, V.truthy, List.isEmpty_cons, Bool.not_false, if_true, addGroupby, MVal.groupby, ok_bind, h1, V.item0, hx,
        MVal.setGroupby, setFormulaGroupby, listType, h3, Bool.or_true, ensure]
    | _ => cases hq

end

end Verif
