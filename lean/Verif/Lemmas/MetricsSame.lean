import Verif.Lemmas.MetricsAlike
import Verif.Props.MetricsQuery

/-!
# Lemmas: equal metrics queries are sent as the same
-/

namespace Verif
open Spec

variable {m : Bool}

theorem pyEq_kind {a b : Val} (h : Verif.pyEq a b = true) : a.given = b.given ∧ a.isStr = b.isStr ∧ a.isDirection = b.isDirection := by
  cases a <;> cases b <;> first
    | exact Bool.noConfusion h
    | exact ⟨rfl, rfl, rfl⟩

theorem switch_eq {a b : Val} (ha : Switch a) (hb : Switch b) (h : Verif.pyEq a b = true) : a = b := by
  cases ha <;> cases hb <;> first
    | rfl
    | exact Bool.noConfusion h
    | skip
  rename_i x y
  cases x <;> cases y <;> first | rfl | (simp [Verif.pyEq] at h; done)

theorem direction_eq {a b : Val} (h : Verif.pyEq a b = true) {d : Direction} (ha : a = .direction d) : b = a := by
  subst ha
  cases b <;> first
    | exact Bool.noConfusion h
    | (simp only [Verif.pyEq, beq_iff_eq] at h; rw [h]; done)

theorem Alike.asInt {a b : Val} (h : Alike m a b) : a.asInt? = b.asInt? := by
  by_cases hs : Showable a
  · rw [h.showable hs]
  · have hb : ¬ Showable b := fun hb => hs (h.symm.showable hb ▸ hb)
    have a1 := (h.left a .here).1
    have b1 := (h.right b .here).1
    have e : ∀ v : Val, ¬ Showable v → ¬ Disguised v → v.asInt? = none := by
      intro v h1 h2
      cases v <;> first
        | rfl
        | exact (h1 (.int _)).elim
        | exact (h2 (.bool _)).elim
    rw [e a hs a1, e b hb b1]

theorem Alike.intLess {a b : Val} (h : Alike m a b) (i : Int) : intLess i a = intLess i b := by
  by_cases hs : Showable a
  · rw [h.showable hs]
  · have hb : ¬ Showable b := fun hb => hs (h.symm.showable hb ▸ hb)
    have a1 := (h.left a .here).1
    have b1 := (h.right b .here).1
    have e : ∀ v : Val, ¬ Showable v → ¬ Disguised v → Verif.intLess i v = .error .typeError := by
      intro v h1 h2
      cases v <;> first
        | rfl
        | exact (h1 (.int _)).elim
        | exact (h1 (.float _)).elim
        | exact (h2 (.bool _)).elim
    rw [e a hs a1, e b hb b1]

theorem alike_int (i : Int) : Alike m (.int i) (.int i) :=
  alike_self rfl (by simp [Verif.pyEq]) (by rintro ⟨⟩) rfl (by rintro t ⟨⟩) (by rintro _ _ _ _ _ _ _ ⟨⟩)

theorem rollup_eq {a b : RollupObj} (h1 : Alike m a.interval b.interval) (h2 : Alike m a.granularity b.granularity) (h3 : a.totals = b.totals)
    (h4 : Verif.pyEq a.orderby b.orderby = true) : a.validate = b.validate := by
  have e : (fun g => Verif.pyEq a.granularity (.int g)) = fun g => Verif.pyEq b.granularity (.int g) := funext fun g => h2.pyEq (alike_int g)
  simp only [RollupObj.validate, checkInterval, validateIntLiteral, h1.asInt, h1.classes.1, h2.truthy, h2.classes.1, h3, (pyEq_kind h4).1,
    (pyEq_kind h4).2.2, e, h2.intLess]

theorem scope_eq {a b : ScopeObj} (h1 : Alike m a.orgIds b.orgIds) (h2 : Alike m a.projectIds b.projectIds)
    (h3 : Verif.pyEq a.useCaseId b.useCaseId = true) : a.validate = b.validate := by
  have e : ∀ {a b}, Alike m a b → a.isInt = b.isInt := fun h => h.classes.2.2.1
  simp only [ScopeObj.validate, h1.listType e, h2.listType e, (pyEq_kind h3).1, (pyEq_kind h3).2.1]

section
variable [U : PyUnicode] [S : RegexSpace]

theorem checkQuery_eq {x y : MVal} (h : AlikeM m x y) (hl : Legible x) : checkQuery x = checkQuery y := by
  cases hl with
  | val v hs => cases y <;> first | exact h.elim | (rw [Alike.showable h hs])
  | ts t hs =>
    cases y <;> first | exact h.elim | skip
    simp only [checkQuery, AlikeM.validateQuery h]
  | formula n p a f g =>
    cases y <;> first | exact h.elim | skip
    simp only [checkQuery, AlikeM.validateQuery h]

omit U S in
theorem checkTime_eq {x y : MVal} (h : x.pyEq y = true) : checkTime x = checkTime y := by
  cases x <;> cases y <;> first
    | rfl
    | exact Bool.noConfusion h
    | skip
  rename_i v w
  simp only [MVal.pyEq] at h
  cases v <;> cases w <;> first | rfl | exact Bool.noConfusion h

omit S in
theorem checkLimit_eq {x y : MVal} (h : x.pyEq y = true) : checkLimit x = checkLimit y := by
  cases x <;> cases y <;> first
    | rfl
    | exact Bool.noConfusion h
    | skip
  rename_i v w
  simp only [MVal.pyEq] at h
  cases v <;> cases w <;> first
    | rfl
    | exact Bool.noConfusion h
    | (simp only [Verif.pyEq, beq_iff_eq] at h; simp only [checkLimit, Val.validate, h]; done)

omit S in
theorem checkOffset_eq {x y : MVal} (h : x.pyEq y = true) : checkOffset x = checkOffset y := by
  cases x <;> cases y <;> first
    | rfl
    | exact Bool.noConfusion h
    | skip
  rename_i v w
  simp only [MVal.pyEq] at h
  cases v <;> cases w <;> first
    | rfl
    | exact Bool.noConfusion h
    | (simp only [Verif.pyEq, beq_iff_eq] at h; simp only [checkOffset, Val.validate, h]; done)

omit S in
theorem checkExtrapolate_eq {x y : MVal} (h : x.pyEq y = true) : checkExtrapolate x = checkExtrapolate y := by
  cases x <;> cases y <;> first
    | rfl
    | exact Bool.noConfusion h
    | skip
  rename_i v w
  simp only [MVal.pyEq] at h
  cases v <;> cases w <;> first
    | rfl
    | exact Bool.noConfusion h

omit U S in
theorem checkMappings_eq {x y : MVal} (h : x.pyEq y = true) : checkMappings x = checkMappings y := by
  cases x <;> cases y <;> first
    | rfl
    | exact Bool.noConfusion h
    | skip
  · rename_i v w
    simp only [MVal.pyEq] at h
    cases v <;> cases w <;> first | rfl | exact Bool.noConfusion h
  · rename_i v w
    simp only [MVal.pyEq] at h
    cases v <;> cases w <;> first | rfl | (simp [Data.pyEq] at h; done)

omit U S in
theorem mappingsMql_eq {x y : MVal} (h : x.pyEq y = true) : Agree (fun _ _ => True) (mappingsMql x) (mappingsMql y) := by
  cases x <;> cases y <;> first
    | rfl
    | trivial
    | exact Bool.noConfusion h
    | skip
  rename_i v w
  simp only [MVal.pyEq] at h
  cases v <;> cases w <;> first | rfl | trivial | exact Bool.noConfusion h

/-- Metrics queries that are alike. -/
structure AlikeQ (m : Bool) (q r : MetricsQueryObj) : Prop where
  eq : q.pyEq r = true
  query : AlikeM m q.query r.query
  legible : Legible q.query
  rollup : ∀ a b, q.rollup = .rollup a → r.rollup = .rollup b → Alike m a.interval b.interval ∧ Alike m a.granularity b.granularity ∧ a.totals = b.totals
  scope : ∀ a b, q.scope = .scope a → r.scope = .scope b → Alike m a.orgIds b.orgIds ∧ Alike m a.projectIds b.projectIds

/-- The fields are equal one by one. -/
structure FieldsEq (q r : MetricsQueryObj) : Prop where
  query : q.query.pyEq r.query = true
  start : q.start.pyEq r.start = true
  end_ : q.end_.pyEq r.end_ = true
  rollup : q.rollup.pyEq r.rollup = true
  scope : q.scope.pyEq r.scope = true
  limit : q.limit.pyEq r.limit = true
  offset : q.offset.pyEq r.offset = true
  extrapolate : q.extrapolate.pyEq r.extrapolate = true
  mappings : q.indexerMappings.pyEq r.indexerMappings = true

omit U S in
theorem fields_iff {q r : MetricsQueryObj} : q.pyEq r = true ↔ FieldsEq q r := by
  simp only [MetricsQueryObj.pyEq, Bool.and_eq_true]
  exact ⟨fun ⟨⟨⟨⟨⟨⟨⟨⟨h1, h2⟩, h3⟩, h4⟩, h5⟩, h6⟩, h7⟩, h8⟩, h9⟩ => ⟨h1, h2, h3, h4, h5, h6, h7, h8, h9⟩,
    fun ⟨h1, h2, h3, h4, h5, h6, h7, h8, h9⟩ => ⟨⟨⟨⟨⟨⟨⟨⟨h1, h2⟩, h3⟩, h4⟩, h5⟩, h6⟩, h7⟩, h8⟩, h9⟩⟩

omit U S in
theorem alikeQ_of {q r : MetricsQueryObj} (h : q.pyEq r = true) (hq : Ordinarily q) (hr : Ordinarily r) (tq : Everywhere (Told m) q)
    (tr : Everywhere (Told m) r) : AlikeQ m q r := by
  have f := fields_iff.1 h
  refine ⟨h, alikeM_of _ _ f.query (fun v hv => ⟨hq.query v hv, tq _ (by simp [fieldsOf]) v hv⟩)
    fun v hv => ⟨hr.query v hv, tr _ (by simp [fieldsOf]) v hv⟩, hq.legible, fun a b ha hb => ?_, fun a b ha hb => ?_⟩
  · obtain ⟨a1, a2, a3⟩ := hq.rollup a ha
    obtain ⟨b1, b2, b3⟩ := hr.rollup b hb
    have e := f.rollup
    have ta := tq q.rollup (by simp [fieldsOf])
    have tb := tr r.rollup (by simp [fieldsOf])
    rw [ha, hb] at e
    rw [ha] at ta
    rw [hb] at tb
    simp only [MVal.pyEq, RollupObj.pyEq, Bool.and_eq_true] at e
    exact ⟨⟨e.1.1.1, a1, b1, ta _ (.rollup _ _ (by simp)), tb _ (.rollup _ _ (by simp))⟩,
      ⟨e.2, a2, b2, ta _ (.rollup _ _ (by simp)), tb _ (.rollup _ _ (by simp))⟩, switch_eq a3 b3 e.1.1.2⟩
  · obtain ⟨a1, a2⟩ := hq.scope a ha
    obtain ⟨b1, b2⟩ := hr.scope b hb
    have e := f.scope
    have ta := tq q.scope (by simp [fieldsOf])
    have tb := tr r.scope (by simp [fieldsOf])
    rw [ha, hb] at e
    rw [ha] at ta
    rw [hb] at tb
    simp only [MVal.pyEq, ScopeObj.pyEq, Bool.and_eq_true] at e
    exact ⟨⟨e.1.1, a1, b1, ta _ (.scope _ _ (by simp)), tb _ (.scope _ _ (by simp))⟩,
      ⟨e.1.2, a2, b2, ta _ (.scope _ _ (by simp)), tb _ (.scope _ _ (by simp))⟩⟩

theorem AlikeQ.validate {q r : MetricsQueryObj} (h : AlikeQ m q r) : q.validate = r.validate := by
  have f := fields_iff.1 h.eq
  have hr : checkRollup q.rollup = checkRollup r.rollup := by
    have e := f.rollup
    have hr := h.rollup
    revert e hr
    cases q.rollup <;> cases r.rollup <;> intro e hr <;> first
      | rfl
      | exact Bool.noConfusion e
      | skip
    rename_i a b
    obtain ⟨h1, h2, h3⟩ := hr a b rfl rfl
    simp only [MVal.pyEq, RollupObj.pyEq, Bool.and_eq_true] at e
    simp only [checkRollup, h2.classes.1, rollup_eq h1 h2 h3 e.1.2]
  have hs : checkScope q.scope = checkScope r.scope := by
    have e := f.scope
    have hr := h.scope
    revert e hr
    cases q.scope <;> cases r.scope <;> intro e hr <;> first
      | rfl
      | exact Bool.noConfusion e
      | skip
    rename_i a b
    obtain ⟨h1, h2⟩ := hr a b rfl rfl
    simp only [MVal.pyEq, ScopeObj.pyEq, Bool.and_eq_true] at e
    simp only [checkScope, scope_eq h1 h2 e.2]
  simp only [MetricsQueryObj.validate, checkQuery_eq h.query h.legible, checkTime_eq f.start, checkTime_eq f.end_, hr, hs, checkLimit_eq f.limit,
    checkOffset_eq f.offset, checkExtrapolate_eq f.extrapolate, checkMappings_eq f.mappings]

variable [R : PyRepr]

theorem queryMql_eq {x y : MVal} (h : AlikeM m x y) (hl : Legible x) : queryMql x = queryMql y := by
  have hp := (print_eq (m := m) x).1 hl y h
  cases hl with
  | val v hs => cases y <;> first | exact h.elim | (rw [Alike.showable h hs])
  | ts t hs =>
    cases y <;> first | exact h.elim | skip
    simpa only [queryMql, paramMql] using hp
  | formula n p a f g =>
    cases y <;> first | exact h.elim | skip
    simpa only [queryMql] using hp

/-- Once a metrics query is valid, only its query and its mappings decide whether it can be printed. -/
theorem print_valid {q : MetricsQueryObj} (hv : q.validate = .ok ()) : ∃ c : Data → Data, (∀ v, ({ q with query := v } : MetricsQueryObj).print = (do
    let t ← queryMql v
    let d ← mappingsMql q.indexerMappings
    .ok (.dict [(c!"mql", .val (.str t)), (c!"mql_context", c d)]))) ∧
    ∀ d, mappingsMql q.indexerMappings = .ok d → ∃ k, readContext (c d) = some k ∧ Describes k q := by
  have hv' := hv
  rw [metricsQuery_parts, checkTime_iff, checkTime_iff, checkRollup_iff, checkScope_iff, checkLimit_iff, checkOffset_iff,
    checkExtrapolate_iff, checkMappings_iff] at hv
  obtain ⟨_, ⟨t1, e2⟩, ⟨t2, e3⟩, ⟨r, e4, _, hr⟩, ⟨s, e5, hs⟩, v6, v7, v8, v9⟩ := hv
  have h2 : ∃ x, timeMql q.start = .ok x := by rw [e2]; exact ⟨_, rfl⟩
  have h3 : ∃ x, timeMql q.end_ = .ok x := by rw [e3]; exact ⟨_, rfl⟩
  have h4 : ∃ x, rollupMql q.rollup = .ok x := by
    rw [e4]
    rcases hr.orderby with he | ⟨d, he⟩ <;> exact ⟨_, by simp only [rollupMql, he, orderbyValue]; rfl⟩
  have h5 : ∃ x, scopeMql q.scope = .ok x := by rw [e5]; exact ⟨_, rfl⟩
  have h6 : ∃ x, limitMql q.limit = .ok x := by
    rcases optional_iff.1 v6 with h | ⟨n, h, _⟩ <;> rw [h] <;> exact ⟨_, rfl⟩
  have h7 : ∃ x, offsetMql q.offset = .ok x := by
    rcases optional_iff.1 v7 with h | ⟨n, h, _⟩ <;> rw [h] <;> exact ⟨_, rfl⟩
  have h8 : ∃ x, extrapolateMql q.extrapolate = .ok x := by
    rcases optional_iff.1 v8 with h | ⟨n, h⟩ <;> rw [h] <;> exact ⟨_, rfl⟩
  obtain ⟨x2, h2⟩ := h2
  obtain ⟨x3, h3⟩ := h3
  obtain ⟨x4, h4⟩ := h4
  obtain ⟨x5, h5⟩ := h5
  obtain ⟨x6, h6⟩ := h6
  obtain ⟨x7, h7⟩ := h7
  obtain ⟨x8, h8⟩ := h8
  refine ⟨fun d => contextDict x2 x3 x4 x5 d x6 x7 x8, fun v => ?_, fun d h9 => context_read hv' h2 h3 h4 h5 h6 h7 h8 h9⟩
  simp only [MetricsQueryObj.print, h2, h3, h4, h5, h6, h7, h8, ok_bind]

omit U S R in
theorem moment_same {t u : Datetime} (h : t.pyEq u = true) : SameMoment (isoMomentOf t) (isoMomentOf u) := by
  have e : ∀ t : Datetime, (isoMomentOf t).micros = t.localMicros := by
    intro t
    rw [localMicros_eq]; rfl
  have e' : ∀ t : Datetime, (isoMomentOf t).offset = t.tz.bind id := by
    intro t
    simp only [isoMomentOf, Option.join]
  simp only [SameMoment, e, e']
  unfold Datetime.pyEq at h
  split at h
  · rename_i h1 h2
    exact .inl ⟨h1, h2, by simpa using h⟩
  · rename_i x y h1 h2
    exact .inr ⟨x, y, h1, h2, by simpa using h⟩
  · cases h

omit U S R in
theorem unwrapped_eq {w : PyInt → Val} (hw : ∀ a b, Verif.pyEq (w a) (w b) = (a.toInt == b.toInt)) (hn : ∀ a, Verif.pyEq (w a) .none = false)
    (hn' : ∀ a, Verif.pyEq .none (w a) = false) {x y : MVal} {v u : Val} (h : x.pyEq y = true) (hx : Unwrapped w x v) (hy : Unwrapped w y u) :
    Verif.pyEq v u = true := by
  rcases hx with ⟨rfl, rfl⟩ | ⟨a, rfl, ha⟩ <;> rcases hy with ⟨rfl, rfl⟩ | ⟨b, rfl, hb⟩
  · rfl
  · simp only [MVal.pyEq, hn', Bool.false_eq_true] at h
  · simp only [MVal.pyEq, hn, Bool.false_eq_true] at h
  · simp only [MVal.pyEq, hw, beq_iff_eq] at h
    cases ha <;> cases hb <;> simp only [PyInt.toInt] at h <;> simp only [Verif.pyEq, beq_iff_eq, h]
    all_goals first
      | exact h
      | skip
    rename_i x y
    cases x <;> cases y <;> simp_all

omit U S R in
/-- The contexts of equal metrics queries say the same. -/
theorem context_same {q r : MetricsQueryObj} (h : AlikeQ m q r) {c d : Context} (hc : Describes c q) (hd : Describes d r) : SameContext c d := by
  have f := fields_iff.1 h.eq
  obtain ⟨t, e1, s1⟩ := hc.start
  obtain ⟨u, e2, s2⟩ := hc.end_
  obtain ⟨t', e1', s1'⟩ := hd.start
  obtain ⟨u', e2', s2'⟩ := hd.end_
  obtain ⟨a, e3, g1, g2, g3, g4⟩ := hc.rollup
  obtain ⟨b, e3', g1', g2', g3', g4'⟩ := hd.rollup
  obtain ⟨s, e4, k1, k2, k3⟩ := hc.scope
  obtain ⟨s', e4', k1', k2', k3'⟩ := hd.scope
  have f1 := f.start
  have f2 := f.end_
  have f3 := f.rollup
  have f4 := f.scope
  rw [e1, e1'] at f1
  rw [e2, e2'] at f2
  rw [e3, e3'] at f3
  rw [e4, e4'] at f4
  simp only [MVal.pyEq, Verif.pyEq, RollupObj.pyEq, ScopeObj.pyEq, Bool.and_eq_true] at f1 f2 f3 f4
  refine ⟨?_, ?_, ?_, ?_, ?_, ?_, ?_, ?_, ?_, ?_, ?_, ?_, ?_⟩
  · rw [s1, s1']; exact moment_same f1
  · rw [s2, s2']; exact moment_same f2
  · have ho := f3.1.2
    rw [g4, g4'] at ho
    revert ho
    cases c.ascending with
    | none => cases d.ascending with
      | none => intro _; rfl
      | some y => cases y <;> intro ho <;> exact Bool.noConfusion ho
    | some x => cases d.ascending with
      | none => cases x <;> intro ho <;> exact Bool.noConfusion ho
      | some y => cases x <;> cases y <;> intro ho <;> first | rfl | exact Bool.noConfusion ho
  · rw [g1, g1']; exact f3.2
  · rw [g2, g2']; exact f3.1.1.1
  · have ho := (h.rollup a b e3 e3').2.2
    rw [g3, g3'] at ho
    revert ho
    cases c.totals <;> cases d.totals <;> simp
  · rw [k1, k1']; exact f4.1.1
  · rw [k2, k2']; exact f4.1.2
  · rw [k3, k3']; exact f4.2
  · exact unwrapped_eq (fun _ _ => by simp only [Verif.pyEq]) (fun _ => rfl) (fun _ => rfl) f.limit hc.limit hd.limit
  · exact unwrapped_eq (fun _ _ => by simp only [Verif.pyEq]) (fun _ => rfl) (fun _ => rfl) f.offset hc.offset hd.offset
  · have ho := f.extrapolate
    rcases hc.extrapolate with ⟨h1, h2⟩ | ⟨x, h1, h2⟩ <;> rcases hd.extrapolate with ⟨h3, h4⟩ | ⟨y, h3, h4⟩ <;> rw [h1, h3] at ho <;>
      simp only [MVal.pyEq] at ho <;> rw [h2, h4] <;> first
      | exact Bool.noConfusion ho
      | rfl
      | (simp only [Verif.pyEq, beq_iff_eq] at ho; rw [ho])
  · have ho := f.mappings
    rw [hc.mappings, hd.mappings] at ho
    exact ho

theorem print_same {q r : MetricsQueryObj} (h : AlikeQ m q r) (hv : q.validate = .ok ()) {v w : MVal} (hvw : AlikeM m v w) (hl : Legible v) :
    Agree SameSent ({ q with query := v } : MetricsQueryObj).print ({ r with query := w } : MetricsQueryObj).print := by
  obtain ⟨c, h1, h2⟩ := print_valid hv
  obtain ⟨d, h3, h4⟩ := print_valid (h.validate ▸ hv)
  rw [h1 v, h3 w, queryMql_eq hvw hl]
  have hm := mappingsMql_eq (fields_iff.1 h.eq).mappings
  cases hq : queryMql w with
  | error e => rfl
  | ok t =>
    simp only [ok_bind]
    cases ha : mappingsMql q.indexerMappings with
    | error e =>
      cases hb : mappingsMql r.indexerMappings with
      | error e' => rw [ha, hb] at hm; exact hm
      | ok y => rw [ha, hb] at hm; exact hm.elim
    | ok x =>
      cases hb : mappingsMql r.indexerMappings with
      | error e' => rw [ha, hb] at hm; exact hm.elim
      | ok y =>
        obtain ⟨k, k1, k2⟩ := h2 _ ha
        obtain ⟨l, l1, l2⟩ := h4 _ hb
        exact ⟨t, _, _, k, l, rfl, rfl, k1, l1, context_same h k2 l2⟩

/-- Equal metrics queries are sent as the same, and are equal afterwards. -/
theorem serialize_same {q r : MetricsQueryObj} (h : AlikeQ m q r) :
    Agree SameSent q.serialize.1 r.serialize.1 ∧ q.serialize.2.pyEq r.serialize.2 = true := by
  simp only [MetricsQueryObj.serialize]
  cases hv : q.validate with
  | error e =>
    rw [h.validate] at hv
    simp only [hv]
    exact ⟨rfl, h.eq⟩
  | ok u =>
    have hr := hv
    rw [h.validate] at hr
    simp only [hr]
    have ho := optimizeQuery_eq h.query
    cases hx : optimizeQuery q.query with
    | error e =>
      cases hy : optimizeQuery r.query with
      | error e' => rw [hx, hy] at ho; exact ⟨ho, h.eq⟩
      | ok w => rw [hx, hy] at ho; exact ho.elim
    | ok v =>
      cases hy : optimizeQuery r.query with
      | error e' => rw [hx, hy] at ho; exact ho.elim
      | ok w =>
        rw [hx, hy] at ho
        refine ⟨print_same h hv ho (optimizeQuery_legible hx h.legible), ?_⟩
        have f := fields_iff.1 h.eq
        exact fields_iff.2 ⟨AlikeM.eq ho, f.start, f.end_, f.rollup, f.scope, f.limit, f.offset, f.extrapolate, f.mappings⟩

end

end Verif
