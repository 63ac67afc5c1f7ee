import Verif.Spec.Metrics
import Verif.Lemmas.Construct

/-!
# C32: metrics objects are valid by construction and under setters; C33: rollups are consistent
-/

namespace Verif
open Spec

theorem given_iff {v : Val} : v.given = true ↔ v ≠ .none := by cases v <;> simp [Val.given]

theorem isStr_iff {v : Val} : v.isStr = true ↔ ∃ s, v = .str s := by cases v <;> simp [Val.isStr]

theorem isInt_iff {v : Val} : v.isInt = true ↔ ∃ n, IntLike v n := by
  simp only [Val.isInt, Option.isSome_iff_exists, asInt?_iff]

theorem isGroupItem_iff {v : Val} : v.isGroupItem = true ↔ GroupItem v := by
  constructor
  · intro h; cases v <;> first | (simp [Val.isGroupItem] at h; done) | constructor
  · rintro (_ | _) <;> rfl

theorem optStr_iff {v : Val} : (!v.given || v.isStr) = true ↔ OptStr v := by
  constructor
  · intro h; cases v <;> first | (simp [Val.given, Val.isStr] at h; done) | constructor
  · rintro (_ | _) <;> rfl

theorem optInt_iff {v : Val} : (!v.given || v.isInt) = true ↔ OptInt v := by
  constructor
  · intro h
    cases v <;> first | (simp [Val.given, Val.isInt, Val.asInt?] at h; done) | exact .none | skip
    · exact .int _ _ (.bool _)
    · exact .int _ _ (.int _)
  · rintro (_ | ⟨_, _, _ | _⟩) <;> rfl

theorem optListOf_iff {p : Val → Bool} {P : Val → Prop} (h : ∀ v, p v = true ↔ P v) {v : Val} :
    optListOf p v = true ↔ OptList P v := by
  constructor
  · intro hv
    cases v <;> first | (simp [optListOf] at hv; done) | exact .none | skip
    exact .list _ fun x hx => (h x).1 (by simp only [optListOf, List.all_eq_true] at hv; exact hv x hx)
  · rintro (_ | ⟨xs, hx⟩)
    · rfl
    · simp only [optListOf, List.all_eq_true]; exact fun x hx' => (h x).2 (hx x hx')

theorem intList_iff {v : Val} : listType v Val.isInt = true ↔ IntList v := by
  cases v <;> simp [listType, IntList, isInt_iff]

theorem ensure_optStr {v : Val} {e : Err} {u : Unit} : ensure (!v.given || v.isStr) e = .ok u ↔ OptStr v := by
  rw [ensure_eq_ok, optStr_iff]

theorem ensure_optInt {v : Val} {e : Err} {u : Unit} : ensure (!v.given || v.isInt) e = .ok u ↔ OptInt v := by
  rw [ensure_eq_ok, optInt_iff]

theorem metric_validate {m : MetricObj} {u : Unit} : m.validate = .ok u ↔ MetricOk m := by
  simp only [MetricObj.validate, bind_eq_ok, ensure_optStr, ensure_optInt]
  simp only [ensure_eq_ok, Bool.or_eq_true, given_iff]
  have str : ∀ {v}, OptStr v → v ≠ .none → ∃ s, v = .str s := by
    rintro _ (_ | s) h
    · exact absurd rfl h
    · exact ⟨s, rfl⟩
  constructor
  · rintro ⟨_, h1, _, h2, _, h3, h4⟩
    refine ⟨h1, h2, h3, ?_⟩
    rcases h4 with h4 | h4
    · obtain ⟨s, hs⟩ := str h1 h4; exact ⟨s, .inl hs⟩
    · obtain ⟨s, hs⟩ := str h2 h4; exact ⟨s, .inr hs⟩
  · rintro ⟨h1, h2, h3, s, h4⟩
    refine ⟨(), h1, (), h2, (), h3, ?_⟩
    rcases h4 with h4 | h4 <;> simp [h4]

theorem timeseries_validate {t : TimeseriesObj} : t.validate = .ok () ↔ TimeseriesOk t := by
  simp only [TimeseriesObj.validate, bind_eq_ok, ensure_eq_ok, metric_validate, isStr_iff,
    optListOf_iff (fun _ => isLiteral_iff), optListOf_iff (fun _ => isCondition_iff),
    optListOf_iff (fun _ => isGroupItem_iff)]
  constructor
  · rintro ⟨_, h1, _, h2, _, h3, _, h4, h5⟩; exact ⟨h1, h2, h3, h4, h5⟩
  · rintro ⟨h1, h2, h3, h4, h5⟩; exact ⟨(), h1, (), h2, (), h3, (), h4, h5⟩

theorem scope_validate {s : ScopeObj} : s.validate = .ok () ↔ ScopeOk s := by
  simp only [ScopeObj.validate, bind_eq_ok, ensure_eq_ok, intList_iff, optStr_iff]
  constructor
  · rintro ⟨_, h1, _, h2, h3⟩; exact ⟨h1, h2, h3⟩
  · rintro ⟨h1, h2, h3⟩; exact ⟨(), h1, (), h2, h3⟩

/-- **C32** (metrics, construction). -/
theorem C32_metric_iff (publicName mri id : Val) (r : MetricObj) :
    mkMetric publicName mri id = .ok r ↔ r = ⟨publicName, mri, id⟩ ∧ MetricOk r := by
  simp only [mkMetric, bind_eq_ok, Except.ok.injEq]
  constructor
  · rintro ⟨_, h, rfl⟩; exact ⟨rfl, metric_validate.1 h⟩
  · rintro ⟨rfl, h⟩; exact ⟨(), metric_validate.2 h, rfl⟩

/-- **C32** (timeseries, construction). -/
theorem C32_timeseries_iff (metric : MVal) (aggregate params filters groupby : Val) (r : TimeseriesObj) :
    mkTimeseries metric aggregate params filters groupby = .ok r ↔
      ∃ m, metric = .metric m ∧ r = ⟨m, aggregate, params, filters, groupby⟩ ∧ TimeseriesOk r := by
  simp only [mkTimeseries, bind_eq_ok, Except.ok.injEq]
  constructor
  · rintro ⟨m, hm, _, h, rfl⟩
    cases metric <;> simp [asMetric] at hm
    subst hm
    exact ⟨_, rfl, rfl, timeseries_validate.1 h⟩
  · rintro ⟨m, rfl, rfl, h⟩; exact ⟨m, rfl, (), timeseries_validate.2 h, rfl⟩

/-- **C32** (scopes, construction). -/
theorem C32_scope_iff (orgIds projectIds useCaseId : Val) (r : ScopeObj) :
    mkScope orgIds projectIds useCaseId = .ok r ↔ r = ⟨orgIds, projectIds, useCaseId⟩ ∧ ScopeOk r := by
  simp only [mkScope, bind_eq_ok, Except.ok.injEq]
  constructor
  · rintro ⟨_, h, rfl⟩; exact ⟨rfl, scope_validate.1 h⟩
  · rintro ⟨rfl, h⟩; exact ⟨(), scope_validate.2 h, rfl⟩

/-- **C32** (setters of metrics): each accepts the right type only and changes its own field only. -/
theorem C32_metric_setters (m : MetricObj) (hm : MetricOk m) (v : Val) (r : MetricObj) :
    (m.setMri v = .ok r ↔ (∃ s, v = .str s) ∧ r = { m with mri := v }) ∧
    (m.setPublicName v = .ok r ↔ (∃ s, v = .str s) ∧ r = { m with publicName := v }) ∧
    (m.setId v = .ok r ↔ (∃ n, IntLike v n) ∧ r = { m with id := v }) := by
  simp only [MetricObj.setMri, MetricObj.setPublicName, MetricObj.setId, bind_eq_ok, ensure_eq_ok, C32_metric_iff,
    isStr_iff, isInt_iff]
  refine ⟨⟨?_, ?_⟩, ⟨?_, ?_⟩, ⟨?_, ?_⟩⟩
  · rintro ⟨_, h, rfl, _⟩; exact ⟨h, rfl⟩
  · rintro ⟨⟨s, rfl⟩, rfl⟩; exact ⟨(), ⟨s, rfl⟩, rfl, hm.publicName, .str s, hm.id, s, .inr rfl⟩
  · rintro ⟨_, h, rfl, _⟩; exact ⟨h, rfl⟩
  · rintro ⟨⟨s, rfl⟩, rfl⟩; exact ⟨(), ⟨s, rfl⟩, rfl, .str s, hm.mri, hm.id, s, .inl rfl⟩
  · rintro ⟨_, h, rfl, _⟩; exact ⟨h, rfl⟩
  · rintro ⟨⟨n, hn⟩, rfl⟩; exact ⟨(), ⟨n, hn⟩, rfl, hm.publicName, hm.mri, .int _ n hn, hm.named⟩

theorem optListArg_iff {p : Val → Bool} {P : Val → Prop} (h : ∀ v, p v = true ↔ P v) {v : Val} :
    (!v.given || listType v p) = true ↔ OptList P v := by
  rw [← optListOf_iff h]
  cases v <;> simp [Val.given, listType, optListOf]

/-- **C32** (setters of timeseries). -/
theorem C32_timeseries_setters (t : TimeseriesObj) (ht : TimeseriesOk t) (r : TimeseriesObj) :
    (∀ x, t.setMetric x = .ok r ↔ ∃ m, x = .metric m ∧ MetricOk m ∧ r = { t with metric := m }) ∧
    (∀ a p, t.setAggregate a p = .ok r ↔ (∃ s, a = .str s) ∧ OptList Literal p ∧
      r = { t with aggregate := a, aggregateParams := p }) ∧
    (∀ f, t.setFilters f = .ok r ↔ OptList Cond f ∧ r = { t with filters := f }) ∧
    (∀ g, t.setGroupby g = .ok r ↔ OptList GroupItem g ∧ r = { t with groupby := g }) := by
  simp only [TimeseriesObj.setMetric, TimeseriesObj.setAggregate, TimeseriesObj.setFilters, TimeseriesObj.setGroupby,
    bind_eq_ok, ensure_eq_ok, C32_timeseries_iff, isStr_iff, optListArg_iff (fun _ => isCondition_iff),
    optListArg_iff (fun _ => isGroupItem_iff), MVal.metric.injEq]
  refine ⟨fun x => ⟨?_, ?_⟩, fun a p => ⟨?_, ?_⟩, fun f => ⟨?_, ?_⟩, fun g => ⟨?_, ?_⟩⟩
  · rintro ⟨m, hx, _, rfl, rfl, h⟩
    cases x <;> simp [asMetric] at hx
    subst hx
    exact ⟨_, rfl, h.metric, rfl⟩
  · rintro ⟨m, rfl, hm, rfl⟩
    exact ⟨m, rfl, m, rfl, rfl, hm, ht.aggregate, ht.aggregateParams, ht.filters, ht.groupby⟩
  · rintro ⟨_, h, _, _, _, rfl, rfl, h'⟩; exact ⟨h, h'.aggregateParams, rfl⟩
  · rintro ⟨h, hp, rfl⟩
    refine ⟨(), h, (), ?_, _, rfl, rfl, ht.metric, h, hp, ht.filters, ht.groupby⟩
    cases hp <;> rfl
  · rintro ⟨_, h, _, rfl, rfl, _⟩; exact ⟨h, rfl⟩
  · rintro ⟨h, rfl⟩
    exact ⟨(), h, _, rfl, rfl, ht.metric, ht.aggregate, ht.aggregateParams, h, ht.groupby⟩
  · rintro ⟨_, h, _, rfl, rfl, _⟩; exact ⟨h, rfl⟩
  · rintro ⟨h, rfl⟩
    exact ⟨(), h, _, rfl, rfl, ht.metric, ht.aggregate, ht.aggregateParams, ht.filters, h⟩

/-- **C32** (setter of scopes). -/
theorem C32_scope_setter (s : ScopeObj) (hs : ScopeOk s) (v : Val) (r : ScopeObj) :
    s.setUseCaseId v = .ok r ↔ (∃ u, v = .str u) ∧ r = { s with useCaseId := v } := by
  simp only [ScopeObj.setUseCaseId, bind_eq_ok, ensure_eq_ok, C32_scope_iff, isStr_iff]
  constructor
  · rintro ⟨_, h, rfl, _⟩; exact ⟨h, rfl⟩
  · rintro ⟨⟨u, rfl⟩, rfl⟩; exact ⟨(), ⟨u, rfl⟩, rfl, hs.orgIds, hs.projectIds, .str u⟩

/-- **C32.** Objects made by any sequence of constructor and setter calls are valid. -/
theorem C32_made_valid :
    (∀ m, MadeMetric m → MetricOk m) ∧ (∀ t, MadeTimeseries t → TimeseriesOk t) ∧ (∀ s, MadeScope s → ScopeOk s) := by
  refine ⟨fun m h => ?_, fun t h => ?_, fun s h => ?_⟩
  · cases h with
    | new p m' i _ h => exact ((C32_metric_iff _ _ _ _).1 h).2
    | setMri x v _ _ h =>
      simp only [MetricObj.setMri, bind_eq_ok, C32_metric_iff] at h
      obtain ⟨_, _, _, h⟩ := h; exact h
    | setPublicName x v _ _ h =>
      simp only [MetricObj.setPublicName, bind_eq_ok, C32_metric_iff] at h
      obtain ⟨_, _, _, h⟩ := h; exact h
    | setId x v _ _ h =>
      simp only [MetricObj.setId, bind_eq_ok, C32_metric_iff] at h
      obtain ⟨_, _, _, h⟩ := h; exact h
  · cases h with
    | new m a p f g _ h => obtain ⟨_, _, _, h⟩ := (C32_timeseries_iff _ _ _ _ _ _).1 h; exact h
    | setMetric x v _ _ h =>
      simp only [TimeseriesObj.setMetric, bind_eq_ok, C32_timeseries_iff] at h
      obtain ⟨_, _, _, _, _, h⟩ := h; exact h
    | setAggregate x v w _ _ h =>
      simp only [TimeseriesObj.setAggregate, bind_eq_ok, C32_timeseries_iff] at h
      obtain ⟨_, _, _, _, _, _, _, h⟩ := h; exact h
    | setFilters x v _ _ h =>
      simp only [TimeseriesObj.setFilters, bind_eq_ok, C32_timeseries_iff] at h
      obtain ⟨_, _, _, _, _, h⟩ := h; exact h
    | setGroupby x v _ _ h =>
      simp only [TimeseriesObj.setGroupby, bind_eq_ok, C32_timeseries_iff] at h
      obtain ⟨_, _, _, _, _, h⟩ := h; exact h
  · cases h with
    | new o p u _ h => exact ((C32_scope_iff _ _ _ _).1 h).2
    | setUseCaseId x v _ _ h =>
      simp only [ScopeObj.setUseCaseId, bind_eq_ok, C32_scope_iff] at h
      obtain ⟨_, _, _, h⟩ := h; exact h

/-! ### Rollups -/

theorem dblIs_iff (d : Dbl) (n : Int) : d.toInt? = some n ↔ DblIs d n := by
  unfold Dbl.toInt? DblIs
  by_cases he : 0 ≤ d.e
  · have : (-d.e).toNat = 0 := by omega
    simp only [he, if_true, this, Int.pow_zero, Int.mul_one, Option.some.injEq]
    cases d.neg <;> simp [Int.neg_mul]
  · simp only [he, if_false]
    refine ⟨by simp, fun h => ?_⟩
    exfalso
    have h0 : d.e.toNat = 0 := by omega
    have hk : ∃ k, (-d.e).toNat = k + 1 := ⟨(-d.e).toNat - 1, by omega⟩
    obtain ⟨k, hk⟩ := hk
    rw [h0, hk, Int.pow_zero, Int.mul_one, Int.pow_succ] at h
    have hodd : d.m % 2 = 1 := by
      have := d.ok
      unfold dblOk at this
      simp only [Bool.or_eq_true, Bool.and_eq_true, beq_iff_eq, decide_eq_true_eq] at this
      rcases this with ⟨_, h'⟩ | ⟨⟨⟨h', _⟩, _⟩, _⟩
      · omega
      · exact h'
    have h2 : n * (2 ^ k * 2) = 2 * (n * 2 ^ k) := by rw [← Int.mul_assoc, Int.mul_comm]
    rw [h2] at h
    generalize n * 2 ^ k = q at h
    split at h <;> omega

theorem pyEq_int_iff {v : Val} {n : Int} : pyEq v (.int n) = true ↔ NumIs v n := by
  constructor
  · intro h
    cases v <;> first | (simp [pyEq] at h; done) | skip
    · simp only [pyEq, beq_iff_eq] at h; subst h; exact .bool _
    · simp only [pyEq, beq_iff_eq] at h; subst h; exact .int _
    · rename_i f
      cases f <;> simp [pyEq, PyFloat.eqInt] at h
      exact .float _ _ ((dblIs_iff _ _).1 h)
  · intro h
    cases h with
    | int => simp [pyEq]
    | bool => simp [pyEq]
    | float d n h => simpa [pyEq, PyFloat.eqInt] using (dblIs_iff _ _).2 h

theorem dbl_zero {d : Dbl} (h : d.m = 0) : DblIs d 0 := by
  unfold DblIs; simp [h]

/-- A false value is `None`, empty, or a zero. -/
theorem not_truthy {v : Val} (h : v.truthy = false) : v = .none ∨ Empty v ∨ NumIs v 0 := by
  cases v <;> first | exact .inl rfl | (simp [Val.truthy] at h; done) | skip
  · simp only [Val.truthy] at h; subst h; exact .inr (.inr (.bool false))
  · simp only [Val.truthy, bne_eq_false_iff_eq] at h; subst h; exact .inr (.inr (.int 0))
  · rename_i f
    cases f <;> simp [Val.truthy, PyFloat.truthy] at h
    exact .inr (.inr (.float _ _ (dbl_zero h)))
  all_goals
    simp only [Val.truthy, Bool.not_eq_false', List.isEmpty_iff] at h
    subst h
  · exact .inr (.inl .str)
  · exact .inr (.inl .bytes)
  · exact .inr (.inl .list)
  · exact .inr (.inl .tuple)

theorem zero_not_truthy {v : Val} (h : NumIs v 0) : v.truthy = false := by
  generalize hn : (0 : Int) = n at h
  cases h with
  | int => subst hn; rfl
  | bool b => cases b <;> simp_all [Val.truthy]
  | float d n h =>
    subst hn
    unfold DblIs at h
    rw [Int.zero_mul] at h
    have hp : (2 : Int) ^ d.e.toNat ≠ 0 := by
      have : (0:Int) < 2 ^ d.e.toNat := Int.pow_pos (by omega)
      omega
    have := (Int.mul_eq_zero.1 h).resolve_right hp
    have : d.m = 0 := by split at this <;> omega
    simp [Val.truthy, PyFloat.truthy, this]

/-- The first check of `Rollup.validate`. -/
theorem granularity_check {g : Val} :
    (!g.truthy || allowedGranularities.any fun n => pyEq g (.int n)) = true ↔
      g = .none ∨ Empty g ∨ ∃ n, n ∈ [0, 10, 60, 3600, 86400] ∧ NumIs g n := by
  simp only [Bool.or_eq_true, Bool.not_eq_true', List.any_eq_true, pyEq_int_iff, allowedGranularities]
  constructor
  · rintro (h | ⟨n, hn, h⟩)
    · rcases not_truthy h with h | h | h
      · exact .inl h
      · exact .inr (.inl h)
      · exact .inr (.inr ⟨0, by simp, h⟩)
    · exact .inr (.inr ⟨n, List.mem_cons_of_mem _ hn, h⟩)
  · rintro (rfl | h | ⟨n, hn, h⟩)
    · exact .inl rfl
    · cases h <;> exact .inl rfl
    · rcases List.mem_cons.1 hn with rfl | hn
      · exact .inl (zero_not_truthy h)
      · exact .inr ⟨n, hn, h⟩

theorem intLess_num {v : Val} {n : Int} (h : NumIs v n) (i : Int) : intLess i v = .ok (decide (i < n)) := by
  cases h with
  | int => rfl
  | bool => rfl
  | float d n h =>
    have h' := (dblIs_iff d n).2 h
    unfold Dbl.toInt? at h'
    split at h'
    · rename_i he
      simp only [Option.some.injEq] at h'
      simp only [intLess, PyFloat.intLt, Dbl.ratio, scale2, he, if_true, Except.ok.injEq, Int.natCast_one, Int.mul_one]
      rw [decide_eq_decide, ← h']
      cases d.neg <;> simp <;> omega
    · cases h'

theorem interval_check {i g : Val} (hg : g = .none ∨ Empty g ∨ ∃ n, n ∈ [0, 10, 60, 3600, 86400] ∧ NumIs g n) :
    checkInterval i g = .ok () ↔ i = .none ∨ ∃ n, IntLike i n ∧ 10 ≤ n.toInt ∧
      (g = .none ∨ ∃ m, NumIs g m ∧ m ≤ n.toInt) := by
  by_cases hi : i.given = true
  · have hin : i ≠ .none := given_iff.1 hi
    simp only [checkInterval, hi, if_true, bind_eq_ok, validateIntLiteral, hin, false_or]
    cases hv : i.asInt? with
    | none =>
      have hno := asInt?_none.1 hv
      simp only [reduceCtorEq, false_and, exists_false, false_iff]
      rintro ⟨n, hn, _⟩; exact hno n hn
    | some n =>
      have hn := asInt?_iff.1 hv
      have huniq : ∀ m, IntLike i m → m = n := fun m hm => by
        have := asInt?_iff.2 hm; rw [hv] at this; exact (Option.some.inj this).symm
      by_cases h10 : 10 ≤ n.toInt
      · have hlt : ¬ n.toInt < 10 := by omega
        simp only [hlt, decide_false, Bool.false_eq_true, if_false, Except.ok.injEq, exists_eq_left']
        by_cases hgn : g = .none
        · subst hgn
          simp only [Val.given, Bool.false_eq_true, if_false, true_iff]
          exact ⟨n, hn, h10, .inl trivial⟩
        · have hg' : g.given = true := given_iff.2 hgn
          simp only [hg', if_true, bind_eq_ok, ensure_eq_ok, Bool.not_eq_true']
          constructor
          · rintro ⟨b, hb, rfl⟩
            rcases hg with h | h | ⟨m, _, hm⟩
            · exact absurd h hgn
            · cases h <;> simp [intLess] at hb
            · rw [intLess_num hm] at hb
              simp only [Except.ok.injEq, decide_eq_false_iff_not] at hb
              exact ⟨n, hn, h10, .inr ⟨m, hm, by omega⟩⟩
          · rintro ⟨n', hn', _, h⟩
            obtain rfl := huniq n' hn'
            rcases h with h | ⟨m, hm, hle⟩
            · exact absurd h hgn
            · exact ⟨false, by rw [intLess_num hm]; simp; omega, rfl⟩
      · have hlt : n.toInt < 10 := by omega
        simp only [hlt, decide_true, if_true, reduceCtorEq, false_and, exists_false, false_iff]
        rintro ⟨n', hn', h, _⟩
        rw [huniq n' hn'] at h; exact h10 h
  · have : i = .none := by
      cases i <;> simp_all [Val.given]
    subst this
    simp [checkInterval, Val.given]

/-- **C33.** A rollup can be built exactly when it is consistent, and then holds what was given. -/
theorem C33_rollup_iff (interval totals orderby granularity : Val) (r : RollupObj) :
    mkRollup interval totals orderby granularity = .ok r ↔
      r = ⟨interval, totals, orderby, granularity⟩ ∧ RollupOk r := by
  have key : ∀ r : RollupObj, r.validate = .ok () ↔ RollupOk r := by
    intro r
    have hgran : ∀ (v : Val) (e : Err) (u : Unit),
        ensure (!v.truthy || allowedGranularities.any fun n => pyEq v (.int n)) e = .ok u ↔
          v = .none ∨ Empty v ∨ ∃ n, n ∈ [0, 10, 60, 3600, 86400] ∧ NumIs v n := fun v e u => by
      rw [ensure_eq_ok, granularity_check]
    simp only [RollupObj.validate, bind_eq_ok, hgran]
    simp only [ensure_eq_ok, Bool.or_eq_true, Bool.not_eq_true', Bool.and_eq_false_iff, given_iff]
    have hng : ∀ v : Val, v.given = false ↔ v = .none := fun v => by cases v <;> simp [Val.given]
    have hb : ∀ v : Val, v.isBool = true ↔ ∃ b, v = .bool b := fun v => by cases v <;> simp [Val.isBool]
    have hd : ∀ v : Val, v.isDirection = true ↔ ∃ d, v = .direction d := fun v => by cases v <;> simp [Val.isDirection]
    simp only [hng, hb, hd]
    constructor
    · rintro ⟨_, h1, _, h2, _, h3, _, h4, _, h5, h6⟩
      exact ⟨h1, (interval_check h1).1 h2, h3, h4, h5, h6⟩
    · rintro ⟨h1, h2, h3, h4, h5, h6⟩
      exact ⟨(), h1, (), (interval_check h1).2 h2, (), h3, (), h4, (), h5, h6⟩
  simp only [mkRollup, bind_eq_ok, Except.ok.injEq]
  constructor
  · rintro ⟨_, h, rfl⟩; exact ⟨rfl, (key _).1 h⟩
  · rintro ⟨rfl, h⟩; exact ⟨(), (key _).2 h, rfl⟩

section Examples

/-- A metric with both names, its id set later. -/
example : (do
    let m ← mkMetric (.str c!"transaction.duration") .none .none
    let m ← m.setMri (.str c!"d:transactions/duration@millisecond")
    m.setId (.int 7)) =
    .ok ⟨.str c!"transaction.duration", .str c!"d:transactions/duration@millisecond", .int 7⟩ := rfl

/-- No name at all is refused, and so is a number as a name. -/
example : mkMetric .none .none (.int 7) = .error .invalidTimeseries ∧
    mkMetric (.int 3) .none .none = .error .invalidTimeseries := ⟨rfl, rfl⟩

/-- A timeseries. -/
def durations : TimeseriesObj :=
  ⟨⟨.none, .str c!"d:transactions/duration@millisecond", .none⟩, .str c!"quantiles", .list [.float (.fin ⟨false, 1, -1, rfl⟩)],
    .list [.cond (.column ⟨c!"environment", none, none, none⟩) .eq (.str c!"prod")],
    .list [.column ⟨c!"release", none, none, none⟩]⟩

example : mkTimeseries (.metric durations.metric) durations.aggregate durations.aggregateParams durations.filters
    durations.groupby = .ok durations := rfl

/-- Setting filters keeps the rest. -/
example : durations.setFilters .none = .ok { durations with filters := .none } := rfl

/-- Setting parameters that are not literals is refused. -/
example : durations.setAggregate (.str c!"sum") (.list [.list []]) = .error .invalidTimeseries := rfl

example : (do
    let s ← mkScope (.list [.int 1]) (.list [.int 11, .int 12]) .none
    s.setUseCaseId (.str c!"transactions")) =
    .ok ⟨.list [.int 1], .list [.int 11, .int 12], .str c!"transactions"⟩ := rfl

/-- A rollup with an interval, and one with totals in order. -/
example : mkRollup (.int 3600) (.bool true) .none (.int 60) = .ok ⟨.int 3600, .bool true, .none, .int 60⟩ := rfl
example : mkRollup .none (.bool true) (.direction .asc) (.int 60) =
    .ok ⟨.none, .bool true, .direction .asc, .int 60⟩ := rfl

/-- Refused: nothing given, interval below granularity, interval with order, granularity not allowed. -/
example : mkRollup .none .none .none (.int 60) = .error .invalidExpression ∧
    mkRollup (.int 30) .none .none (.int 60) = .error .invalidExpression ∧
    mkRollup (.int 60) .none (.direction .asc) .none = .error .invalidExpression ∧
    mkRollup (.int 60) .none .none (.int 7) = .error .invalidExpression := ⟨rfl, rfl, rfl, rfl⟩

/-- Corner cases that are accepted: a granularity of 0, and the float 10.0; one that raises `TypeError`. -/
example : (mkRollup (.int 60) .none .none (.int 0)).isOk = true ∧
    (mkRollup (.int 60) .none .none (.float (.fin ⟨false, 5, 1, rfl⟩))).isOk = true ∧
    mkRollup (.int 60) .none .none (.str []) = .error .typeError := ⟨rfl, rfl, rfl⟩

end Examples

end Verif
