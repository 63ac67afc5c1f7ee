import Verif.Lemmas.MetricsMessages

/-!
# Theorems: what the exceptions of the metrics layer say
-/

namespace Verif
open Spec BuildMsg MetricsMsg

section
variable [PyShow] [PyText] [R : PyRepr] [U : PyUnicode] [S : RegexSpace]

/-! ### The functions with messages are those of the rest of the model -/

omit R U S in
/-- C90: the constructors of the metrics layer with messages give the objects, and raise the classes, of those without. -/
theorem C90_same_class (x : MVal) (a b c d : Val) :
    dropMessage (mkMetricMsg a b c) = mkMetric a b c ∧
    dropMessage (mkTimeseriesMsg x a b c d) = mkTimeseries x a b c d ∧
    dropMessage (mkRollupMsg a b c d) = mkRollup a b c d ∧
    dropMessage (mkScopeMsg a b c) = mkScope a b c :=
  ⟨drop_mkMetric a b c, drop_mkTimeseries x a b c d, drop_mkRollup a b c d, drop_mkScope a b c⟩

omit R U S in
/-- C90: the same of the setters. -/
theorem C90_same_class_setters (m : MetricObj) (t : TimeseriesObj) (s : ScopeObj) (f : MVal) (q : MetricsQueryObj) (x : MVal) (v w : Val) :
    (dropMessage (m.setMriMsg v) = m.setMri v ∧ dropMessage (m.setPublicNameMsg v) = m.setPublicName v ∧
      dropMessage (m.setIdMsg v) = m.setId v) ∧
    (dropMessage (t.setMetricMsg x) = t.setMetric x ∧ dropMessage (t.setAggregateMsg v w) = t.setAggregate v w ∧
      dropMessage (t.setFiltersMsg v) = t.setFilters v ∧ dropMessage (t.setGroupbyMsg v) = t.setGroupby v) ∧
    dropMessage (s.setUseCaseIdMsg v) = s.setUseCaseId v ∧
    (dropMessage (setFormulaParametersMsg f x) = setFormulaParameters f x ∧ dropMessage (setFormulaFiltersMsg f v) = setFormulaFilters f v ∧
      dropMessage (setFormulaGroupbyMsg f v) = setFormulaGroupby f v) ∧
    (dropMessage (q.setQueryMsg x) = q.setQuery x ∧ dropMessage (q.setStartMsg x) = q.setStart x ∧ dropMessage (q.setEndMsg x) = q.setEnd x ∧
      dropMessage (q.setRollupMsg x) = q.setRollup x ∧ dropMessage (q.setScopeMsg x) = q.setScope x ∧
      dropMessage (q.setLimitMsg v) = q.setLimit v ∧ dropMessage (q.setOffsetMsg v) = q.setOffset v ∧
      dropMessage (q.setExtrapolateMsg v) = q.setExtrapolate v) := by
  refine ⟨⟨?_, ?_, ?_⟩, ⟨?_, ?_, ?_, ?_⟩, ?_, ⟨?_, ?_, ?_⟩, ?_, ?_, ?_, ?_, ?_, ?_, ?_, ?_⟩
  · simp only [MetricObj.setMriMsg, MetricObj.setMri, drop_bind, drop_demand, drop_mkMetric]
  · simp only [MetricObj.setPublicNameMsg, MetricObj.setPublicName, drop_bind, drop_demand, drop_mkMetric]
  · simp only [MetricObj.setIdMsg, MetricObj.setId, drop_bind, drop_demand, drop_mkMetric]
  · simp only [TimeseriesObj.setMetricMsg, TimeseriesObj.setMetric, drop_bind, drop_asMetric, drop_mkTimeseries]
  · simp only [TimeseriesObj.setAggregateMsg, TimeseriesObj.setAggregate, drop_bind, drop_demand, drop_mkTimeseries]
  · simp only [TimeseriesObj.setFiltersMsg, TimeseriesObj.setFilters, drop_bind, drop_demand, drop_mkTimeseries]
  · simp only [TimeseriesObj.setGroupbyMsg, TimeseriesObj.setGroupby, drop_bind, drop_demand, drop_mkTimeseries]
  · simp only [ScopeObj.setUseCaseIdMsg, ScopeObj.setUseCaseId, drop_bind, drop_demand, drop_mkScope]
  · cases f <;> first | rfl | simp only [setFormulaParametersMsg, setFormulaParameters, drop_bind, drop_demand, drop_ok]
  · cases f <;> first | rfl | simp only [setFormulaFiltersMsg, setFormulaFilters, drop_bind, drop_demand, drop_ok]
  · cases f <;> first | rfl | simp only [setFormulaGroupbyMsg, setFormulaGroupby, drop_bind, drop_demand, drop_ok]
  · cases x with
    | val v => cases v <;> rfl
    | _ => rfl
  · cases x with
    | val v => cases v <;> rfl
    | _ => rfl
  · cases x with
    | val v => cases v <;> rfl
    | _ => rfl
  · cases x <;> rfl
  · cases x <;> rfl
  · simp only [MetricsQueryObj.setLimitMsg, MetricsQueryObj.setLimit, mkLimitMsg, mkLimit, drop_bind, drop_int, drop_ok]
  · simp only [MetricsQueryObj.setOffsetMsg, MetricsQueryObj.setOffset, mkOffsetMsg, mkOffset, drop_bind, drop_int, drop_ok]
  · cases v <;> rfl

/-- C90: the same of the validation of formulas and metrics queries. -/
theorem C90_same_class_validate (q : MetricsQueryObj) (n g : Val) (p : MVal) :
    dropMessage q.validateMsg = q.validate ∧ dropMessage (validateFormulaMsg n p g) = validateFormula n p g :=
  ⟨drop_metricsQuery q, drop_formula n p g⟩

/-! ### The messages -/

omit [PyShow] [PyText] R U S in
/-- C90: an operation that is refused by the first unmet demand of a list succeeds exactly if all demands of the list are met. -/
theorem C90_accepted {α : Type} {x : Except Raised α} {ds : List Demand} (h : RefusedBy x ds) : (∃ a, x = .ok a) ↔ ∀ d ∈ ds, d.holds :=
  accepted h

omit [PyShow] [PyText] R U S in
/-- C90 (metrics): the constructor and the setters. -/
theorem C90_metric (a b c : Val) (m : MetricObj) (v : Val) :
    RefusedBy (mkMetricMsg a b c) (metricDemands ⟨a, b, c⟩) ∧
    RefusedBy (m.setMriMsg v) (exprDemand (IsText v) c!"mri must be an str" :: metricDemands { m with mri := v }) ∧
    RefusedBy (m.setPublicNameMsg v) (exprDemand (IsText v) c!"public_name must be an str" :: metricDemands { m with publicName := v }) ∧
    RefusedBy (m.setIdMsg v) (exprDemand (IsWhole v) c!"id must be an int" :: metricDemands { m with id := v }) :=
  ⟨mkMetric_by a b c, by_check isText_iff fun _ => mkMetric_by _ _ _, by_check isText_iff fun _ => mkMetric_by _ _ _,
    by_check isInt_iff fun _ => mkMetric_by _ _ _⟩

omit [PyShow] [PyText] R U S in
/-- C90 (timeseries): the constructor. -/
theorem C90_timeseries (x : MVal) (a p f g : Val) :
    RefusedBy (mkTimeseriesMsg x a p f g)
      (tsDemand (∃ m, x = .metric m) c!"metric must be an instance of a Metric" ::
        match x with
        | .metric m => timeseriesDemands ⟨m, a, p, f, g⟩
        | _ => []) := by
  cases x with
  | metric m => exact by_met ⟨_, rfl⟩ (mkTimeseries_by m a p f g)
  | _ => exact by_raise (by rintro ⟨_, h⟩; cases h)

omit [PyShow] [PyText] R U S in
/-- C90 (timeseries): the setters. -/
theorem C90_timeseries_setters (t : TimeseriesObj) (x : MVal) (v w : Val) :
    RefusedBy (t.setMetricMsg x)
      (tsDemand (∃ m, x = .metric m) c!"metric must be a Metric" ::
        match x with
        | .metric m => timeseriesDemands { t with metric := m }
        | _ => []) ∧
    RefusedBy (t.setAggregateMsg v w)
      (tsDemand (IsText v) c!"aggregate must be a str" :: tsDemand (OptAnyList w) c!"aggregate_params must be a list" ::
        timeseriesDemands { t with aggregate := v, aggregateParams := w }) ∧
    RefusedBy (t.setFiltersMsg v)
      (tsDemand (OptList Cond v) c!"filters must be a list of Conditions" :: timeseriesDemands { t with filters := v }) ∧
    RefusedBy (t.setGroupbyMsg v)
      (tsDemand (OptList GroupItem v) c!"groupby must be a list of Columns or AliasedExpression" ::
        timeseriesDemands { t with groupby := v }) := by
  refine ⟨?_, ?_, ?_, ?_⟩
  · cases x with
    | metric m => exact by_met ⟨_, rfl⟩ (mkTimeseries_by m _ _ _ _)
    | _ => exact by_raise (by rintro ⟨_, h⟩; cases h)
  · refine by_check isText_iff fun _ => by_check ?_ fun _ => mkTimeseries_by _ _ _ _ _
    cases w <;> simp [Val.given, Val.isList, OptAnyList]
  · exact by_check (optListArg_iff (fun _ => isCondition_iff)) fun _ => mkTimeseries_by _ _ _ _ _
  · exact by_check (optListArg_iff (fun _ => isGroupItem_iff)) fun _ => mkTimeseries_by _ _ _ _ _

omit R U S in
/-- C90 (rollups). -/
theorem C90_rollup (a b c d : Val) : RefusedBy (mkRollupMsg a b c d) (rollupDemands ⟨a, b, c, d⟩) := by_map (rollup_by _)

omit [PyShow] [PyText] R U S in
/-- C90 (scopes): the constructor and the setter. -/
theorem C90_scope (a b c : Val) (s : ScopeObj) (v : Val) :
    RefusedBy (mkScopeMsg a b c) (scopeDemands ⟨a, b, c⟩) ∧
    RefusedBy (s.setUseCaseIdMsg v) (exprDemand (IsText v) c!"use_case_id must be an str" :: scopeDemands { s with useCaseId := v }) :=
  ⟨mkScope_by a b c, by_check isText_iff fun _ => mkScope_by _ _ _⟩

omit U S in
/-- C90 (formulas): the validation. If the fields are in order, the tree is taken to be typed as annotated (as in C34). -/
theorem C90_formula (n : Val) (p : MVal) (a f g : Val)
    (ht : (∀ d ∈ formulaFieldDemands n p, d.holds) → ∀ y, InFormula (.formula n p a f g) y → Typed y) :
    RefusedBy (validateFormulaMsg n p g) (formulaDemands n p a f g) :=
  formula_by n p a f g ht

omit [PyShow] [PyText] R U S in
/-- C90 (formulas): the setters. -/
theorem C90_formula_setters (n : Val) (p : MVal) (a f g : Val) (x : MVal) (v : Val) :
    RefusedBy (setFormulaParametersMsg (.formula n p a f g) x)
      [formulaDemand (OptParams x) c!"parameters must be a list of either Timeseries, floats, or ints"] ∧
    RefusedBy (setFormulaFiltersMsg (.formula n p a f g) v) [formulaDemand (OptList Cond v) c!"filters must be a list of Conditions"] ∧
    RefusedBy (setFormulaGroupbyMsg (.formula n p a f g) v) [formulaDemand (OptList GroupItem v) c!"groupby must be a list of Columns"] := by
  refine ⟨by_map (by_demand ?_), by_map (by_demand (optListArg_iff (fun _ => isCondition_iff))),
    by_map (by_demand (optListArg_iff (fun _ => isGroupItem_iff)))⟩
  constructor
  · intro h
    cases x with
    | list xs =>
      simp only [MVal.given, Bool.not_true, Bool.false_or, isParamList, List.all_eq_true] at h
      exact .list xs fun y hy => isFormulaParam_iff.1 (h y hy)
    | val v =>
      cases v with
      | none => exact .none
      | list xs =>
        simp only [MVal.given, Val.given, Bool.not_true, Bool.false_or, isParamList, List.all_eq_true] at h
        exact .values xs fun y hy => isFormulaParam_iff.1 (h y hy)
      | _ => cases h
    | _ => cases h
  · rintro (_ | ⟨xs, h⟩ | ⟨xs, h⟩)
    · rfl
    · simp only [MVal.given, Bool.not_true, Bool.false_or, isParamList, List.all_eq_true]
      exact fun y hy => isFormulaParam_iff.2 (h y hy)
    · simp only [MVal.given, Val.given, Bool.not_true, Bool.false_or, isParamList, List.all_eq_true]
      exact fun y hy => isFormulaParam_iff.2 (h y hy)

omit [PyShow] [PyText] R U S in
/-- C90 (metrics queries): the setters whose argument is looked at by its class only. -/
theorem C90_query_setters (q : MetricsQueryObj) (x : MVal) :
    RefusedBy (q.setQueryMsg x)
      [setDemand ((∃ n p a f g, x = .formula n p a f g) ∨ (∃ t, x = .ts t) ∨ ∃ s, x = .val (.str s))
        c!"query must be a Formula or Timeseries or MQL string"] ∧
    RefusedBy (q.setStartMsg x) [setDemand (∃ t, x = .val (.datetime t)) c!"start must be a datetime"] ∧
    RefusedBy (q.setEndMsg x) [setDemand (∃ t, x = .val (.datetime t)) c!"end must be a datetime"] ∧
    RefusedBy (q.setRollupMsg x) [setDemand (∃ r, x = .rollup r) c!"rollup must be a Rollup"] ∧
    RefusedBy (q.setScopeMsg x) [setDemand (∃ s, x = .scope s) c!"scope must be a MetricsScope"] := by
  refine ⟨?_, ?_, ?_, ?_, ?_⟩
  · have no : (∀ n p a f g, x ≠ .formula n p a f g) → (∀ t, x ≠ .ts t) → (∀ s, x ≠ .val (.str s)) →
        ¬ ((∃ n p a f g, x = .formula n p a f g) ∨ (∃ t, x = .ts t) ∨ ∃ s, x = .val (.str s)) := by
      rintro h1 h2 h3 (⟨n, p, a, f, g, h⟩ | ⟨t, h⟩ | ⟨s, h⟩)
      · exact h1 n p a f g h
      · exact h2 t h
      · exact h3 s h
    cases x with
    | val v =>
      cases v with
      | str s => exact by_met (.inr (.inr ⟨_, rfl⟩)) (by_ok _)
      | _ => exact by_raise (no (by simp) (by simp) (by simp))
    | ts t => exact by_met (.inr (.inl ⟨_, rfl⟩)) (by_ok _)
    | formula n p a f g => exact by_met (.inl ⟨_, _, _, _, _, rfl⟩) (by_ok _)
    | _ => exact by_raise (no (by simp) (by simp) (by simp))
  · cases x with
    | val v =>
      cases v with
      | datetime d => exact by_met ⟨_, rfl⟩ (by_ok _)
      | _ => exact by_raise (by rintro ⟨_, h⟩; cases h)
    | _ => exact by_raise (by rintro ⟨_, h⟩; cases h)
  · cases x with
    | val v =>
      cases v with
      | datetime d => exact by_met ⟨_, rfl⟩ (by_ok _)
      | _ => exact by_raise (by rintro ⟨_, h⟩; cases h)
    | _ => exact by_raise (by rintro ⟨_, h⟩; cases h)
  · cases x with
    | rollup r => exact by_met ⟨_, rfl⟩ (by_ok _)
    | _ => exact by_raise (by rintro ⟨_, h⟩; cases h)
  · cases x with
    | scope r => exact by_met ⟨_, rfl⟩ (by_ok _)
    | _ => exact by_raise (by rintro ⟨_, h⟩; cases h)

omit R U S in
/-- C90 (metrics queries): the setters that build a limit, an offset or an extrapolation from their argument. -/
theorem C90_option_setters (q : MetricsQueryObj) (v : Val) :
    RefusedBy (q.setLimitMsg v)
      [exprDemand (IsWhole v) (c!"limit '" ++ v.text ++ c!"' must be an integer"),
       exprDemand (∀ i, IntLike v i → 1 ≤ i.toInt) (c!"limit '" ++ v.text ++ c!"' must be at least 1"),
       exprDemand (∀ i, IntLike v i → i.toInt ≤ 10000) (c!"limit '" ++ v.text ++ c!"' is capped at 10,000")] ∧
    RefusedBy (q.setOffsetMsg v)
      [exprDemand (IsWhole v) (c!"offset '" ++ v.text ++ c!"' must be an integer"),
       exprDemand (∀ i, IntLike v i → 0 ≤ i.toInt) (c!"offset '" ++ v.text ++ c!"' must be at least 0")] ∧
    RefusedBy (q.setExtrapolateMsg v) [exprDemand (∃ b, v = .bool b) c!"extrapolate must be a boolean"] := by
  have ht := text_bounds v.text
  refine ⟨by_map (by_map ?_), by_map (by_map ?_), by_map ?_⟩
  · unfold validateIntLiteralMsg
    cases hv : v.asInt? with
    | none => exact by_raise (fun ⟨n, hn⟩ => asInt?_none.1 hv n hn)
    | some i =>
      have hi := asInt?_iff.1 hv
      have huniq : ∀ j, IntLike v j → j = i := fun j hj => by
        have := asInt?_iff.2 hj; rw [hv] at this; exact (Option.some.inj this).symm
      simp only [ht.1, ht.2.1]
      refine by_met ⟨i, hi⟩ ?_
      by_cases h1 : i.toInt < 1
      · simp only [if_pos h1]
        exact by_raise (fun h => by have := h i hi; omega)
      · simp only [if_neg h1]
        refine by_met (fun j hj => by rw [huniq j hj]; omega) ?_
        by_cases h2 : i.toInt > 10000
        · simp only [if_pos h2]
          exact by_raise (fun h => by have := h i hi; omega)
        · simp only [if_neg h2]
          exact by_met (fun j hj => by rw [huniq j hj]; omega) (by_ok _)
  · have h := atLeast_by (p := IsWhole v) c!"offset" v 0 Iff.rfl
    rw [ht.2.2] at h
    exact h
  · cases v with
    | bool b => exact by_met ⟨_, rfl⟩ (by_ok _)
    | _ => exact by_raise (by rintro ⟨_, h⟩; cases h)

/-- C90 (metrics queries): the validation that comes before printing and sending. If the query is a formula whose fields are in order, its
tree is taken to be typed as annotated (as in C35); nothing is assumed of MQL strings. -/
theorem C90_validate (q : MetricsQueryObj)
    (ht : ∀ n p a f g, q.query = .formula n p a f g → (∀ d ∈ formulaFieldDemands n p, d.holds) → ∀ y, InFormula q.query y → Typed y) :
    RefusedBy q.validateMsg (metricsQueryDemands q) :=
  metricsQuery_by q ht

omit [PyShow] [PyText] R U S in
/-- C90 (setters of valid objects): on an object that is itself in order, a setter is refused for its argument only, in the words of the setter. -/
theorem C90_valid_setters (m : MetricObj) (hm : MetricOk m) (s : ScopeObj) (hs : ScopeOk s) (t : TimeseriesObj) (ht : TimeseriesOk t) (v : Val) :
    RefusedBy (m.setMriMsg v) [exprDemand (IsText v) c!"mri must be an str"] ∧
    RefusedBy (m.setPublicNameMsg v) [exprDemand (IsText v) c!"public_name must be an str"] ∧
    RefusedBy (m.setIdMsg v) [exprDemand (IsWhole v) c!"id must be an int"] ∧
    RefusedBy (s.setUseCaseIdMsg v) [exprDemand (IsText v) c!"use_case_id must be an str"] ∧
    RefusedBy (t.setFiltersMsg v) [tsDemand (OptList Cond v) c!"filters must be a list of Conditions"] ∧
    RefusedBy (t.setGroupbyMsg v) [tsDemand (OptList GroupItem v) c!"groupby must be a list of Columns or AliasedExpression"] := by
  have first : ∀ {α : Type} {x : Except Raised α} {d : Demand} {ds : List Demand}, RefusedBy x (d :: ds) →
      (d.holds → ∃ a, x = .ok a) → RefusedBy x [d] := by
    intro α x d ds h hok r
    rw [h r, unmet_cons, unmet_cons]
    constructor
    · rintro (h' | ⟨hd, hu⟩)
      · exact .inl h'
      · obtain ⟨a, ha⟩ := hok hd
        have := (h r).2 (unmet_cons.2 (.inr ⟨hd, hu⟩))
        rw [ha] at this
        cases this
    · rintro (h' | ⟨_, hu⟩)
      · exact .inl h'
      · exact absurd hu unmet_nil
  have lift : ∀ {α : Type} {x : Except Raised α} {y : Except Err α}, dropMessage x = y → (∃ a, y = .ok a) → ∃ a, x = .ok a := by
    intro α x y h h'
    obtain ⟨a, ha⟩ := h'
    cases x with
    | ok b => exact ⟨b, rfl⟩
    | error r => rw [ha] at h; cases h
  obtain ⟨_, b1, b2, b3⟩ := C90_metric .none .none .none m v
  obtain ⟨_, b4⟩ := C90_scope .none .none .none s v
  obtain ⟨_, _, b5, b6⟩ := C90_timeseries_setters t (.val .none) v .none
  refine ⟨first b1 fun h => ?_, first b2 fun h => ?_, first b3 fun h => ?_, first b4 fun h => ?_, first b5 fun h => ?_,
    first b6 fun h => ?_⟩
  · exact lift (y := m.setMri v) (by simp only [MetricObj.setMriMsg, MetricObj.setMri, drop_bind, drop_demand, drop_mkMetric])
      ⟨_, (C32_metric_setters m hm v _).1.2 ⟨h, rfl⟩⟩
  · exact lift (y := m.setPublicName v) (by simp only [MetricObj.setPublicNameMsg, MetricObj.setPublicName, drop_bind, drop_demand, drop_mkMetric])
      ⟨_, (C32_metric_setters m hm v _).2.1.2 ⟨h, rfl⟩⟩
  · exact lift (y := m.setId v) (by simp only [MetricObj.setIdMsg, MetricObj.setId, drop_bind, drop_demand, drop_mkMetric])
      ⟨_, (C32_metric_setters m hm v _).2.2.2 ⟨h, rfl⟩⟩
  · exact lift (y := s.setUseCaseId v) (by simp only [ScopeObj.setUseCaseIdMsg, ScopeObj.setUseCaseId, drop_bind, drop_demand, drop_mkScope])
      ⟨_, (C32_scope_setter s hs v _).2 ⟨h, rfl⟩⟩
  · exact lift (y := t.setFilters v) (by simp only [TimeseriesObj.setFiltersMsg, TimeseriesObj.setFilters, drop_bind, drop_demand, drop_mkTimeseries])
      ⟨_, ((C32_timeseries_setters t ht _).2.2.1 v).2 ⟨h, rfl⟩⟩
  · exact lift (y := t.setGroupby v) (by simp only [TimeseriesObj.setGroupbyMsg, TimeseriesObj.setGroupby, drop_bind, drop_demand, drop_mkTimeseries])
      ⟨_, ((C32_timeseries_setters t ht _).2.2.2 v).2 ⟨h, rfl⟩⟩

/-- C90: unless Python itself objects (`TypeError`), whatever stops a metrics query has a message. -/
theorem C90_message_given (q : MetricsQueryObj)
    (ht : ∀ n p a f g, q.query = .formula n p a f g → (∀ d ∈ formulaFieldDemands n p, d.holds) → ∀ y, InFormula q.query y → Typed y)
    (e : Err) (h : q.validateMsg = .error (e, none)) :
    e = .typeError ∧ ∃ r, q.rollup = .rollup r ∧ r.interval ≠ .none ∧ Empty r.granularity := by
  have worded : ∀ {ds : List Demand}, (∀ d ∈ ds, d.raises.2 ≠ none) → ¬ FirstUnmet ds (e, none) := by
    rintro ds hw ⟨before, d, after, rfl, _, _, hr⟩
    exact hw d (by simp) (by rw [hr])
  have hts : ∀ t, ¬ FirstUnmet (timeseriesDemands t) (e, none) := fun t => worded (by simp [timeseriesDemands, metricDemands, tsDemand])
  have hf : ∀ n p a f g, ¬ FirstUnmet (formulaDemands n p a f g) (e, none) := by
    intro n p a f g
    refine worded ?_
    intro d hd
    simp only [formulaDemands, formulaFieldDemands, List.mem_append, List.mem_cons, List.not_mem_nil, or_false, List.mem_map] at hd
    rcases hd with ((rfl | rfl | rfl) | ⟨_, _, rfl⟩) | rfl | rfl <;> simp [formulaDemand]
  have hobj : ∀ x, ¬ FirstUnmet (objectDemands x) (e, none) := by
    intro x
    cases x with
    | ts t => exact hts t
    | formula n p a f g => exact hf n p a f g
    | _ => exact unmet_nil
  have hu := (metricsQuery_by q ht _).1 h
  simp only [metricsQueryDemands, unmet_append, or_assoc] at hu
  rcases hu with hu | ⟨_, hu⟩ | ⟨_, hu⟩ | ⟨_, hu⟩ | ⟨_, hu⟩ | ⟨_, hu⟩
  · unfold queryFieldDemands at hu
    rw [unmet_append] at hu
    rcases hu with hu | ⟨_, hu⟩
    · exact absurd hu (worded (by simp [queryDemand]))
    · split at hu
      · rename_i s hs
        rw [unmet_cons] at hu
        rcases hu with ⟨hn, hr⟩ | ⟨_, hu⟩
        · cases hr
        · split at hu
          · exact absurd hu (hobj _)
          · exact absurd hu unmet_nil
      · exact absurd hu (hobj _)
  · exact absurd hu (worded (by simp [momentDemands, queryDemand]))
  · exact absurd hu (worded (by simp [momentDemands, queryDemand]))
  · unfold rollupFieldDemands at hu
    rw [unmet_append] at hu
    rcases hu with hu | ⟨_, hu⟩
    · exact absurd hu (worded (by simp [queryDemand]))
    · split at hu
      · rename_i r hr
        simp only [rollupDemands, unmet_cons, unmet_nil, queryDemand, exprDemand, Prod.mk.injEq, reduceCtorEq, and_false, false_or, or_false,
          and_true] at hu
        obtain ⟨hg, hgran, _, _, hn, rfl⟩ := hu
        refine ⟨rfl, r, hr, fun hi => hn (.inl hi), ?_⟩
        rcases hgran with h' | h' | ⟨n, _, h'⟩
        · exact absurd h' hg
        · exact h'
        · exact absurd (.inr (.inr ⟨n, h'⟩)) hn
      · exact absurd hu unmet_nil
  · unfold scopeFieldDemands at hu
    rw [unmet_append] at hu
    rcases hu with hu | ⟨_, hu⟩
    · exact absurd hu (worded (by simp [queryDemand]))
    · split at hu
      · exact absurd hu (worded (by simp [scopeDemands, exprDemand]))
      · exact absurd hu unmet_nil
  · refine absurd hu (worded ?_)
    intro d hd
    simp only [optionDemands, List.mem_append, List.mem_cons, List.not_mem_nil, or_false] at hd
    rcases hd with (((rfl | hd) | rfl) | hd) | rfl | rfl
    · simp [queryDemand]
    · split at hd
      · simp only [List.mem_cons, List.not_mem_nil, or_false] at hd
        rcases hd with rfl | rfl <;> simp [exprDemand]
      · cases hd
    · simp [queryDemand]
    · split at hd
      · simp only [List.mem_cons, List.not_mem_nil, or_false] at hd
        subst hd
        simp [exprDemand]
      · cases hd
    · simp [queryDemand]
    · simp [queryDemand]

end

/-! ### Cases -/

section
@[local instance, reducible] private def exMsgAscii : PyUnicode := asciiUnicode
@[local instance, reducible] private def exMsgSpace : RegexSpace := pySpace
@[local instance, reducible] private def exMsgRepr : PyRepr := ⟨fun _ => c!"<object>"⟩
@[local instance, reducible] private def exMsgShow : PyShow := ⟨fun _ => false, fun _ => c!"<object>"⟩
@[local instance, reducible] private def exMsgText : PyText := ⟨fun _ => c!"<object>", fun _ => c!"builtins.object"⟩

private def exMsgSays {α : Type} : Except Raised α → Option Raised
  | .ok _ => none
  | .error r => some r

private def exMsgMetric : MetricObj := ⟨.str c!"duration", .none, .none⟩
private def exMsgTs : TimeseriesObj := ⟨exMsgMetric, .str c!"sum", .none, .none, .none⟩
private def exMsgCol (n : Str) : Val := .column ⟨n, none, none, none⟩

/-- Metrics and their setters: of two faults the first is named, and setters have words of their own. -/
example :
    exMsgSays (mkMetricMsg (.int 123) (.int 5) .none) = some (.invalidTimeseries, some c!"public_name must be a string") ∧
    exMsgSays (mkMetricMsg .none .none (.int 123)) =
      some (.invalidTimeseries, some c!"Metric must have at least one of public_name or mri") ∧
    exMsgSays (exMsgMetric.setMriMsg (.int 5)) = some (.invalidExpression, some c!"mri must be an str") ∧
    exMsgSays (exMsgMetric.setIdMsg (.bool true)) = none ∧
    exMsgSays ((⟨.int 1, .none, .none⟩ : MetricObj).setIdMsg (.int 4)) = some (.invalidTimeseries, some c!"public_name must be a string") := by
  refine ⟨?_, ?_, ?_, ?_, ?_⟩ <;> decide +kernel

/-- The first case of the theorem for metrics. -/
example : FirstUnmet (metricDemands ⟨.int 123, .int 5, .none⟩) (.invalidTimeseries, some c!"public_name must be a string") :=
  ((C90_metric _ _ _ exMsgMetric .none).1 _).1 rfl

/-- Timeseries: the constructor and the setter name a wrong metric differently, and a list with a bad item differs from no list. -/
example :
    exMsgSays (mkTimeseriesMsg (.val (.str c!"m")) (.int 1) .none .none .none) =
      some (.invalidTimeseries, some c!"metric must be an instance of a Metric") ∧
    exMsgSays (exMsgTs.setMetricMsg (.val (.str c!"m"))) = some (.invalidTimeseries, some c!"metric must be a Metric") ∧
    exMsgSays (mkTimeseriesMsg (.metric exMsgMetric) (.str c!"sum") (.int 6) (.int 6) .none) =
      some (.invalidTimeseries, some c!"aggregate_params must be a list") ∧
    exMsgSays (mkTimeseriesMsg (.metric exMsgMetric) (.str c!"sum") (.list [exMsgCol c!"ab"]) .none .none) =
      some (.invalidTimeseries, some c!"aggregate_params can only be literal types") ∧
    exMsgSays (mkTimeseriesMsg (.metric exMsgMetric) (.str c!"sum") .none (.str c!"a") .none) =
      some (.invalidTimeseries, some c!"filters must be a list") ∧
    exMsgSays (exMsgTs.setFiltersMsg (.str c!"a")) = some (.invalidTimeseries, some c!"filters must be a list of Conditions") ∧
    exMsgSays (exMsgTs.setAggregateMsg (.int 1) (.int 1)) = some (.invalidTimeseries, some c!"aggregate must be a str") ∧
    exMsgSays (exMsgTs.setGroupbyMsg (.list [exMsgCol c!"ab"])) = none := by
  refine ⟨?_, ?_, ?_, ?_, ?_, ?_, ?_, ?_⟩ <;> decide +kernel

/-- The hypotheses of the theorem on valid objects. -/
example : MetricOk exMsgMetric ∧ TimeseriesOk exMsgTs ∧ ScopeOk ⟨.list [.int 1], .list [], .none⟩ :=
  ⟨((C32_metric_iff (.str c!"duration") .none .none exMsgMetric).1 rfl).2,
    (((C32_timeseries_iff (.metric exMsgMetric) (.str c!"sum") .none .none .none exMsgTs).1 rfl).elim fun _ h => h.2.2),
    ((C32_scope_iff (.list [.int 1]) (.list []) .none _).1 rfl).2⟩

/-- Rollups and scopes. An empty string as granularity makes Python itself object. -/
example :
    exMsgSays (mkRollupMsg (.str c!"61") .none .none (.int 7)) =
      some (.invalidExpression, some c!"granularity must be an integer and one of (10, 60, 3600, 86400)") ∧
    exMsgSays (mkRollupMsg (.str c!"61") .none .none .none) = some (.invalidExpression, some c!"interval '61' must be an integer") ∧
    exMsgSays (mkRollupMsg (.int 9) .none .none (.int 60)) = some (.invalidExpression, some c!"interval '9' must be at least 10") ∧
    exMsgSays (mkRollupMsg (.int 30) .none .none (.int 60)) =
      some (.invalidExpression, some c!"interval must be greater than or equal to granularity") ∧
    exMsgSays (mkRollupMsg (.int 30) .none .none (.str [])) = some (.typeError, none) ∧
    exMsgSays (mkRollupMsg .none .none (.int 1) .none) =
      some (.invalidExpression, some c!"Rollup must have at least one of interval or totals") ∧
    exMsgSays (mkRollupMsg (.int 60) .none (.direction .asc) .none) =
      some (.invalidExpression, some c!"Timeseries queries can't be ordered when using interval") ∧
    exMsgSays (mkScopeMsg (.int 1) (.int 1) (.int 1)) = some (.invalidExpression, some c!"org_ids must be a list of integers") ∧
    exMsgSays (mkScopeMsg (.list [.int 1]) (.list [.int 1, .str c!"2"]) .none) =
      some (.invalidExpression, some c!"project_ids must be a list of integers") := by
  refine ⟨?_, ?_, ?_, ?_, ?_, ?_, ?_, ?_, ?_⟩ <;> decide +kernel

/-- Formulas: the first bad parameter is named. -/
example :
    exMsgSays (validateFormulaMsg (.int 42) (.list [.ts exMsgTs, .val (.int 1)]) .none) =
      some (.invalidFormula, some c!"formula '42' must be a str") ∧
    exMsgSays (validateFormulaMsg (.str c!"plus") (.val .none) .none) = some (.invalidFormula, some c!"Formula must have parameters") ∧
    exMsgSays (validateFormulaMsg (.str c!"plus") (.val (.int 42)) .none) =
      some (.invalidFormula, some c!"parameters of formula plus must be a Sequence") ∧
    exMsgSays (validateFormulaMsg (.str c!"multiply") (.list [.ts exMsgTs, .val (.str c!"foo"), .val (.str c!"bar")]) .none) =
      some (.invalidFormula, some c!"parameter 'foo' of formula multiply is an invalid type") ∧
    exMsgSays (validateFormulaMsg (.str c!"plus") (.list [.val (.int 100), .val (.int 100)]) (.list [exMsgCol c!"release"])) =
      some (.invalidFormula, some c!"Formulas must operate on at least one Timeseries") ∧
    exMsgSays (validateFormulaMsg (.str c!"plus") (.list [.ts { exMsgTs with groupby := .list [exMsgCol c!"ab"] }])
      (.list [exMsgCol c!"release"])) = some (.invalidFormula, some c!"Formula parameters must group by the same columns") ∧
    exMsgSays (setFormulaGroupbyMsg (.formula (.str c!"plus") (.list []) .none .none .none) (.int 1)) =
      some (.invalidFormula, some c!"groupby must be a list of Columns") := by
  refine ⟨?_, ?_, ?_, ?_, ?_, ?_, ?_⟩ <;> decide +kernel

private theorem exMsg_typed (k : Val) (hk : OptList PlainGroupItem k) :
    ∀ y, InFormula (.formula (.str c!"plus") (.list [.ts exMsgTs, .val (.int 1)]) .none .none k) y → Typed y := by
  intro y hy
  rcases (inFormula_formula (.list _)).1 hy with rfl | ⟨p, hp, hy⟩
  · exact .formula _ _ _ _ _ (.inr ⟨_, .list _⟩) hk
  · simp only [List.mem_cons, List.not_mem_nil, or_false] at hp
    rcases hp with rfl | rfl
    · rw [(inFormula_leaf (by simp)).1 hy]; exact .ts _ .none
    · rw [(inFormula_leaf (by simp)).1 hy]; exact .other _ (by simp) (by simp)

/-- The hypothesis of the theorem for formulas holds for a sum, and all its demands are met. -/
example : ∀ d ∈ formulaDemands (.str c!"plus") (.list [.ts exMsgTs, .val (.int 1)]) .none .none .none, d.holds :=
  (C90_accepted (C90_formula _ _ _ _ _ fun _ => exMsg_typed .none .none)).1 ⟨(), rfl⟩

/-- It holds without further ado if the fields are not in order. -/
example : FirstUnmet (formulaDemands (.int 42) (.val .none) .none .none .none) (.invalidFormula, some c!"formula '42' must be a str") :=
  (C90_formula _ _ _ _ _ (fun h => by
    obtain ⟨s, hs⟩ := h (formulaDemand (IsText (.int 42)) (c!"formula '" ++ (Val.int 42).text ++ c!"' must be a str"))
      (by simp [formulaFieldDemands])
    cases hs) _).1 rfl

private def exMsgQuery (x : MVal) : MetricsQueryObj :=
  { query := x
    start := .val (.datetime ⟨⟨2024, 2, 29, rfl⟩, 12, 30, 5, 7, none, rfl⟩)
    end_ := .val (.datetime ⟨⟨2024, 3, 1, rfl⟩, 0, 0, 0, 0, none, rfl⟩)
    rollup := .rollup ⟨.int 3600, .none, .none, .int 3600⟩
    scope := .scope ⟨.list [.int 1], .list [.int 11], .none⟩ }

/-- Metrics queries: what stops them, in the order of the fields. -/
example :
    exMsgSays (exMsgQuery (.ts exMsgTs)).validateMsg = none ∧
    exMsgSays ({} : MetricsQueryObj).validateMsg = some (.invalidMetricsQuery, some c!"query is required for a metrics query") ∧
    exMsgSays (exMsgQuery (.val (.int 5))).validateMsg =
      some (.invalidMetricsQuery, some c!"query must be a Timeseries or Formula or MQL string") ∧
    exMsgSays ({ exMsgQuery (.ts exMsgTs) with start := .val .none, end_ := .val .none } : MetricsQueryObj).validateMsg =
      some (.invalidMetricsQuery, some c!"start is required for a metrics query") ∧
    exMsgSays ({ exMsgQuery (.ts exMsgTs) with end_ := .val (.str c!"now") } : MetricsQueryObj).validateMsg =
      some (.invalidMetricsQuery, some c!"end must be a datetime") ∧
    exMsgSays ({ exMsgQuery (.ts exMsgTs) with rollup := .rollup ⟨.int 5, .none, .none, .none⟩ } : MetricsQueryObj).validateMsg =
      some (.invalidMetricsQuery, some c!"granularity must be set on the rollup") ∧
    exMsgSays ({ exMsgQuery (.ts exMsgTs) with rollup := .rollup ⟨.int 5, .none, .none, .int 60⟩ } : MetricsQueryObj).validateMsg =
      some (.invalidExpression, some c!"interval '5' must be at least 10") ∧
    exMsgSays ({ exMsgQuery (.ts exMsgTs) with limit := .val (.limit (.int 20000)) } : MetricsQueryObj).validateMsg =
      some (.invalidExpression, some c!"limit '20000' is capped at 10,000") ∧
    exMsgSays ({ exMsgQuery (.ts exMsgTs) with offset := .val (.int 1), extrapolate := .val (.int 1) } : MetricsQueryObj).validateMsg =
      some (.invalidMetricsQuery, some c!"offset must be a Offset object") := by
  refine ⟨?_, ?_, ?_, ?_, ?_, ?_, ?_, ?_, ?_⟩ <;> decide +kernel

/-- The theorem for metrics queries on a query whose formula is typed as annotated, and which meets all demands. -/
example : ∀ d ∈ metricsQueryDemands (exMsgQuery (.formula (.str c!"plus") (.list [.ts exMsgTs, .val (.int 1)]) .none .none .none)), d.holds :=
  (C90_accepted (C90_validate _ (fun _ _ _ _ _ _ _ => exMsg_typed .none .none))).1 ⟨(), rfl⟩

/-- The setters of metrics queries. -/
example :
    exMsgSays ((exMsgQuery (.val .none)).setQueryMsg (.metric exMsgMetric)) =
      some (.invalidQuery, some c!"query must be a Formula or Timeseries or MQL string") ∧
    exMsgSays ((exMsgQuery (.val .none)).setStartMsg (.val (.str c!"now"))) = some (.invalidQuery, some c!"start must be a datetime") ∧
    exMsgSays ((exMsgQuery (.val .none)).setRollupMsg (.val (.int 60))) = some (.invalidQuery, some c!"rollup must be a Rollup") ∧
    exMsgSays ((exMsgQuery (.val .none)).setScopeMsg (.val .none)) = some (.invalidQuery, some c!"scope must be a MetricsScope") ∧
    exMsgSays ((exMsgQuery (.val .none)).setLimitMsg (.int 10001)) = some (.invalidExpression, some c!"limit '10001' is capped at 10,000") ∧
    exMsgSays ((exMsgQuery (.val .none)).setOffsetMsg (.str c!"5")) = some (.invalidExpression, some c!"offset '5' must be an integer") ∧
    exMsgSays ((exMsgQuery (.val .none)).setExtrapolateMsg (.int 1)) = some (.invalidExpression, some c!"extrapolate must be a boolean") := by
  refine ⟨?_, ?_, ?_, ?_, ?_, ?_, ?_⟩ <;> decide +kernel

/-- The words of the parser, and the way to be stopped without words of the SDK. -/
example :
    (exMsgQuery (.val (.str c!"sum("))).validateMsg = .error (.invalidMetricsQuery, some c!"invalid MQL: Invalid metrics syntax") ∧
    ({ exMsgQuery (.ts exMsgTs) with rollup := .rollup ⟨.int 60, .none, .none, .str []⟩ } : MetricsQueryObj).validateMsg =
      .error (.typeError, none) := ⟨rfl, rfl⟩

end

end Verif
