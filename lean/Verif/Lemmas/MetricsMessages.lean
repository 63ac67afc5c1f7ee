import Verif.Spec.MetricsMessages
import Verif.Props.MetricsQuery
import Verif.Lemmas.BuildMessages
import Verif.Lemmas.MqlMessages

/-!
# Lemmas: the metrics layer with the messages of its exceptions
-/

namespace Verif.MetricsMsg
open Spec BuildMsg

/-! ### Lists of demands -/

theorem unmet_nil {r : Raised} : ¬ FirstUnmet [] r := by
  rintro ⟨before, d, after, h, _⟩
  cases before <;> cases h

theorem unmet_cons {d : Demand} {ds : List Demand} {r : Raised} :
    FirstUnmet (d :: ds) r ↔ (¬ d.holds ∧ d.raises = r) ∨ (d.holds ∧ FirstUnmet ds r) := by
  constructor
  · rintro ⟨before, e, after, h, hb, he, hr⟩
    cases before with
    | nil => cases h; exact .inl ⟨he, hr⟩
    | cons b before =>
      cases h
      exact .inr ⟨hb _ (by simp), before, e, after, rfl, fun x hx => hb x (List.mem_cons_of_mem _ hx), he, hr⟩
  · rintro (⟨h, hr⟩ | ⟨hd, before, e, after, rfl, hb, he, hr⟩)
    · exact ⟨[], d, ds, rfl, by simp, h, hr⟩
    · refine ⟨d :: before, e, after, rfl, ?_, he, hr⟩
      intro x hx
      rcases List.mem_cons.1 hx with rfl | hx
      · exact hd
      · exact hb x hx

theorem unmet_append {ds es : List Demand} {r : Raised} :
    FirstUnmet (ds ++ es) r ↔ FirstUnmet ds r ∨ ((∀ d ∈ ds, d.holds) ∧ FirstUnmet es r) := by
  induction ds with
  | nil => simp [unmet_nil]
  | cons d ds ih =>
    simp only [List.cons_append, unmet_cons, ih, List.forall_mem_cons]
    constructor
    · rintro (h | ⟨h, h' | h'⟩)
      · exact .inl (.inl h)
      · exact .inl (.inr ⟨h, h'⟩)
      · exact .inr ⟨⟨h, h'.1⟩, h'.2⟩
    · rintro ((h | ⟨h, h'⟩) | ⟨⟨h, h'⟩, h''⟩)
      · exact .inl h
      · exact .inr ⟨h, .inl h'⟩
      · exact .inr ⟨h, .inr ⟨h', h''⟩⟩

theorem all_met {ds : List Demand} : (∀ d ∈ ds, d.holds) ↔ ∀ r, ¬ FirstUnmet ds r := by
  induction ds with
  | nil => simp [unmet_nil]
  | cons d ds ih =>
    simp only [List.forall_mem_cons, ih, unmet_cons]
    constructor
    · rintro ⟨h, h'⟩ r (⟨hn, _⟩ | ⟨_, hn⟩)
      · exact hn h
      · exact h' r hn
    · intro h
      have hd : d.holds := Classical.byContradiction fun hn => h d.raises (.inl ⟨hn, rfl⟩)
      exact ⟨hd, fun r hr => h r (.inr ⟨hd, hr⟩)⟩

/-- An operation that is not refused meets all demands, and the other way round. -/
theorem accepted {α : Type} {x : Except Raised α} {ds : List Demand} (h : RefusedBy x ds) :
    (∃ a, x = .ok a) ↔ ∀ d ∈ ds, d.holds := by
  rw [all_met]
  cases x with
  | ok a => exact ⟨fun _ r hr => (by have := (h r).2 hr; cases this), fun _ => ⟨a, rfl⟩⟩
  | error r =>
    refine ⟨?_, fun hn => absurd ((h r).1 rfl) (hn r)⟩
    rintro ⟨_, ⟨⟩⟩

theorem by_ok {α : Type} (a : α) : RefusedBy (.ok a : Except Raised α) [] := fun r => by simp [unmet_nil]

theorem by_bind {α β : Type} {x : Except Raised α} {f : α → Except Raised β} {ds es : List Demand} (h : RefusedBy x ds)
    (hf : ∀ a, x = .ok a → (∀ d ∈ ds, d.holds) → RefusedBy (f a) es) : RefusedBy (x >>= f) (ds ++ es) := by
  intro r
  rw [unmet_append]
  have hacc := accepted h
  cases x with
  | ok a =>
    have hd := hacc.1 ⟨a, rfl⟩
    have h' : ¬ FirstUnmet ds r := all_met.1 hd r
    have := hf a rfl hd r
    simp only [ok_bind]
    rw [this]
    exact ⟨fun hu => .inr ⟨hd, hu⟩, fun hu => hu.elim (fun hu => absurd hu h') And.right⟩
  | error r' =>
    have hnd : ¬ ∀ d ∈ ds, d.holds := fun hd => by obtain ⟨_, ha⟩ := hacc.2 hd; cases ha
    have := h r
    simp only [error_bind, hnd, false_and, or_false]
    rw [← this]
    simp

theorem by_map {α β : Type} {x : Except Raised α} {g : α → β} {ds : List Demand} (h : RefusedBy x ds) :
    RefusedBy (x >>= fun a => .ok (g a)) ds := by
  have := by_bind (es := []) h fun a _ _ => by_ok (g a)
  rwa [List.append_nil] at this

theorem by_demand {b : Bool} {p : Prop} {e : Err} {m : Str} (h : b = true ↔ p) : RefusedBy (demand b e m) [⟨p, e, some m⟩] := by
  intro r
  simp only [unmet_cons, unmet_nil, and_false, or_false]
  cases b with
  | true => simp [demand, h.1 rfl]
  | false =>
    have : ¬ p := fun hp => by have := h.2 hp; cases this
    simp only [demand, raise, if_neg, Bool.false_eq_true, this, not_false_eq_true, true_and, Except.error.injEq]

theorem by_check {b : Bool} {p : Prop} {e : Err} {m : Str} {β : Type} {f : Unit → Except Raised β} {es : List Demand}
    (h : b = true ↔ p) (hf : p → RefusedBy (f ()) es) : RefusedBy (demand b e m >>= f) (⟨p, e, some m⟩ :: es) :=
  by_bind (ds := [_]) (by_demand h) fun _ _ hd => hf (hd _ (List.mem_singleton.2 rfl))

/-- A refusal whose reason is the first demand. -/
theorem by_raise {α : Type} {p : Prop} {e : Err} {m : Str} {ds : List Demand} (h : ¬ p) :
    RefusedBy (raise e m : Except Raised α) (⟨p, e, some m⟩ :: ds) := by
  intro r
  simp only [unmet_cons, h, not_false_eq_true, true_and, false_and, or_false, raise, Except.error.injEq]

/-- A demand that is met can be put before the others. -/
theorem by_met {α : Type} {x : Except Raised α} {d : Demand} {ds : List Demand} (hd : d.holds) (h : RefusedBy x ds) :
    RefusedBy x (d :: ds) := by
  intro r
  rw [h r, unmet_cons]
  simp [hd]

theorem by_congr {α : Type} {x : Except Raised α} {ds es : List Demand} (h : RefusedBy x ds) (he : ds = es) : RefusedBy x es := he ▸ h

/-! ### The results are those of the functions without messages -/

theorem drop_demand (b : Bool) (e : Err) (m : Str) : dropMessage (demand b e m) = ensure b e := by
  cases b <;> rfl

theorem drop_metric (m : MetricObj) : dropMessage m.validateMsg = m.validate := by
  simp only [MetricObj.validateMsg, MetricObj.validate, drop_bind, drop_demand]

theorem drop_mkMetric (a b c : Val) : dropMessage (mkMetricMsg a b c) = mkMetric a b c := by
  simp only [mkMetricMsg, mkMetric, drop_bind, drop_metric, drop_ok]

theorem drop_optList (p : Val → Bool) (v : Val) (m m' : Str) :
    dropMessage (checkOptListMsg p v m m') = ensure (optListOf p v) .invalidTimeseries := by
  cases v <;> first | rfl | (simp only [checkOptListMsg, drop_demand, optListOf]; done)

theorem drop_timeseries (t : TimeseriesObj) : dropMessage t.validateMsg = t.validate := by
  simp only [TimeseriesObj.validateMsg, TimeseriesObj.validate, drop_bind, drop_demand, drop_metric, drop_optList]

theorem drop_asMetric (v : MVal) (m : Str) : dropMessage (asMetricMsg v m) = asMetric v := by
  cases v <;> rfl

theorem drop_mkTimeseries (m : MVal) (a p f g : Val) : dropMessage (mkTimeseriesMsg m a p f g) = mkTimeseries m a p f g := by
  simp only [mkTimeseriesMsg, mkTimeseries, drop_bind, drop_asMetric, drop_timeseries, drop_ok]

theorem drop_scope (s : ScopeObj) : dropMessage s.validateMsg = s.validate := by
  simp only [ScopeObj.validateMsg, ScopeObj.validate, drop_bind, drop_demand]

theorem drop_mkScope (a b c : Val) : dropMessage (mkScopeMsg a b c) = mkScope a b c := by
  simp only [mkScopeMsg, mkScope, drop_bind, drop_scope, drop_ok]

section
variable [PyShow] [PyText]

theorem drop_interval (i g : Val) : dropMessage (checkIntervalMsg i g) = checkInterval i g := by
  simp only [checkIntervalMsg, checkInterval, drop_if, drop_bind, drop_int, drop_elsewhere, drop_demand, drop_ok]

theorem drop_rollup (r : RollupObj) : dropMessage r.validateMsg = r.validate := by
  simp only [RollupObj.validateMsg, RollupObj.validate, drop_bind, drop_demand, drop_interval]

theorem drop_mkRollup (a b c d : Val) : dropMessage (mkRollupMsg a b c d) = mkRollup a b c d := by
  simp only [mkRollupMsg, mkRollup, drop_bind, drop_rollup, drop_ok]

variable [R : PyRepr]

theorem drop_formulaParams (n : Val) : ∀ ps, dropMessage (checkFormulaParamsMsg n ps) = ensure (ps.all MVal.isFormulaParam) .invalidFormula
  | [] => rfl
  | p :: ps => by
    simp only [checkFormulaParamsMsg, drop_if, drop_raise, drop_formulaParams n ps, List.all_cons]
    cases p.isFormulaParam <;> rfl

theorem drop_formula (n : Val) (p : MVal) (g : Val) : dropMessage (validateFormulaMsg n p g) = validateFormula n p g := by
  simp only [validateFormulaMsg, validateFormula, drop_bind, drop_demand]
  cases hn : n.isStr with
  | false => rfl
  | true =>
    simp only [ensure, if_true, ok_bind]
    cases hs : p.seq? with
    | none => cases p.given <;> rfl
    | some ps =>
      have hg : p.given = true := by
        cases p with
        | val v => cases v <;> first | rfl | (simp [MVal.seq?, Val.seq?] at hs)
        | _ => rfl
      simp only [hg, if_true, ok_bind, drop_bind, drop_formulaParams, drop_elsewhere, drop_demand, ensure]

theorem drop_object (x : MVal) : dropMessage x.validateQueryMsg = x.validateQuery := by
  cases x <;> first
    | rfl
    | exact drop_timeseries _
    | exact drop_formula _ _ _

variable [U : PyUnicode] [S : RegexSpace]

theorem drop_queryField (x : MVal) : dropMessage (checkQueryMsg x) = checkQuery x := by
  cases x with
  | val v => cases v <;> first | rfl | (simp only [checkQueryMsg, checkQuery, drop_bind, MqlMsg.drop_checked, drop_object])
  | ts t => exact drop_object (.ts t)
  | formula n p a f g => exact drop_object (.formula n p a f g)
  | _ => rfl

omit [PyShow] [PyText] R U S in
theorem drop_time (w : Str) (x : MVal) : dropMessage (checkTimeMsg w x) = checkTime x := by
  cases x with
  | val v => cases v <;> rfl
  | _ => rfl

omit R U S in
theorem drop_rollupField (x : MVal) : dropMessage (checkRollupMsg x) = checkRollup x := by
  cases x with
  | val v => cases v <;> rfl
  | rollup r => simp only [checkRollupMsg, checkRollup, drop_bind, drop_demand, drop_rollup]
  | _ => rfl

omit [PyShow] [PyText] R U S in
theorem drop_scopeField (x : MVal) : dropMessage (checkScopeMsg x) = checkScope x := by
  cases x with
  | val v => cases v <;> rfl
  | scope s => exact drop_scope s
  | _ => rfl

omit [PyShow] [PyText] R U S in
theorem pyInt_asInt (n : PyInt) : n.val.asInt? = some n := by cases n <;> rfl

omit R S in
theorem drop_limitField (x : MVal) : dropMessage (checkLimitMsg x) = checkLimit x := by
  cases x with
  | val v =>
    cases v with
    | limit n =>
      simp only [checkLimitMsg, checkLimit, drop_bind, drop_int, validateIntLiteral, pyInt_asInt, drop_ok, Val.validate, ensure]
      by_cases h1 : n.toInt < 1 <;> by_cases h2 : n.toInt > 10000 <;> simp [h1, h2]
    | _ => rfl
  | _ => rfl

omit R S in
theorem drop_offsetField (x : MVal) : dropMessage (checkOffsetMsg x) = checkOffset x := by
  cases x with
  | val v =>
    cases v with
    | offset n =>
      simp only [checkOffsetMsg, checkOffset, drop_bind, drop_int, validateIntLiteral, pyInt_asInt, drop_ok, Val.validate, ensure]
      by_cases h1 : n.toInt < 0 <;> simp [h1]
    | _ => rfl
  | _ => rfl

omit [PyShow] [PyText] R S in
theorem drop_extrapolateField (x : MVal) : dropMessage (checkExtrapolateMsg x) = checkExtrapolate x := by
  cases x with
  | val v => cases v <;> rfl
  | _ => rfl

omit [PyShow] [PyText] R U S in
theorem drop_mappingsField (x : MVal) : dropMessage (checkMappingsMsg x) = checkMappings x := by
  cases x with
  | val v => cases v <;> rfl
  | data d => cases d <;> rfl
  | _ => rfl

theorem drop_metricsQuery (q : MetricsQueryObj) : dropMessage q.validateMsg = q.validate := by
  simp only [MetricsQueryObj.validateMsg, MetricsQueryObj.validate, drop_bind, drop_queryField, drop_time, drop_rollupField, drop_scopeField,
    drop_limitField, drop_offsetField, drop_extrapolateField, drop_mappingsField]

end

/-! ### The demands -/

theorem isText_iff {v : Val} : v.isStr = true ↔ IsText v := isStr_iff

theorem metric_by (m : MetricObj) : RefusedBy m.validateMsg (metricDemands m) :=
  by_check optStr_iff fun _ => by_check optStr_iff fun _ => by_check optInt_iff fun _ =>
    by_demand (by simp only [Bool.or_eq_true, given_iff])

theorem mkMetric_by (a b c : Val) : RefusedBy (mkMetricMsg a b c) (metricDemands ⟨a, b, c⟩) := by_map (metric_by _)

theorem optList_by {p : Val → Bool} {P : Val → Prop} (h : ∀ v, p v = true ↔ P v) (v : Val) (m m' : Str) :
    RefusedBy (checkOptListMsg p v m m') [tsDemand (OptAnyList v) m, tsDemand (OptList P v) m'] := by
  cases v with
  | none => exact by_met (.inl rfl) (by_met (show OptList P _ from .none) (by_ok _))
  | list xs => exact by_met (.inr ⟨_, rfl⟩) (by_demand (optListOf_iff (v := .list xs) h))
  | _ =>
    refine by_raise ?_
    rintro (h | ⟨_, h⟩) <;> cases h

theorem timeseries_by (t : TimeseriesObj) : RefusedBy t.validateMsg (timeseriesDemands t) :=
  by_bind (metric_by _) fun _ _ _ => by_check isText_iff fun _ =>
    by_bind (optList_by (fun _ => isLiteral_iff) _ _ _) fun _ _ _ =>
    by_bind (optList_by (fun _ => isCondition_iff) _ _ _) fun _ _ _ => optList_by (fun _ => isGroupItem_iff) _ _ _

theorem mkTimeseries_by (m : MetricObj) (a p f g : Val) :
    RefusedBy (mkTimeseriesMsg (.metric m) a p f g) (timeseriesDemands ⟨m, a, p, f, g⟩) := by
  simp only [mkTimeseriesMsg, asMetricMsg, ok_bind]
  exact by_map (timeseries_by _)

theorem asMetric_by (x : MVal) (m : Str) : RefusedBy (asMetricMsg x m) [tsDemand (∃ y, x = .metric y) m] := by
  cases x with
  | metric y => exact by_met ⟨_, rfl⟩ (by_ok _)
  | _ => exact by_raise (by rintro ⟨_, h⟩; cases h)

theorem scope_by (s : ScopeObj) : RefusedBy s.validateMsg (scopeDemands s) :=
  by_check intList_iff fun _ => by_check intList_iff fun _ => by_demand optStr_iff

theorem mkScope_by (a b c : Val) : RefusedBy (mkScopeMsg a b c) (scopeDemands ⟨a, b, c⟩) := by_map (scope_by _)

/-- A refusal that is not worded here, and whose reason is the first demand. -/
theorem by_elsewhere {α : Type} {p : Prop} {e : Err} {ds : List Demand} (h : ¬ p) :
    RefusedBy (.error (e, none) : Except Raised α) (⟨p, e, none⟩ :: ds) := by
  intro r
  simp only [unmet_cons, h, not_false_eq_true, true_and, false_and, or_false, Except.error.injEq]

section
variable [PyShow] [PyText]

theorem intLiteral_ok {name : Str} {v : Val} {a b : Option Int} {i : PyInt} (h : validateIntLiteralMsg name v a b = .ok i) : IntLike v i := by
  rw [← asInt?_iff]
  unfold validateIntLiteralMsg at h
  cases hv : v.asInt? with
  | none => rw [hv] at h; cases h
  | some j =>
    rw [hv] at h
    suffices j = i by rw [this]
    cases a <;> cases b <;> simp only [] at h <;> (try split at h) <;> (try split at h) <;> cases h <;> rfl

theorem atLeast_by {p : Prop} (name : Str) (v : Val) (m : Int) (hp : p ↔ IsWhole v) :
    RefusedBy (validateIntLiteralMsg name v (some m) none)
      [exprDemand p (name ++ c!" '" ++ v.text ++ c!"' must be an integer"),
       exprDemand (∀ i, IntLike v i → m ≤ i.toInt) (name ++ c!" '" ++ v.text ++ c!"' must be at least " ++ commas m)] := by
  unfold validateIntLiteralMsg
  cases hv : v.asInt? with
  | none => exact by_raise (fun h => by obtain ⟨n, hn⟩ := hp.1 h; exact asInt?_none.1 hv n hn)
  | some i =>
    have hi := asInt?_iff.1 hv
    refine by_met (hp.2 ⟨i, hi⟩) ?_
    have huniq : ∀ j, IntLike v j → j = i := fun j hj => by
      have := asInt?_iff.2 hj; rw [hv] at this; exact (Option.some.inj this).symm
    by_cases h : i.toInt < m
    · simp only [if_pos h]
      exact by_raise (fun hm => by have := hm i hi; omega)
    · simp only [if_neg h]
      exact by_met (fun j hj => by rw [huniq j hj]; omega) (by_ok _)

theorem text_ten (t : Str) : c!"interval" ++ c!" '" ++ t ++ c!"' must be at least " ++ commas 10 = c!"interval '" ++ t ++ c!"' must be at least 10" := by
  have h : commas 10 = c!"10" := by decide +kernel
  rw [h]
  simp only [List.append_assoc]
  rfl

omit [PyShow] [PyText] in
theorem num_unique {v : Val} {n m : Int} (hn : NumIs v n) (hm : NumIs v m) : n = m := by
  have h1 := (intLess_num hn n).symm.trans (intLess_num hm n)
  have h2 := (intLess_num hn m).symm.trans (intLess_num hm m)
  simp only [Except.ok.injEq, decide_eq_decide] at h1 h2
  omega

theorem interval_by (i g : Val) (hg : g = .none ∨ Empty g ∨ ∃ n, n ∈ [0, 10, 60, 3600, 86400] ∧ NumIs g n) :
    RefusedBy (checkIntervalMsg i g)
      [exprDemand (i = .none ∨ IsWhole i) (c!"interval '" ++ i.text ++ c!"' must be an integer"),
       exprDemand (∀ n, IntLike i n → 10 ≤ n.toInt) (c!"interval '" ++ i.text ++ c!"' must be at least 10"),
       ⟨i = .none ∨ g = .none ∨ ∃ n, NumIs g n, .typeError, none⟩,
       exprDemand (∀ j n, IntLike i j → NumIs g n → n ≤ j.toInt) c!"interval must be greater than or equal to granularity"] := by
  unfold checkIntervalMsg
  by_cases hi : i.given = true
  · have hin := given_iff.1 hi
    simp only [hi, if_true]
    have h1 := atLeast_by (p := i = .none ∨ IsWhole i) c!"interval" i 10 ⟨fun h => h.resolve_left hin, .inr⟩
    rw [text_ten] at h1
    refine by_bind (es := [_, _]) h1 ?_
    intro n hn _
    have hj := intLiteral_ok hn
    have huniq : ∀ j, IntLike i j → j = n := fun j hj' => by
      have := asInt?_iff.2 hj'; rw [asInt?_iff.2 hj] at this; exact (Option.some.inj this).symm
    rcases hg with rfl | hg | ⟨m, _, hm⟩
    · exact by_met (.inr (.inl rfl)) (by_met (fun _ _ _ h => by cases h) (by_ok _))
    · have hgiv : g.given = true := by cases hg <;> rfl
      have hless : intLess n.toInt g = .error .typeError := by cases hg <;> rfl
      simp only [hgiv, if_true, hless, elsewhere, error_bind]
      refine by_elsewhere ?_
      rintro (h | h | ⟨m, h⟩)
      · exact hin h
      · rw [h] at hg; cases hg
      · cases hg <;> cases h
    · have hgiv : g.given = true := by cases hm <;> rfl
      simp only [hgiv, if_true, intLess_num hm, elsewhere, ok_bind]
      refine by_met (.inr (.inr ⟨m, hm⟩)) (by_demand ?_)
      simp only [Bool.not_eq_true', decide_eq_false_iff_not]
      constructor
      · intro h j k hj' hk
        rw [huniq j hj', num_unique hk hm]
        omega
      · intro h hlt
        have := h n m hj hm
        omega
  · have hin : i = .none := by cases i <;> first | rfl | exact absurd rfl hi
    subst hin
    exact by_met (.inl rfl) (by_met (fun _ h => by cases h) (by_met (.inl rfl) (by_met (fun _ _ h => by cases h) (by_ok _))))

theorem rollup_by (r : RollupObj) : RefusedBy r.validateMsg (rollupDemands r) := by
  refine by_check granularity_check fun hg => ?_
  refine by_bind (interval_by _ _ hg) fun _ _ _ => ?_
  refine by_check (by cases r.totals <;> simp [Val.given, Val.isBool]) fun _ => ?_
  refine by_check (by simp only [Bool.or_eq_true, given_iff]) fun _ => ?_
  refine by_check (by cases r.orderby <;> simp [Val.given, Val.isDirection]) fun _ => ?_
  refine by_demand ?_
  by_cases hi : r.interval = .none <;> by_cases ho : r.orderby = .none <;> simp [hi, ho, Val.given]

variable [R : PyRepr]

theorem formulaParams_by (n : Val) : ∀ ps, RefusedBy (checkFormulaParamsMsg n ps)
    (ps.map fun p => formulaDemand (FormulaParam p) (c!"parameter '" ++ p.text ++ c!"' of formula " ++ n.text ++ c!" is an invalid type"))
  | [] => by_ok _
  | p :: ps => by
    simp only [checkFormulaParamsMsg, List.map_cons]
    by_cases h : p.isFormulaParam = true
    · simp only [h, if_true]
      exact by_met (isFormulaParam_iff.1 h) (formulaParams_by n ps)
    · simp only [h]
      exact by_raise (fun hp => h (isFormulaParam_iff.2 hp))

omit [PyShow] [PyText] R in
theorem seq_sequence (p : MVal) : p.seq? = sequenceOf p := by
  cases p with
  | val v => cases v <;> first | rfl | simp [MVal.seq?, Val.seq?, sequenceOf]
  | _ => rfl

omit [PyShow] [PyText] R in
theorem sequence_mseq {p : MVal} {xs : List MVal} (h : MSeq p xs) : sequenceOf p = some xs := by cases h <;> rfl

omit [PyShow] [PyText] R in
theorem given_mval {p : MVal} : p.given = true ↔ p ≠ .val .none := by
  cases p with
  | val v => cases v <;> simp [MVal.given, Val.given]
  | _ => simp [MVal.given]

theorem formula_by (n : Val) (p : MVal) (a f g : Val)
    (ht : (∀ d ∈ formulaFieldDemands n p, d.holds) → ∀ y, InFormula (.formula n p a f g) y → Typed y) :
    RefusedBy (validateFormulaMsg n p g) (formulaDemands n p a f g) := by
  have key : ∀ ps, p.seq? = some ps → (∀ d ∈ formulaFieldDemands n p, d.holds) →
      RefusedBy (elsewhere (optGroupKey g) >>= fun k => elsewhere (scanParams p) >>= fun (r : List (List Val) × Bool) =>
        demand r.2 .invalidFormula c!"Formulas must operate on at least one Timeseries" >>= fun _ =>
        demand ((keySet (k ++ r.1)).length ≤ 1) .invalidFormula c!"Formula parameters must group by the same columns")
        [formulaDemand (∃ t, InFormula (.formula n p a f g) (.ts t)) c!"Formulas must operate on at least one Timeseries",
         formulaDemand (∀ y z k h, InFormula (.formula n p a f g) y → InFormula (.formula n p a f g) z → Groups y k → Groups z h →
           pyEqList k h = true) c!"Formula parameters must group by the same columns"] := by
    intro ps _ hd
    have ht := ht hd
    obtain ⟨r, hr, h1, h2⟩ := scanFormula_spec _ ht
    have hp : ∀ k ∈ r.1, ∀ x ∈ k, PlainGroupItem x := by
      intro k hk x hx
      obtain ⟨y, hy, hg⟩ := (h2 k).1 hk
      cases hg with
      | formula n ps a f g =>
        cases ht _ hy with
        | formula _ _ _ _ _ _ hg => cases hg with | list _ h => exact h x hx
        | other _ h1 _ => exact (h1 _ _ _ _ _ rfl).elim
      | ts t g hg =>
        cases ht _ hy with
        | ts _ ht' => rw [hg] at ht'; cases ht' with | list _ h => exact h x hx
        | other _ _ h2 => exact absurd rfl (h2 _)
    simp only [scanFormula, bind_eq_ok, Except.ok.injEq] at hr
    obtain ⟨k, hk, ⟨gs, t⟩, hs, hr⟩ := hr
    simp only at hr
    subst hr
    simp only [hk, hs, elsewhere, ok_bind]
    refine by_check h1 fun _ => by_demand ?_
    rw [decide_eq_true_eq, keySet_length hp]
    constructor
    · intro H y z k h hy hz hg hh; exact H k ((h2 k).2 ⟨y, hy, hg⟩) h ((h2 h).2 ⟨z, hz, hh⟩)
    · intro H a ha b hb
      obtain ⟨y, hy, hg⟩ := (h2 a).1 ha
      obtain ⟨z, hz, hh⟩ := (h2 b).1 hb
      exact H y z a b hy hz hg hh
  unfold validateFormulaMsg formulaDemands
  revert key
  unfold formulaFieldDemands
  intro key
  refine by_check isText_iff fun hn => ?_
  refine by_check given_mval fun hp => ?_
  rw [← seq_sequence] at key ⊢
  cases hs : p.seq? with
  | none => exact by_raise (by rintro ⟨_, h⟩; cases h)
  | some ps =>
    refine by_met ⟨_, rfl⟩ ?_
    refine by_bind (formulaParams_by n ps) fun _ _ hd => ?_
    refine key ps hs ?_
    rw [hs]
    intro d hm
    simp only [List.cons_append, List.nil_append, List.mem_cons, Option.getD_some] at hm
    rcases hm with rfl | rfl | rfl | hm
    · exact hn
    · exact hp
    · exact ⟨_, rfl⟩
    · exact hd d hm

theorem object_by {x : MVal} (hx : (∃ t, x = .ts t) ∨ ∃ n p a f g, x = .formula n p a f g)
    (ht : ∀ n p a f g, x = .formula n p a f g → (∀ d ∈ formulaFieldDemands n p, d.holds) → ∀ y, InFormula x y → Typed y) :
    RefusedBy x.validateQueryMsg (objectDemands x) := by
  rcases hx with ⟨t, rfl⟩ | ⟨n, p, a, f, g, rfl⟩
  · exact timeseries_by t
  · exact formula_by n p a f g (ht n p a f g rfl)

variable [U : PyUnicode] [S : RegexSpace]

omit [PyShow] [PyText] R in
theorem parsed_object {s : Str} {x : MVal} (h : parseMql s = .ok x) : (∃ t, x = .ts t) ∨ ∃ n p a f g, x = .formula n p a f g := by
  have hq := (parseMql_sound h).2
  cases x <;> first
    | exact .inl ⟨_, rfl⟩
    | exact .inr ⟨_, _, _, _, _, rfl⟩
    | cases hq

theorem queryField_by (x : MVal)
    (ht : ∀ n p a f g, x = .formula n p a f g → (∀ d ∈ formulaFieldDemands n p, d.holds) → ∀ y, InFormula x y → Typed y) :
    RefusedBy (checkQueryMsg x) (queryFieldDemands x) := by
  have other : (∀ t, x ≠ .ts t) → (∀ n p a f g, x ≠ .formula n p a f g) → (∀ s, x ≠ .val (.str s)) →
      ¬ ((∃ t, x = .ts t) ∨ (∃ n p a f g, x = .formula n p a f g) ∨ ∃ s, x = .val (.str s)) := by
    rintro h1 h2 h3 (⟨t, h⟩ | ⟨n, p, a, f, g, h⟩ | ⟨s, h⟩)
    · exact h1 t h
    · exact h2 n p a f g h
    · exact h3 s h
  unfold queryFieldDemands
  cases x with
  | ts t =>
    exact by_met (by simp [queryDemand]) (by_met (.inl ⟨_, rfl⟩) (object_by (.inl ⟨_, rfl⟩) ht))
  | formula n p a f g =>
    exact by_met (by simp [queryDemand]) (by_met (.inr (.inl ⟨_, _, _, _, _, rfl⟩)) (object_by (.inr ⟨_, _, _, _, _, rfl⟩) ht))
  | val v =>
    cases v with
    | none => exact by_raise (by simp)
    | str s =>
      refine by_met (by simp [queryDemand]) (by_met (.inr (.inr ⟨_, rfl⟩)) ?_)
      have hd := MqlMsg.drop_parse s
      simp only [checkQueryMsg, parseCheckedMsg, parserWords]
      cases hw : parseMqlMsg s with
      | error e =>
        rw [hw] at hd
        simp only [← hd]
        obtain ⟨x, _ | m⟩ := e
        · exact by_raise (by rintro ⟨_, h⟩; cases h)
        · exact by_raise (by rintro ⟨_, h⟩; cases h)
      | ok y =>
        rw [hw] at hd
        have hp : parseMql s = .ok y := hd.symm
        simp only [hp, ok_bind]
        exact by_met ⟨_, rfl⟩ (object_by (parsed_object hp) fun _ _ _ _ _ _ _ => parsed_typed hp)
    | _ => exact by_met (by simp [queryDemand]) (by_raise (other (by simp) (by simp) (by simp)))
  | _ => exact by_met (by simp [queryDemand]) (by_raise (other (by simp) (by simp) (by simp)))

omit [PyShow] [PyText] R U S in
theorem moment_by (w : Str) (x : MVal) : RefusedBy (checkTimeMsg w x) (momentDemands w x) := by
  cases x with
  | val v =>
    cases v with
    | none => exact by_raise (by simp)
    | datetime d => exact by_met (by simp [queryDemand]) (by_met ⟨_, rfl⟩ (by_ok _))
    | _ => exact by_met (by simp [queryDemand]) (by_raise (by rintro ⟨_, h⟩; cases h))
  | _ => exact by_met (by simp [queryDemand]) (by_raise (by rintro ⟨_, h⟩; cases h))

omit R U S in
theorem rollupField_by (x : MVal) : RefusedBy (checkRollupMsg x) (rollupFieldDemands x) := by
  cases x with
  | rollup r =>
    exact by_met (by simp [queryDemand]) (by_met ⟨_, rfl⟩ (by_check given_iff fun _ => rollup_by r))
  | val v =>
    cases v with
    | none => exact by_raise (by simp)
    | _ => exact by_met (by simp [queryDemand]) (by_raise (by rintro ⟨_, h⟩; cases h))
  | _ => exact by_met (by simp [queryDemand]) (by_raise (by rintro ⟨_, h⟩; cases h))

omit [PyShow] [PyText] R U S in
theorem scopeField_by (x : MVal) : RefusedBy (checkScopeMsg x) (scopeFieldDemands x) := by
  cases x with
  | scope s => exact by_met (by simp [queryDemand]) (by_met ⟨_, rfl⟩ (scope_by s))
  | val v =>
    cases v with
    | none => exact by_raise (by simp)
    | _ => exact by_met (by simp [queryDemand]) (by_raise (by rintro ⟨_, h⟩; cases h))
  | _ => exact by_met (by simp [queryDemand]) (by_raise (by rintro ⟨_, h⟩; cases h))

omit [PyShow] [PyText] R U S in
theorem text_bounds (t : Str) :
    c!"limit" ++ c!" '" ++ t ++ c!"' must be at least " ++ commas 1 = c!"limit '" ++ t ++ c!"' must be at least 1" ∧
    c!"limit" ++ c!" '" ++ t ++ c!"' is capped at " ++ commas 10000 = c!"limit '" ++ t ++ c!"' is capped at 10,000" ∧
    c!"offset" ++ c!" '" ++ t ++ c!"' must be at least " ++ commas 0 = c!"offset '" ++ t ++ c!"' must be at least 0" := by
  have h1 : commas 1 = c!"1" := by decide +kernel
  have h2 : commas 10000 = c!"10,000" := by decide +kernel
  have h3 : commas 0 = c!"0" := by decide +kernel
  rw [h1, h2, h3]
  simp only [List.append_assoc]
  exact ⟨rfl, rfl, rfl⟩

omit R U S in
theorem limitField_by (x : MVal) : RefusedBy (checkLimitMsg x)
    ([queryDemand (x = .val .none ∨ ∃ n, x = .val (.limit n)) c!"limit must be a Limit object"] ++
     (match x with
      | .val (.limit n) =>
        [exprDemand (1 ≤ n.toInt) (c!"limit '" ++ n.val.text ++ c!"' must be at least 1"),
         exprDemand (n.toInt ≤ 10000) (c!"limit '" ++ n.val.text ++ c!"' is capped at 10,000")]
      | _ => [])) := by
  cases x with
  | val v =>
    cases v with
    | none => exact by_met (.inl rfl) (by_ok _)
    | limit n =>
      refine by_met (.inr ⟨_, rfl⟩) ?_
      have ht := text_bounds n.val.text
      simp only [checkLimitMsg, validateIntLiteralMsg, pyInt_asInt, ht.1, ht.2.1]
      by_cases h1 : n.toInt < 1
      · simp only [if_pos h1, raise, error_bind]
        exact by_raise (by omega)
      · simp only [if_neg h1]
        refine by_met (show 1 ≤ n.toInt by omega) ?_
        by_cases h2 : n.toInt > 10000
        · simp only [if_pos h2, raise, error_bind]
          exact by_raise (by omega)
        · simp only [if_neg h2, ok_bind]
          exact by_met (show n.toInt ≤ 10000 by omega) (by_ok _)
    | _ => exact by_raise (by rintro (h | ⟨_, h⟩) <;> cases h)
  | _ => exact by_raise (by rintro (h | ⟨_, h⟩) <;> cases h)

omit R U S in
theorem offsetField_by (x : MVal) : RefusedBy (checkOffsetMsg x)
    ([queryDemand (x = .val .none ∨ ∃ n, x = .val (.offset n)) c!"offset must be a Offset object"] ++
     (match x with
      | .val (.offset n) => [exprDemand (0 ≤ n.toInt) (c!"offset '" ++ n.val.text ++ c!"' must be at least 0")]
      | _ => [])) := by
  cases x with
  | val v =>
    cases v with
    | none => exact by_met (.inl rfl) (by_ok _)
    | offset n =>
      refine by_met (.inr ⟨_, rfl⟩) ?_
      have ht := text_bounds n.val.text
      simp only [checkOffsetMsg, validateIntLiteralMsg, pyInt_asInt, ht.2.2]
      by_cases h1 : n.toInt < 0
      · simp only [if_pos h1, raise, error_bind]
        exact by_raise (by omega)
      · simp only [if_neg h1, ok_bind]
        exact by_met (show 0 ≤ n.toInt by omega) (by_ok _)
    | _ => exact by_raise (by rintro (h | ⟨_, h⟩) <;> cases h)
  | _ => exact by_raise (by rintro (h | ⟨_, h⟩) <;> cases h)

omit [PyShow] [PyText] R U S in
theorem extrapolateField_by (x : MVal) : RefusedBy (checkExtrapolateMsg x)
    [queryDemand (x = .val .none ∨ ∃ b, x = .val (.extrapolate b)) c!"extrapolate must be a Extrapolate object"] := by
  cases x with
  | val v =>
    cases v with
    | none => exact by_met (.inl rfl) (by_ok _)
    | extrapolate n => exact by_met (.inr ⟨_, rfl⟩) (by_ok _)
    | _ => exact by_raise (by rintro (h | ⟨_, h⟩) <;> cases h)
  | _ => exact by_raise (by rintro (h | ⟨_, h⟩) <;> cases h)

omit [PyShow] [PyText] R U S in
theorem mappingsField_by (x : MVal) : RefusedBy (checkMappingsMsg x)
    [queryDemand (x = .val .none ∨ ∃ kvs, x = .data (.dict kvs)) c!"indexer_mappings must be a dictionary"] := by
  cases x with
  | val v =>
    cases v with
    | none => exact by_met (.inl rfl) (by_ok _)
    | _ => exact by_raise (by rintro (h | ⟨_, h⟩) <;> cases h)
  | data d =>
    cases d with
    | dict kvs => exact by_met (.inr ⟨_, rfl⟩) (by_ok _)
    | _ => exact by_raise (by rintro (h | ⟨_, h⟩) <;> cases h)
  | _ => exact by_raise (by rintro (h | ⟨_, h⟩) <;> cases h)

theorem metricsQuery_by (q : MetricsQueryObj)
    (ht : ∀ n p a f g, q.query = .formula n p a f g → (∀ d ∈ formulaFieldDemands n p, d.holds) → ∀ y, InFormula q.query y → Typed y) :
    RefusedBy q.validateMsg (metricsQueryDemands q) := by
  have h := by_bind (queryField_by q.query ht) fun _ _ _ => by_bind (moment_by c!"start" q.start) fun _ _ _ =>
    by_bind (moment_by c!"end" q.end_) fun _ _ _ => by_bind (rollupField_by q.rollup) fun _ _ _ =>
    by_bind (scopeField_by q.scope) fun _ _ _ => by_bind (limitField_by q.limit) fun _ _ _ =>
    by_bind (offsetField_by q.offset) fun _ _ _ => by_bind (extrapolateField_by q.extrapolate) fun _ _ _ =>
    mappingsField_by q.indexerMappings
  refine by_congr h ?_
  simp only [metricsQueryDemands, optionDemands, List.append_assoc, List.cons_append, List.nil_append]
  rfl

end

end Verif.MetricsMsg
