import Verif.Spec.MqlBlame
import Verif.Props.TotalErrors
import Verif.Props.MetricsQuery

/-!
# C65: which metrics queries have an MQL text
-/

namespace Verif
open Spec

theorem isFunction_iff {v : Val} : v.isCurried = true ↔ IsFunction v := by
  constructor
  · intro h; cases v <;> first | exact .mk .. | cases h
  · rintro ⟨⟩; rfl

theorem Spec.Blames.unprintable {e : Err} {x : Val} (h : Blames e x) : Unprintable x := by
  cases h with
  | bytes bs h => exact .inl ⟨bs, rfl, h⟩
  | range t n h hr => exact .inr (.inl ⟨t, rfl, by rintro ⟨m, hm, h'⟩; rw [h] at hm; cases hm; exact hr h'⟩)
  | offset t h => exact .inr (.inl ⟨t, rfl, by rintro ⟨m, hm, _⟩; rw [h] at hm; cases hm⟩)
  | extrapolate b => exact .inr (.inr ⟨b, rfl⟩)

theorem condMqlAll_error {cfg : Cfg} {e : Err} : ∀ {xs : List Val}, (∀ x ∈ xs, Cond x) → condMqlAll cfg xs = .error e →
    ∃ x ∈ xs, condMql cfg x = .error e
  | [], _, h => by simp only [condMqlAll] at h; cases h
  | x :: xs, hc, h => by
    have hx := isCondition_iff.2 (hc x (by simp))
    simp only [condMqlAll, hx, if_true, bind_eq_error, reduceCtorEq, and_false, exists_false, or_false] at h
    rcases h with h | ⟨_, _, h⟩
    · exact ⟨x, by simp, h⟩
    · obtain ⟨y, hy, h⟩ := condMqlAll_error (fun y hy => hc y (by simp [hy])) h
      exact ⟨y, by simp [hy], h⟩

theorem condMqlAll_ok {cfg : Cfg} : ∀ {xs : List Val} {ts : List Str}, (∀ x ∈ xs, Cond x) → condMqlAll cfg xs = .ok ts →
    ∀ x ∈ xs, Succeeds (condMql cfg x)
  | [], _, _, _, x, hx => by cases hx
  | x :: xs, ts, hc, h, y, hy => by
    have hx := isCondition_iff.2 (hc x (by simp))
    simp only [condMqlAll, hx, if_true, bind_eq_ok] at h
    obtain ⟨t, ht, us, hu, _⟩ := h
    rcases List.mem_cons.1 hy with rfl | hy
    · exact ⟨t, ht⟩
    · exact condMqlAll_ok (fun y hy => hc y (by simp [hy])) hu y hy

section
variable [U : PyUnicode]

theorem wf_cond_fields {l r : Val} {o : Op} (h : WF (.cond l o r)) :
    WF l ∧ WF r ∧ ColOrFn l ∧ (o = .isNull ∨ o = .isNotNull → r = .none) ∧ (ColOrFn r ∨ Scalar r) := by
  cases h with
  | literal _ h => cases h
  | cond _ _ _ h1 h2 h3 h4 h5 => exact ⟨h1, h2, h3, h4, h5⟩

theorem wf_boolean_fields {cls o k cs} (h : WF (.boolCond cls o k cs)) : (∀ c ∈ cs, WF c) ∧ ∀ c ∈ cs, Cond c := by
  cases h with
  | literal _ h => cases h
  | boolCond _ _ _ _ h1 h2 => exact ⟨h1, h2⟩

omit U in
/-- The right-hand side of a condition is translated, unless it is not printed or a function. -/
theorem rhsMql_cases {o : Op} {r : Val} (hu : o = .isNull ∨ o = .isNotNull → r = .none) (hr : ColOrFn r ∨ Scalar r) :
    (r = .none ∧ rhsMql .mql o r = .ok []) ∨ (IsFunction r ∧ rhsMql .mql o r = .error .invalidExpression) ∨
      (¬ IsFunction r ∧ rhsMql .mql o r = translate .mql r) := by
  unfold rhsMql
  by_cases h : isUnary o = true
  · have : r = .none := hu (by cases o <;> simp [isUnary] at h ⊢)
    exact .inl ⟨this, by simp [h]⟩
  · by_cases hc : r.isCurried = true
    · exact .inr (.inl ⟨isFunction_iff.1 hc, by simp [h, hc]⟩)
    · refine .inr (.inr ⟨fun hn => hc (isFunction_iff.2 hn), ?_⟩)
      by_cases hl : r.isColumn = true
      · simp [h, hc, hl]
      · have : Scalar r := by
          rcases hr with hr | hr
          · cases hr <;> simp [Val.isColumn, Val.isCurried] at hl hc
          · exact hr
        simp [h, hc, hl, isScalar_true_iff.2 this]

theorem condMql_error {v : Val} {e : Err} (h : WF v) : Cond v → condMql .mql v = .error e → FilterBlame e v := by
  induction h with
  | cond l o r h1 h2 hl hu hr _ _ =>
    intro _ he
    simp only [condMql, bind_eq_error, reduceCtorEq, and_false, exists_false, or_false] at he
    rcases rhsMql_cases hu hr with ⟨rfl, hr'⟩ | ⟨hf, hr'⟩ | ⟨hf, hr'⟩
    · rw [hr'] at he
      rcases he with he | ⟨_, _, he⟩
      · cases he
      · obtain ⟨x, hx, hb⟩ := wf_translate_error .mql h1 (colOrFn_element hl) e he
        exact .left _ _ _ x e (by rintro ⟨⟩) hx hb
    · rw [hr'] at he
      rcases he with he | ⟨_, h, _⟩
      · cases he; exact .function _ _ _ hf
      · cases h
    · rw [hr'] at he
      rcases he with he | ⟨_, _, he⟩
      · obtain ⟨x, hx, hb⟩ := wf_translate_error .mql h2 (rhs_element hr) e he
        exact .right _ _ _ x e hf hx hb
      · obtain ⟨x, hx, hb⟩ := wf_translate_error .mql h1 (colOrFn_element hl) e he
        exact .left _ _ _ x e hf hx hb
  | boolCond cls o k cs h1 h2 _ _ _ ih =>
    intro _ he
    simp only [condMql, bind_eq_error, reduceCtorEq, and_false, exists_false, or_false] at he
    obtain ⟨x, hx, he⟩ := condMqlAll_error h2 he
    exact .item _ _ _ _ x e hx (ih x hx (h2 x hx) he)
  | literal v h => intro hc; cases hc <;> cases h
  | _ => intro hc; cases hc

theorem filterBlame_fails {v : Val} {e : Err} (h : FilterBlame e v) : WF v → ¬ Succeeds (condMql .mql v) := by
  induction h with
  | function l o r hf =>
    rintro hw ⟨t, ht⟩
    obtain ⟨_, _, _, hu, hr⟩ := wf_cond_fields hw
    simp only [condMql, bind_eq_ok] at ht
    obtain ⟨rs, hrs, _⟩ := ht
    rcases rhsMql_cases hu hr with ⟨rfl, _⟩ | ⟨_, h⟩ | ⟨h, _⟩
    · cases hf
    · rw [h] at hrs; cases hrs
    · exact h hf
  | left l o r x e _ hx hb =>
    rintro hw ⟨t, ht⟩
    obtain ⟨h1, _, hl, _, _⟩ := wf_cond_fields hw
    simp only [condMql, bind_eq_ok] at ht
    obtain ⟨rs, _, ls, hls, _⟩ := ht
    exact (wf_translate .mql h1 (colOrFn_element hl)).1 ⟨ls, hls⟩ x hx hb.unprintable
  | right l o r x e hf hx hb =>
    rintro hw ⟨t, ht⟩
    obtain ⟨_, h2, _, hu, hr⟩ := wf_cond_fields hw
    simp only [condMql, bind_eq_ok] at ht
    obtain ⟨rs, hrs, _⟩ := ht
    rcases rhsMql_cases hu hr with ⟨rfl, _⟩ | ⟨h, _⟩ | ⟨_, h⟩
    · rcases part_iff.1 hx with rfl | ⟨c, hc, _⟩
      · cases hb
      · cases hc
    · exact hf h
    · rw [h] at hrs
      exact (wf_translate .mql h2 (rhs_element hr)).1 ⟨rs, hrs⟩ x hx hb.unprintable
  | item c o k cs x e hx _ ih =>
    rintro hw ⟨t, ht⟩
    obtain ⟨h1, h2⟩ := wf_boolean_fields hw
    simp only [condMql, bind_eq_ok] at ht
    obtain ⟨ts, hts, _⟩ := ht
    exact ih (h1 x hx) (condMqlAll_ok h2 hts x hx)

/-- A condition prints exactly when nothing in it is to blame. -/
theorem condMql_succeeds {v : Val} (h : WF v) (hc : Cond v) : Succeeds (condMql .mql v) ↔ ∀ e, ¬ FilterBlame e v := by
  constructor
  · exact fun hs e he => filterBlame_fails he h hs
  · intro hn
    cases he : condMql .mql v with
    | ok t => exact ⟨t, rfl⟩
    | error e => exact absurd (condMql_error h hc he) (hn e)

theorem filtersMql_error {f : Val} {e : Err} (h : OptList MadeCond f) (he : filtersMql f = .error e) :
    ∃ xs x, f = .list xs ∧ x ∈ xs ∧ FilterBlame e x := by
  cases h with
  | none => cases he
  | list xs h =>
    simp only [filtersMql, Val.given, if_true, iterItems, Val.seq?, ok_bind, bind_eq_error, reduceCtorEq, and_false, exists_false,
      or_false] at he
    obtain ⟨x, hx, he⟩ := condMqlAll_error (fun x hx => (h x hx).cond) he
    exact ⟨xs, x, rfl, hx, condMql_error (built_wf (h x hx).built) (h x hx).cond he⟩

theorem filtersMql_ok {f : Val} {t : Str} {xs : List Val} (h : OptList MadeCond f) (hf : f = .list xs) (ho : filtersMql f = .ok t) :
    ∀ x ∈ xs, ∀ e, ¬ FilterBlame e x := by
  subst hf
  intro x hx
  cases h with
  | list xs h =>
    simp only [filtersMql, Val.given, if_true, iterItems, Val.seq?, ok_bind, bind_eq_ok] at ho
    obtain ⟨ts, hts, _⟩ := ho
    exact (condMql_succeeds (built_wf (h x hx).built) (h x hx).cond).1 (condMqlAll_ok (fun x hx => (h x hx).cond) hts x hx)

omit U in
theorem groupItem_translate {v : Val} (h : GroupItem v) : Succeeds (translate .mql v) := by
  cases h <;> simp [translate, Succeeds]

omit U in
theorem groupbyMql_succeeds {g : Val} (h : OptList GroupItem g) : ∃ t, groupbyMql g = .ok t := by
  cases h with
  | none => exact ⟨_, rfl⟩
  | list xs h =>
    obtain ⟨ts, hts⟩ := translateAll_succeeds.2 fun x hx => groupItem_translate (h x hx)
    exact ⟨_, by simp only [groupbyMql, Val.given, if_true, iterItems, Val.seq?, ok_bind, hts]; rfl⟩

omit U in
theorem metricMql_succeeds {m : MetricObj} (h : MetricOk m) : ∃ t, metricMql m = .ok t := by
  obtain ⟨p, m, i⟩ := m
  obtain ⟨hp, hm, _, s, hs⟩ := h
  simp only at hp hm hs
  cases hm with
  | str m => exact ⟨_, by simp only [metricMql]; rfl⟩
  | none =>
    rcases hs with rfl | hs
    · exact ⟨_, by simp only [metricMql]; rfl⟩
    · cases hs

section
variable [R : PyRepr]

omit R in
theorem blamed_part {x : Val} {e : Err} (h : Literal x) (he : translate .mql x = .error e) : Blames e x := by
  obtain ⟨y, hy, hb⟩ := wf_translate_error .mql (.literal _ h) (.literal _ h) e he
  rcases part_iff.1 hy with rfl | ⟨c, hc, _⟩
  · exact hb
  · cases h <;> cases hc

theorem timeseriesMql_error {t : TimeseriesObj} {e : Err} (h : TimeseriesOk t) (hf : OptList MadeCond t.filters)
    (he : timeseriesMql t = .error e) : QueryBlame e (.ts t) := by
  obtain ⟨m, hm⟩ := metricMql_succeeds h.metric
  obtain ⟨g, hg⟩ := groupbyMql_succeeds h.groupby
  simp only [timeseriesMql, hm, hg, ok_bind, bind_eq_error, reduceCtorEq, and_false, exists_false, or_false] at he
  rcases he with he | ⟨_, _, he⟩
  · have ha := h.aggregateParams
    generalize hp : t.aggregateParams = p at he ha
    cases ha with
    | none => cases he
    | list xs hl =>
      unfold aggregateParamsMql at he
      split at he
      · simp only [iterItems, Val.seq?, ok_bind, bind_eq_error, reduceCtorEq, and_false, exists_false, or_false] at he
        obtain ⟨x, hx, he⟩ := translateAll_error he
        exact .param t xs x e hp hx (blamed_part (hl x hx) he)
      · cases he
  · obtain ⟨xs, x, hxs, hx, hb⟩ := filtersMql_error hf he
    exact .filter t xs x e hxs hx hb

omit U in
theorem paramsMqlAll_error {e : Err} : ∀ {xs : List MVal}, paramsMqlAll xs = .error e → ∃ x ∈ xs, paramMql x = .error e
  | [], h => by cases h
  | x :: xs, h => by
    simp only [paramsMqlAll, bind_eq_error, reduceCtorEq, and_false, exists_false, or_false] at h
    rcases h with h | ⟨_, _, h⟩
    · exact ⟨x, by simp, h⟩
    · obtain ⟨y, hy, h⟩ := paramsMqlAll_error h
      exact ⟨y, by simp [hy], h⟩

omit U in
theorem paramsMqlAll_ok : ∀ {xs : List MVal} {ts : List Str}, paramsMqlAll xs = .ok ts → ∀ x ∈ xs, ∃ t, paramMql x = .ok t
  | [], _, _, x, hx => by cases hx
  | x :: xs, ts, h, y, hy => by
    simp only [paramsMqlAll, bind_eq_ok] at h
    obtain ⟨t, ht, us, hu, _⟩ := h
    rcases List.mem_cons.1 hy with rfl | hy
    · exact ⟨t, ht⟩
    · exact paramsMqlAll_ok hu y hy

omit U in
theorem paramsMql_seq {p : MVal} {xs : List MVal} (h : MSeq p xs) : paramsMql p = paramsMqlAll xs := by
  cases h <;> simp only [paramsMql]

omit U in
theorem formulaHead_succeeds {s : Str} {a : Val} {ps : List Str} (h : OptList (fun _ => True) a) : ∃ t, formulaHead (.str s) a ps = .ok t := by
  have : ∃ u, formulaParamsMql a = .ok u := by
    unfold formulaParamsMql
    cases h with
    | none => exact ⟨_, rfl⟩
    | list xs _ => split <;> simp [iterItems, Val.seq?]
  obtain ⟨u, hu⟩ := this
  simp only [formulaHead]
  split
  · exact ⟨_, rfl⟩
  · exact ⟨_, by rw [hu]; rfl⟩

theorem paramMql_error : ∀ (x : MVal) (e : Err), (∀ y, InFormula x y → Annotated y) → paramMql x = .error e →
    ∃ y, InFormula x y ∧ QueryBlame e y := by
  refine MVal.ind fun x ih e ha he => ?_
  cases ha x .self with
  | ts t ht hf =>
    simp only [paramMql] at he
    exact ⟨_, .self, timeseriesMql_error ht hf he⟩
  | formula s p a f g hp hap hf hg =>
    simp only [paramMql, bind_eq_error, reduceCtorEq, and_false, exists_false, or_false] at he
    rcases he with he | ⟨ps, _, he⟩
    · rcases hp with rfl | ⟨xs, hs⟩
      · simp only [paramsMql, Except.error.injEq] at he
        subst he
        exact ⟨_, .self, .absent ..⟩
      · rw [paramsMql_seq hs] at he
        obtain ⟨y, hy, he⟩ := paramsMqlAll_error he
        have hin : InFormula (.formula (.str s) p a f g) y := .param .self hs hy
        obtain ⟨z, hz, hb⟩ := ih _ _ _ _ _ rfl y (by cases hs <;> exact hy) e (fun z hz => ha z (inFormula_trans hin hz)) he
        exact ⟨z, inFormula_trans hin hz, hb⟩
    · obtain ⟨t, ht⟩ := formulaHead_succeeds (s := s) (ps := ps) hap
      obtain ⟨u, hu⟩ := groupbyMql_succeeds hg
      simp only [ht, hu, reduceCtorEq, false_or, and_false, exists_false, or_false] at he
      obtain ⟨_, _, he⟩ := he
      obtain ⟨xs, x, rfl, hx, hb⟩ := filtersMql_error hf he
      exact ⟨_, .self, .formulaFilter _ _ _ _ _ x e hx hb⟩
  | other x h1 h2 =>
    cases x <;> first | exact (h1 _ _ _ _ _ rfl).elim | exact (h2 _ rfl).elim | (simp only [paramMql] at he; cases he)

theorem paramMql_parts {x y : MVal} (h : InFormula x y) (ha : ∀ y, InFormula x y → Annotated y) (hx : ∃ t, paramMql x = .ok t) :
    ∃ t, paramMql y = .ok t := by
  induction h with
  | self => exact hx
  | param h hs hp ih =>
    obtain ⟨t, ht⟩ := ih
    simp only [paramMql, bind_eq_ok] at ht
    obtain ⟨ts, hts, _⟩ := ht
    rw [paramsMql_seq hs] at hts
    exact paramsMqlAll_ok hts _ hp

theorem paramMql_blameless {y : MVal} {t : Str} {e : Err} (ha : Annotated y) (h : paramMql y = .ok t) : ¬ QueryBlame e y := by
  intro hb
  cases ha with
  | ts u hu hf =>
    simp only [paramMql, timeseriesMql, bind_eq_ok] at h
    obtain ⟨m, _, ps, hps, f, hf', _⟩ := h
    cases hb with
    | param _ xs x _ hp hx hb =>
      have hl := hu.aggregateParams
      rw [hp] at hl hps
      have hl : Literal x := by cases hl with | list _ h => exact h x hx
      have : Val.truthy (.list xs) = true := by cases xs with
        | nil => cases hx
        | cons => rfl
      simp only [aggregateParamsMql, this, if_true, iterItems, Val.seq?, ok_bind, bind_eq_ok] at hps
      obtain ⟨ts, hts, _⟩ := hps
      exact (wf_translate .mql (.literal _ hl) (.literal _ hl)).1 (translateAll_succeeds.1 ⟨ts, hts⟩ x hx) x .here hb.unprintable
    | filter _ xs x _ hxs hx hb => exact filtersMql_ok hf hxs hf' x hx e hb
  | formula s p a f g _ _ hf _ =>
    simp only [paramMql, bind_eq_ok] at h
    obtain ⟨ps, hps, hd, _, fs, hfs, _⟩ := h
    cases hb with
    | formulaFilter _ _ _ xs _ x _ hx hb => exact filtersMql_ok hf rfl hfs x hx e hb
    | absent => simp only [paramsMql] at hps; cases hps
  | other _ h1 h2 =>
    cases hb with
    | param => exact h2 _ rfl
    | filter => exact h2 _ rfl
    | formulaFilter => exact h1 _ _ _ _ _ rfl
    | absent => exact h1 _ _ _ _ _ rfl

variable [S : RegexSpace]

theorem queryMql_object {x : MVal} (h : QueryObject x) : queryMql x = paramMql x := by
  cases h with
  | ts t => simp only [queryMql, paramMql]
  | formula => simp only [queryMql]

/-- **C65** (which exception): if a query made of parts of the right types has no MQL text, then some part of it is to blame for
the exception that is raised. -/
theorem C65_error (x : MVal) (e : Err) (hq : QueryObject x) (ha : ∀ y, InFormula x y → Annotated y) (h : queryMql x = .error e) :
    ∃ y, InFormula x y ∧ QueryBlame e y :=
  paramMql_error x e ha (by rwa [queryMql_object hq] at h)

/-- **C65** (exactly): a query made of parts of the right types has an MQL text exactly when no part of it is to blame for an
exception. -/
theorem C65_succeeds_iff (x : MVal) (hq : QueryObject x) (ha : ∀ y, InFormula x y → Annotated y) :
    (∃ t, queryMql x = .ok t) ↔ ∀ y, InFormula x y → ∀ e, ¬ QueryBlame e y := by
  rw [queryMql_object hq]
  constructor
  · intro h y hy e hb
    obtain ⟨t, ht⟩ := paramMql_parts hy ha h
    exact paramMql_blameless (ha y hy) ht hb
  · intro hn
    cases he : paramMql x with
    | ok t => exact ⟨t, rfl⟩
    | error e =>
      obtain ⟨y, hy, hb⟩ := paramMql_error x e ha he
      exact absurd hb (hn y hy e)

/-! ### Parsed queries -/

omit U R S in
theorem column_blameless {c : ColumnObj} {x : Val} {e : Err} (h : Part x (.column c)) : ¬ Blames e x := by
  intro hb
  rcases part_iff.1 h with rfl | ⟨y, hy, _⟩
  · cases hb
  · cases hy

omit U R S in
theorem string_blameless {s : Str} {x : Val} {e : Err} (h : Part x (.str s)) : ¬ Blames e x := by
  intro hb
  rcases part_iff.1 h with rfl | ⟨y, hy, _⟩
  · cases hb
  · cases hy

omit R in
theorem tagFilter_blameless {v : Val} {e : Err} (h : TagFilter v) : ¬ FilterBlame e v := by
  induction h with
  | text k o s | pattern k o s =>
    intro hb
    cases hb with
    | function _ _ _ h => cases h
    | left _ _ _ x _ _ hx hb => exact column_blameless hx hb
    | right _ _ _ x _ _ hx hb => exact string_blameless hx hb
  | many k o ss =>
    intro hb
    cases hb with
    | function _ _ _ h => cases h
    | left _ _ _ x _ _ hx hb => exact column_blameless hx hb
    | right _ _ _ x _ _ hx hb =>
      rcases part_iff.1 hx with rfl | ⟨y, hy, hx⟩
      · cases hb
      · simp only [Val.children, List.mem_map] at hy
        obtain ⟨s, _, rfl⟩ := hy
        exact string_blameless hx hb
  | all cs _ _ ih | any cs _ _ ih =>
    intro hb
    cases hb with
    | item _ _ _ _ x _ hx hb => exact ih x hx hb

omit R in
theorem parsedPart_annotated {y : MVal} (h : ParsedPart y) : Annotated y := by
  cases h with
  | ts m s a f g hm hs ha hf hg =>
    have := PartWith.wellFormed (.ts m s a f g hm hs ha hf hg)
    cases this with
    | ts _ h1 h2 _ => exact .ts _ h1 h2
    | other _ _ h => exact (h _ rfl).elim
  | arithmetic op x y f g hf hg =>
    exact .formula _ _ _ _ _ (.inr ⟨_, .list _⟩) .none (hf.opt.imp fun _ h => h.made) (hg.opt.imp fun _ h => h.bare.item)
  | negation x f g _ hf hg =>
    exact .formula _ _ _ _ _ (.inr ⟨_, .list _⟩) .none (hf.opt.imp fun _ h => h.made) (hg.opt.imp fun _ h => h.bare.item)
  | call s x xs a f g _ _ ha hf hg =>
    exact .formula _ _ _ _ _ (.inr ⟨_, .list _⟩) (ha.imp fun _ _ => trivial) (hf.opt.imp fun _ h => h.made)
      (hg.opt.imp fun _ h => h.bare.item)
  | number | text => exact .other _ (by simp) (by simp)

omit R in
theorem parsedPart_blameless {y : MVal} {e : Err} (h : ParsedPart y) : ¬ QueryBlame e y := by
  intro hb
  cases h with
  | ts m s a f g hm hs ha hf hg =>
    cases hb with
    | param _ xs x _ hp hx hb =>
      simp only at hp
      subst hp
      cases ha with | list _ h => have := h x hx; cases this <;> cases hb
    | filter _ xs x _ hp hx hb =>
      simp only at hp
      subst hp
      cases hf with | list _ _ h => exact tagFilter_blameless (h x hx) hb
  | arithmetic op x y f g hf hg =>
    cases hb with
    | formulaFilter _ _ _ xs _ x _ hx hb => cases hf with | list _ _ h => exact tagFilter_blameless (h x hx) hb
  | negation x f g _ hf hg =>
    cases hb with
    | formulaFilter _ _ _ xs _ x _ hx hb => cases hf with | list _ _ h => exact tagFilter_blameless (h x hx) hb
  | call s x xs a f g _ _ ha hf hg =>
    cases hb with
    | formulaFilter _ _ _ xs _ x _ hx hb => cases hf with | list _ _ h => exact tagFilter_blameless (h x hx) hb
  | number | text => cases hb

omit R in
theorem parsed_queryObject {s : Str} {x : MVal} (h : parseMql s = .ok x) : QueryObject x := by
  have := parsed_isQuery h
  cases x <;> first | constructor | cases this

/-- **C65** (texts): every text that the parser accepts can be printed again, as a string and as the parsed object, and to the same
text. -/
theorem C65_parsed (s : Str) (x : MVal) (h : parseMql s = .ok x) :
    ∃ t, queryMql (.val (.str s)) = .ok t ∧ queryMql x = .ok t := by
  have hs := (parseMql_sound h).1
  obtain ⟨t, ht⟩ := (C65_succeeds_iff x (parsed_queryObject h) fun y hy => parsedPart_annotated (hs y hy)).2
    fun y hy e => parsedPart_blameless (hs y hy)
  exact ⟨t, by rw [← queryMql_parsed h]; exact ht, ht⟩

/-! ### Metrics queries -/

theorem printed_iff {q : MetricsQueryObj} {d : Data} : q.printed = .ok d ↔ q.validate = .ok () ∧ q.print = .ok d := by
  unfold MetricsQueryObj.printed
  simp only [bind_eq_ok]
  exact ⟨fun ⟨_, h, h'⟩ => ⟨h, h'⟩, fun ⟨h, h'⟩ => ⟨(), h, h'⟩⟩

/-- **C65** (metrics queries): a valid metrics query made of parts of the right types can be printed exactly when it has mappings
and no part of it is to blame for an exception. If it is given as a text, it can be printed exactly when it has mappings. -/
theorem C65_printed_iff (q : MetricsQueryObj) (hv : q.validate = .ok ()) :
    (QueryObject q.query → (∀ y, InFormula q.query y → Annotated y) →
      ((∃ d, q.printed = .ok d) ↔ q.indexerMappings ≠ .val .none ∧ ∀ y, InFormula q.query y → ∀ e, ¬ QueryBlame e y)) ∧
    (∀ s, q.query = .val (.str s) → ((∃ d, q.printed = .ok d) ↔ q.indexerMappings ≠ .val .none)) := by
  have hp : (∃ d, q.printed = .ok d) ↔ (∃ text, queryMql q.query = .ok text) ∧ q.indexerMappings ≠ .val .none := by
    rw [← C36_prints_iff q hv]
    simp only [printed_iff, hv, true_and]
  refine ⟨fun hq ha => ?_, fun s hs => ?_⟩
  · rw [hp, C65_succeeds_iff _ hq ha, and_comm]
  · rw [hp, hs]
    refine ⟨fun h => h.2, fun h => ⟨?_, h⟩⟩
    cases hx : parseMql s with
    | ok x => obtain ⟨t, ht, _⟩ := C65_parsed s x hx; exact ⟨t, ht⟩
    | error e =>
      have := (C51_validate_and_print q s).2 (by rw [hx]; rintro _ ⟨⟩)
      rw [← hs] at this
      rw [show ({ q with query := q.query } : MetricsQueryObj) = q from rfl, hv] at this
      cases this

omit R S in
/-- What a mergeable filter becomes is not to blame, if the filter is not. -/
theorem merged_blameless {c l : Val} {rs : List Val} {e : Err} (hm : Mergeable c l rs) (h : ∀ e, ¬ FilterBlame e c) :
    ¬ FilterBlame e (.cond l .in_ (.list rs)) := by
  obtain ⟨cls, k, r₀, rest, rs', rfl, rfl, hp⟩ := hm
  have hr : ∀ r ∈ r₀ :: rs', ∃ l', Val.cond l' .eq r ∈ Val.cond l .eq r₀ :: rest := by
    intro r hr
    rcases List.mem_cons.1 hr with rfl | hr
    · exact ⟨l, by simp⟩
    · obtain ⟨y, hy, l', rfl, _⟩ := hp.mem_right r hr
      exact ⟨l', by simp [hy]⟩
  have hn : ∀ r ∈ r₀ :: rs', ¬ IsFunction r := fun r hr' hf => by
    obtain ⟨l', hl⟩ := hr r hr'
    exact h _ (.item _ _ _ _ _ _ hl (.function _ _ _ hf))
  intro hb
  cases hb with
  | function _ _ _ h => cases h
  | left _ _ _ x _ _ hx hb => exact h e (.item _ _ _ _ _ _ (by simp) (.left l .eq r₀ x e (hn _ (by simp)) hx hb))
  | right _ _ _ x _ _ hx hb =>
    rcases part_iff.1 hx with rfl | ⟨r, hr', hx⟩
    · cases hb
    · obtain ⟨l', hl⟩ := hr r hr'
      exact h e (.item _ _ _ _ _ _ hl (.right _ _ _ x e (hn r hr') hx hb))

omit R S in
theorem merged_wf {c l : Val} {rs : List Val} (hm : Mergeable c l rs) (h : WF c) : WF (.cond l .in_ (.list rs)) := by
  obtain ⟨cls, k, r₀, rest, rs', rfl, rfl, hp⟩ := hm
  obtain ⟨hw, _⟩ := wf_boolean_fields h
  obtain ⟨h1, h2, hl, _, hr₀⟩ := wf_cond_fields (hw _ (List.mem_cons_self ..))
  have hr : ∀ r ∈ r₀ :: rs', WF r ∧ Element r := by
    intro r hr
    rcases List.mem_cons.1 hr with rfl | hr
    · exact ⟨h2, rhs_element hr₀⟩
    · obtain ⟨y, hy, l', rfl, _⟩ := hp.mem_right r hr
      obtain ⟨_, h3, _, _, h4⟩ := wf_cond_fields (hw _ (List.mem_cons_of_mem _ hy))
      exact ⟨h3, rhs_element h4⟩
  refine .cond _ _ _ h1 (.list _ fun r h => (hr r h).1) hl (by simp) (.inr ?_)
  exact isScalar_true_iff.1 (isScalar_true_iff.2 (.inr (.list _ fun r h => (hr r h).2)))

omit R S in
theorem condMqlAll_succeeds {cfg : Cfg} {xs : List Val} (hc : ∀ x ∈ xs, Cond x) (h : ∀ x ∈ xs, Succeeds (condMql cfg x)) :
    ∃ ts, condMqlAll cfg xs = .ok ts := by
  cases he : condMqlAll cfg xs with
  | ok ts => exact ⟨ts, rfl⟩
  | error e =>
    obtain ⟨x, hx, he⟩ := condMqlAll_error hc he
    obtain ⟨t, ht⟩ := h x hx
    rw [he] at ht; cases ht

omit R S in
/-- The merged filters can be printed, if the given ones can. -/
theorem filtersMql_optimized {f : Val} {r : Option Val} {t : Str} (h : OptList MadeCond f) (ho : filtersMql f = .ok t)
    (hr : optimizeFilters f = .ok r) : ∃ t, filtersMql (r.getD f) = .ok t := by
  cases r with
  | none => exact ⟨t, ho⟩
  | some v =>
    have hb := fun xs hf => filtersMql_ok (xs := xs) h hf ho
    cases h with
    | none => cases hr
    | list xs h =>
      simp only [optimizeFilters, Val.given, if_true, iterItems, Val.seq?, ok_bind, bind_eq_ok, Except.ok.injEq] at hr
      obtain ⟨o, ho, hr⟩ := hr
      cases o with
      | none => cases hr
      | some ys =>
        cases hr
        obtain ⟨hp, _⟩ := optimize_some (fun c hc => (h c hc).built) ho
        have hy : ∀ y ∈ ys, WF y ∧ Cond y ∧ ∀ e, ¬ FilterBlame e y := by
          intro y hy
          obtain ⟨x, hx, hxy⟩ := hp.mem_right y hy
          rcases hxy with ⟨l, rs, hm, rfl⟩ | ⟨_, rfl⟩
          · exact ⟨merged_wf hm (built_wf (h x hx).built), by constructor, fun e => merged_blameless hm (hb xs rfl x hx)⟩
          · exact ⟨built_wf (h y hx).built, (h y hx).cond, hb xs rfl y hx⟩
        obtain ⟨ts, hts⟩ := condMqlAll_succeeds (cfg := .mql) (fun y h => (hy y h).2.1)
          fun y h => (condMql_succeeds (hy y h).1 (hy y h).2.1).2 (hy y h).2.2
        exact ⟨_, by simp only [Option.getD, filtersMql, Val.given, if_true, iterItems, Val.seq?, ok_bind, hts]; rfl⟩

omit R S in
theorem optimizeFilters_total {f : Val} (h : OptList MadeCond f) :
    ∃ r, optimizeFilters f = .ok r ∧ ∀ v, r = some v → OptList Cond v := by
  cases h with
  | none => exact ⟨none, rfl, by simp⟩
  | list xs h =>
    have hb : ∀ c ∈ xs, Built c := fun c hc => (h c hc).built
    obtain ⟨o, ho, _⟩ := C30_total_and_none_iff xs hb
    refine ⟨o.map .list, by simp [optimizeFilters, Val.given, iterItems, Val.seq?, ho], ?_⟩
    intro v hv
    cases o with
    | none => cases hv
    | some ys =>
      cases hv
      refine .list _ fun c hc => ?_
      rcases (optimize_some hb ho).2 c hc with hc | ⟨l, rs, rfl, _⟩
      · exact (h c hc).cond
      · constructor

/-- The query after the optimisation can be printed, if the given one can. -/
theorem queryMql_optimized {x : MVal} {t : Str} (hq : QueryObject x) (ha : Annotated x) (h : queryMql x = .ok t) :
    ∃ x' t', optimizeQuery x = .ok x' ∧ queryMql x' = .ok t' := by
  cases ha with
  | ts u hu hf =>
    simp only [queryMql, timeseriesMql, bind_eq_ok] at h
    obtain ⟨m, hm, ps, hps, f, hf', g, hg, _⟩ := h
    obtain ⟨r, hr, hc⟩ := optimizeFilters_total hf
    obtain ⟨f', hf'⟩ := filtersMql_optimized hf hf' hr
    have : u.replaceFilters r = .ok { u with filters := r.getD u.filters } := by
      cases r with
      | none => rfl
      | some v => exact (C32_timeseries_iff _ _ _ _ _ _).2 ⟨_, rfl, rfl, hu.metric, hu.aggregate, hu.aggregateParams, hc v rfl, hu.groupby⟩
    exact ⟨_, _, by simp only [optimizeQuery, hr, this, ok_bind]; rfl, by simp only [queryMql, timeseriesMql, hm, hps, hf', hg, ok_bind]; rfl⟩
  | formula s p a f g _ _ hf _ =>
    simp only [queryMql, paramMql, bind_eq_ok] at h
    obtain ⟨ps, hps, hd, hh, fs, hfs, u, hu, _⟩ := h
    obtain ⟨r, hr, _⟩ := optimizeFilters_total hf
    obtain ⟨f', hf'⟩ := filtersMql_optimized hf hfs hr
    exact ⟨_, _, by simp only [optimizeQuery, hr, ok_bind]; rfl, by simp only [queryMql, paramMql, hps, hh, hf', hu, ok_bind]; rfl⟩
  | other _ h1 h2 => cases hq <;> first | exact (h1 _ _ _ _ _ rfl).elim | exact (h2 _ rfl).elim

/-- **C65** (sending): if a query made of parts of the right types can be printed, then it can also be serialised. -/
theorem C65_serialize (q : MetricsQueryObj) (d : Data) (hq : QueryObject q.query) (ha : Annotated q.query) (h : q.printed = .ok d) :
    ∃ d', q.serialize.1 = .ok d' := by
  obtain ⟨hv, hp⟩ := printed_iff.1 h
  obtain ⟨⟨t, ht⟩, hm⟩ := (C36_prints_iff q hv).1 ⟨d, hp⟩
  obtain ⟨x', t', ho, ht'⟩ := queryMql_optimized hq ha ht
  obtain ⟨text, start, end_, rollup, scope, limit, offset, extrapolate, mappings, h1, h2, h3, h4, h5, h6, h7, h8, h9, _⟩ := print_parts.1 hp
  simp only [MetricsQueryObj.serialize, hv, ho]
  exact ⟨_, print_parts.2 ⟨t', start, end_, rollup, scope, limit, offset, extrapolate, mappings, ht', h2, h3, h4, h5, h6, h7, h8, h9, rfl⟩⟩

end
end

/-! ### Concrete cases -/

section Examples

attribute [local instance] asciiUnicode pySpace

local instance exTotalRepr : PyRepr := ⟨fun _ => []⟩

/-- `ff(b)`. -/
private def exCall : Val := .curried true c!"ff" .absent [] .list [keyColumn c!"b"] none

/-- `a = ff(b) OR a = 1`. -/
private def exCallFilter : Val :=
  .boolCond .or .or .list [.cond (keyColumn c!"a") .eq exCall, .cond (keyColumn c!"a") .eq (.int 1)]

/-- A timeseries with one filter. -/
private def exFiltered (params f : Val) : TimeseriesObj := ⟨⟨.str c!"m", .none, .none⟩, .str c!"sum", params, .list [f], .none⟩

private theorem built_key (k : Str) (h : mkColumn (.str k) .none = .ok (keyColumn k)) : Built (keyColumn k) :=
  .column _ _ _ (.literal _ (.str _)) (.literal _ .none) h

private theorem exCall_built : Built exCall :=
  .function (.str c!"ff") (.list [keyColumn c!"b"]) .none _ (.literal _ (.str _))
    (.list _ (by simp only [List.mem_singleton, forall_eq]; exact built_key _ rfl)) (.literal _ .none) rfl

private theorem exCallFilter_made : MadeCond exCallFilter := by
  refine ⟨by constructor, .or (.list [.cond (keyColumn c!"a") .eq exCall, .cond (keyColumn c!"a") .eq (.int 1)]) _ (.list _ ?_) rfl⟩
  simp only [List.mem_cons, List.not_mem_nil, or_false, forall_eq_or_imp, forall_eq]
  exact ⟨.condition _ _ _ _ (built_key _ rfl) (.op .eq) exCall_built rfl,
    .condition _ _ _ _ (built_key _ rfl) (.op .eq) (.literal _ (.int 1)) rfl⟩

private theorem exFiltered_annotated (ps f : Val) (hp : OptList Literal ps) (hf : MadeCond f) : Annotated (.ts (exFiltered ps f)) := by
  have h : OptList MadeCond (.list [f]) := .list _ (by simpa using hf)
  exact .ts _ ⟨⟨.str _, .none, .none, c!"m", .inl rfl⟩, ⟨_, rfl⟩, hp, h.imp fun _ h => h.cond, .none⟩ h

/-- A formula with the timeseries as a parameter. -/
private def exBlamed (f : Val) : MVal :=
  .formula (.str c!"plus") (.list [.ts (exFiltered .none f), .val (.float .nan)]) .none .none .none

private theorem exBlamed_annotated (f : Val) (hf : MadeCond f) : ∀ y, InFormula (exBlamed f) y → Annotated y := by
  intro y hy
  have : y = exBlamed f ∨ y = .ts (exFiltered .none f) ∨ y = .val (.float .nan) := by
    induction hy with
    | self => exact .inl rfl
    | param _ hs hp ih =>
      rcases ih with h | h | h <;> cases h
      cases hs
      exact .inr (by simpa using hp)
  rcases this with rfl | rfl | rfl
  · exact .formula _ _ _ _ _ (.inr ⟨_, .list _⟩) .none .none .none
  · exact exFiltered_annotated _ _ .none hf
  · exact .other _ (by simp) (by simp)

/-- C65: a function on the right-hand side, in the parameter of a formula. -/
example : queryMql (exBlamed exCallFilter) = .error .invalidExpression := rfl
example : ∃ y, InFormula (exBlamed exCallFilter) y ∧ QueryBlame .invalidExpression y :=
  C65_error _ _ (.formula ..) (exBlamed_annotated _ exCallFilter_made) rfl
example : QueryBlame .invalidExpression (.ts (exFiltered .none exCallFilter)) :=
  .filter _ _ _ _ rfl (List.mem_singleton.2 rfl) (.item _ _ _ _ _ _ (List.mem_cons_self ..) (.function _ _ _ (.mk ..)))

/-- C65: without it, the query has a text, and nothing is to blame. -/
private theorem exPlain_made : MadeCond (.cond (keyColumn c!"a") .eq (.int 1)) :=
  ⟨by constructor, .condition _ _ _ _ (built_key _ rfl) (.op .eq) (.literal _ (.int 1)) rfl⟩
example : queryMql (exBlamed (.cond (keyColumn c!"a") .eq (.int 1))) = .ok c!"(sum(m){a:1} + nan)" := rfl
example : ∀ y, InFormula (exBlamed (.cond (keyColumn c!"a") .eq (.int 1))) y → ∀ e, ¬ QueryBlame e y :=
  (C65_succeeds_iff _ (.formula ..) (exBlamed_annotated _ exPlain_made)).1 ⟨_, rfl⟩

/-- C65: bytes that are no text among the parameters of the aggregate, and a formula without parameters. -/
example : queryMql (.ts (exFiltered (.list [.int 1, .bytes [255]]) (.cond (keyColumn c!"a") .eq (.int 1)))) = .error .unicodeDecodeError := rfl
example : queryMql (.formula (.str c!"plus") (.val .none) .none .none .none) = .error .assertion := rfl

/-- C65: a text. -/
example := C65_parsed exOrText exOrObject exOr_parsed
example : ∃ d, (exMetricsQuery (.val (.str exOrText))).printed = .ok d :=
  ((C65_printed_iff (exMetricsQuery (.val (.str exOrText))) rfl).2 _ rfl).2 (by simp [exMetricsQuery])

/-- C65: an object that can be printed, and hence serialised. -/
example : ∃ d, (exMetricsQuery (exBlamed (.cond (keyColumn c!"a") .eq (.int 1)))).serialize.1 = .ok d :=
  C65_serialize _ _ (.formula ..) (exBlamed_annotated _ exPlain_made _ .self) rfl

/-- **C65**: the converse is false. Merging the values of an OR into a list lets a function through that a comparison does not
allow, so that the query can be serialised although it cannot be printed. -/
theorem C65_serialize_only :
    (exMetricsQuery (.ts (exFiltered .none exCallFilter))).printed = .error .invalidExpression ∧
    (exMetricsQuery (.ts (exFiltered .none exCallFilter))).serialize.1 =
      .ok (.dict [(c!"mql", .val (.str c!"sum(m){a:[ff(b), 1]}")), (c!"mql_context", exMetricsContext)]) := ⟨rfl, rfl⟩

end Examples

end Verif
