import Verif.Spec.PrintMessages
import Verif.Lemmas.MetricsMessages
import Verif.Lemmas.MqlMessages
import Verif.Props.MqlTotal

/-!
# Lemmas: messages of the printer of metrics queries
-/

namespace Verif.PrintMessages

open Spec Verif

theorem elsewhere_words {α : Type} {x : Except Err α} {e : Err} {m : Str} : elsewhere x ≠ .error (e, some m) := by
  cases x <;> simp [elsewhere]

theorem elsewhere_class {α : Type} {x : Except Err α} {r : Raised} (h : elsewhere x = .error r) : x = .error r.1 ∧ r.2 = none := by
  cases x with
  | ok => cases h
  | error e => cases h; exact ⟨rfl, rfl⟩

theorem drop_else {α : Type} (x : Except Err α) : dropMessage (elsewhere x) = x := by cases x <;> rfl

/-! ### Classes -/

theorem drop_rhs (cfg : Cfg) (o : Op) (r : Val) : dropMessage (rhsMqlMsg cfg o r) = rhsMql cfg o r := by
  unfold rhsMqlMsg rhsMql
  split
  · rfl
  split
  · rfl
  split
  · exact drop_else _
  simp only [drop_bind, drop_else]
  congr 1
  funext b
  cases b
  · rfl
  · exact drop_else _

mutual
theorem drop_cond (cfg : Cfg) : ∀ v : Val, dropMessage (condMqlMsg cfg v) = condMql cfg v
  | .cond l o r => by simp only [condMqlMsg, condMql, drop_bind, drop_rhs, drop_else]; rfl
  | .boolCond _ op _ cs => by simp only [condMqlMsg, condMql, drop_bind, drop_conds cfg cs]; rfl
  | .none | .bool _ | .int _ | .float _ | .str _ | .bytes _ | .datetime _ | .date _ | .list _ | .tuple _ | .aliased _ _ | .column _
  | .curried _ _ _ _ _ _ _ | .ident _ | .lam _ _ _ | .entity _ | .storage _ | .rel _ | .join _ _ | .orderby _ _ | .limitby _ _ _
  | .limit _ | .offset _ | .granularity _ | .totals _ | .extrapolate _ | .op _ | .boolOp _ | .direction _ | .dataModel _ | .other _ => by
    simp only [condMqlMsg, condMql]; rfl

theorem drop_conds (cfg : Cfg) : ∀ vs : List Val, dropMessage (condMqlAllMsg cfg vs) = condMqlAll cfg vs
  | [] => by simp only [condMqlAllMsg, condMqlAll]; rfl
  | v :: vs => by
    simp only [condMqlAllMsg, condMqlAll]
    split
    · simp only [drop_bind, drop_cond cfg v, drop_conds cfg vs]; rfl
    · exact drop_conds cfg vs
end

theorem drop_filters (v : Val) : dropMessage (filtersMqlMsg v) = filtersMql v := by
  unfold filtersMqlMsg filtersMql
  split
  · simp only [drop_bind, drop_else, drop_conds]; rfl
  · rfl

theorem drop_metric (m : MetricObj) : dropMessage (metricMqlMsg m) = metricMql m := by
  obtain ⟨p, m, i⟩ := m
  unfold metricMqlMsg metricMql
  cases m <;> (try cases p) <;> rfl

section
variable [R : PyRepr]

theorem drop_ts (t : TimeseriesObj) : dropMessage (timeseriesMqlMsg t) = timeseriesMql t := by
  unfold timeseriesMqlMsg timeseriesMql
  simp only [drop_bind, drop_metric, drop_else, drop_filters]
  rfl

mutual
theorem drop_param : ∀ x : MVal, dropMessage (paramMqlMsg x) = paramMql x
  | .ts t => by simp only [paramMqlMsg, paramMql, drop_ts]
  | .formula n p a f g => by
    simp only [paramMqlMsg, paramMql, drop_bind, drop_params p, drop_else, drop_filters]
    rfl
  | .val _ | .metric _ | .rollup _ | .scope _ | .list _ | .tuple _ | .data _ => by simp only [paramMqlMsg, paramMql]; rfl

theorem drop_params : ∀ x : MVal, dropMessage (paramsMqlMsg x) = paramsMql x
  | .list xs => by simp only [paramsMqlMsg, paramsMql, drop_paramsAll xs]
  | .tuple xs => by simp only [paramsMqlMsg, paramsMql, drop_paramsAll xs]
  | .val v => by cases v <;> (simp only [paramsMqlMsg, paramsMql, drop_bind, drop_else]; rfl)
  | .ts _ | .formula _ _ _ _ _ | .metric _ | .rollup _ | .scope _ | .data _ => by simp only [paramsMqlMsg, paramsMql]; rfl

theorem drop_paramsAll : ∀ xs : List MVal, dropMessage (paramsMqlAllMsg xs) = paramsMqlAll xs
  | [] => by simp only [paramsMqlAllMsg, paramsMqlAll]; rfl
  | x :: xs => by simp only [paramsMqlAllMsg, paramsMqlAll, drop_bind, drop_param x, drop_paramsAll xs]; rfl
end

variable [U : PyUnicode] [S : RegexSpace] [PyShow] [PyText]

theorem drop_query (x : MVal) : dropMessage (queryMqlMsg x) = queryMql x := by
  cases x with
  | val v =>
    cases v <;> first
      | rfl
      | (simp only [queryMqlMsg, queryMql, drop_bind, MqlMsg.drop_parse, drop_param])
  | ts t => simp only [queryMqlMsg, queryMql, drop_ts]
  | formula n p a f g => simp only [queryMqlMsg, queryMql, drop_param]
  | _ => rfl

omit R U S [PyShow] [PyText] in
theorem drop_time (w : Str) (x : MVal) : dropMessage (timeMqlMsg w x) = timeMql x := by
  unfold timeMqlMsg
  split
  · rfl
  · exact drop_else _

omit U S [PyShow] [PyText] in
theorem drop_rollup' (x : MVal) : dropMessage (rollupMqlMsg x) = rollupMql x := by
  unfold rollupMqlMsg
  split
  · rfl
  · exact drop_else _

omit R U S [PyShow] [PyText] in
theorem drop_scope' (x : MVal) : dropMessage (scopeMqlMsg x) = scopeMql x := by
  unfold scopeMqlMsg
  split
  · rfl
  · exact drop_else _

omit R U S [PyShow] [PyText] in
theorem drop_mappings (x : MVal) : dropMessage (mappingsMqlMsg x) = mappingsMql x := by
  unfold mappingsMqlMsg
  split
  · rfl
  · exact drop_else _

theorem drop_print (q : MetricsQueryObj) : dropMessage q.printMsg = q.print := by
  unfold MetricsQueryObj.printMsg MetricsQueryObj.print
  simp only [drop_bind, drop_query, drop_time, drop_rollup', drop_scope', drop_mappings, drop_else]
  rfl

end

/-! ### Words -/

theorem rhs_words {cfg : Cfg} {o : Op} {r : Val} {e : Err} {m : Str} (h : rhsMqlMsg cfg o r = .error (e, some m)) :
    (e, some m) = functionFault ∧ IsFunction r := by
  unfold rhsMqlMsg at h
  split at h
  · cases h
  split at h
  next hc => cases h; exact ⟨rfl, isFunction_iff.1 hc⟩
  split at h
  · exact (elsewhere_words h).elim
  rcases bind_eq_error.1 h with h | ⟨b, _, h⟩
  · exact (elsewhere_words h).elim
  · cases b
    · cases h
    · exact (elsewhere_words h).elim

mutual
theorem cond_words {cfg : Cfg} {e : Err} {m : Str} : ∀ v : Val, condMqlMsg cfg v = .error (e, some m) →
    (e, some m) = functionFault ∧ ComparesFunction v
  | .cond l o r, h => by
    simp only [condMqlMsg, bind_eq_error, reduceCtorEq, and_false, exists_false, or_false] at h
    rcases h with h | ⟨_, _, h⟩
    · exact ⟨(rhs_words h).1, .here _ _ _ (rhs_words h).2⟩
    · exact (elsewhere_words h).elim
  | .boolCond c op k cs, h => by
    simp only [condMqlMsg, bind_eq_error, reduceCtorEq, and_false, exists_false, or_false] at h
    obtain ⟨h1, x, hx, h2⟩ := conds_words cs h
    exact ⟨h1, .item _ _ _ _ x hx h2⟩
  | .none, h | .bool _, h | .int _, h | .float _, h | .str _, h | .bytes _, h | .datetime _, h | .date _, h | .list _, h | .tuple _, h
  | .aliased _ _, h | .column _, h | .curried _ _ _ _ _ _ _, h | .ident _, h | .lam _ _ _, h | .entity _, h | .storage _, h | .rel _, h
  | .join _ _, h | .orderby _ _, h | .limitby _ _ _, h | .limit _, h | .offset _, h | .granularity _, h | .totals _, h
  | .extrapolate _, h | .op _, h | .boolOp _, h | .direction _, h | .dataModel _, h | .other _, h => by
    simp [condMqlMsg] at h

theorem conds_words {cfg : Cfg} {e : Err} {m : Str} : ∀ vs : List Val, condMqlAllMsg cfg vs = .error (e, some m) →
    (e, some m) = functionFault ∧ ∃ x ∈ vs, ComparesFunction x
  | [], h => by simp [condMqlAllMsg] at h
  | v :: vs, h => by
    simp only [condMqlAllMsg] at h
    split at h
    · simp only [bind_eq_error, reduceCtorEq, and_false, exists_false, or_false] at h
      rcases h with h | ⟨_, _, h⟩
      · exact ⟨(cond_words v h).1, v, .head _, (cond_words v h).2⟩
      · obtain ⟨h1, x, hx, h2⟩ := conds_words vs h
        exact ⟨h1, x, .tail _ hx, h2⟩
    · obtain ⟨h1, x, hx, h2⟩ := conds_words vs h
      exact ⟨h1, x, .tail _ hx, h2⟩
end

theorem filters_words {v : Val} {e : Err} {m : Str} (h : filtersMqlMsg v = .error (e, some m)) :
    (e, some m) = functionFault ∧ ∃ xs f, (v = .list xs ∨ v = .tuple xs) ∧ f ∈ xs ∧ ComparesFunction f := by
  unfold filtersMqlMsg at h
  split at h
  · simp only [bind_eq_error, reduceCtorEq, and_false, exists_false, or_false] at h
    rcases h with h | ⟨xs, hxs, h⟩
    · exact (elsewhere_words h).elim
    · obtain ⟨h1, f, hf, h2⟩ := conds_words xs h
      refine ⟨h1, xs, f, ?_, hf, h2⟩
      have hxs : iterItems v = .ok xs := by
        cases hi : iterItems v with
        | ok y => rw [hi] at hxs; cases hxs; rfl
        | error e => rw [hi] at hxs; cases hxs
      unfold iterItems at hxs
      cases v <;> simp only [Val.seq?] at hxs <;> first | (cases hxs; done) | skip
      all_goals cases hxs
      all_goals first
        | exact .inl rfl
        | exact .inr rfl
        | (obtain ⟨c, _, rfl⟩ := List.mem_map.1 hf; cases h2)
  · cases h

theorem metric_words {o : MetricObj} {r : Raised} (ho : MetricOk o) : metricMqlMsg o ≠ .error r := by
  intro h
  obtain ⟨t, ht⟩ := metricMql_succeeds ho
  rw [← drop_metric, h] at ht
  cases ht

section
variable [R : PyRepr]

theorem ts_words {t : TimeseriesObj} {e : Err} {m : Str} (ho : MetricOk t.metric) (h : timeseriesMqlMsg t = .error (e, some m)) :
    (e, some m) = functionFault ∧ ∃ f, HasFilter (.ts t) f ∧ ComparesFunction f := by
  simp only [timeseriesMqlMsg, bind_eq_error, reduceCtorEq, and_false, exists_false, or_false] at h
  rcases h with h | ⟨_, _, h | ⟨_, _, h | ⟨_, _, h⟩⟩⟩
  · exact (metric_words ho h).elim
  · exact (elsewhere_words h).elim
  · obtain ⟨h1, xs, f, hv, hf, h2⟩ := filters_words h
    exact ⟨h1, f, .ts _ xs _ hv hf, h2⟩
  · exact (elsewhere_words h).elim

theorem paramsAll_raised {r : Raised} : ∀ {xs : List MVal}, paramsMqlAllMsg xs = .error r → ∃ x ∈ xs, paramMqlMsg x = .error r
  | [], h => by simp [paramsMqlAllMsg] at h
  | x :: xs, h => by
    simp only [paramsMqlAllMsg, bind_eq_error, reduceCtorEq, and_false, exists_false, or_false] at h
    rcases h with h | ⟨_, _, h⟩
    · exact ⟨x, .head _, h⟩
    · obtain ⟨y, hy, h⟩ := paramsAll_raised h
      exact ⟨y, .tail _ hy, h⟩

theorem params_raised {p : MVal} {r : Raised} (h : paramsMqlMsg p = .error r) :
    r.2 = none ∧ r.1 ≠ .invalidExpression ∨ ∃ xs x, MSeq p xs ∧ x ∈ xs ∧ paramMqlMsg x = .error r := by
  cases p with
  | list xs => obtain ⟨x, hx, h⟩ := paramsAll_raised (by simpa only [paramsMqlMsg] using h); exact .inr ⟨xs, x, .list _, hx, h⟩
  | tuple xs => obtain ⟨x, hx, h⟩ := paramsAll_raised (by simpa only [paramsMqlMsg] using h); exact .inr ⟨xs, x, .tuple _, hx, h⟩
  | val v =>
    refine .inl ?_
    by_cases hv : v = .none
    · subst hv; simp only [paramsMqlMsg] at h; cases h; exact ⟨rfl, by decide⟩
    · have h : elsewhere (iterItems v) = .error r := by
        cases v <;> first | exact (hv rfl).elim | (simpa only [paramsMqlMsg, bind_eq_error, reduceCtorEq, and_false, exists_false, or_false] using h)
      obtain ⟨h, h2⟩ := elsewhere_class h
      refine ⟨h2, fun h1 => ?_⟩
      unfold iterItems at h
      rw [h1] at h
      split at h <;> cases h
  | _ => simp only [paramsMqlMsg] at h; cases h; exact .inl ⟨rfl, by decide⟩

theorem param_words {e : Err} {m : Str} : ∀ x : MVal, MetricsNamed x → paramMqlMsg x = .error (e, some m) →
    (e, some m) = functionFault ∧ FunctionInFilters x := by
  refine MVal.ind fun x ih ho h => ?_
  cases x with
  | ts t =>
    simp only [paramMqlMsg] at h
    obtain ⟨h1, f, h2, h3⟩ := ts_words (ho t .self) h
    exact ⟨h1, _, f, .self, h2, h3⟩
  | formula n p a f g =>
    simp only [paramMqlMsg, bind_eq_error, reduceCtorEq, and_false, exists_false, or_false] at h
    rcases h with h | ⟨_, _, h | ⟨_, _, h | ⟨_, _, h⟩⟩⟩
    · rcases params_raised h with ⟨h, _⟩ | ⟨xs, y, hs, hy, h⟩
      · cases h
      · have hin : InFormula (.formula n p a f g) y := .param .self hs hy
        obtain ⟨h1, z, u, hz, h2⟩ := ih _ _ _ _ _ rfl y (by cases hs <;> exact hy) (fun t ht => ho t (inFormula_trans hin ht)) h
        exact ⟨h1, z, u, inFormula_trans hin hz, h2⟩
    · exact (elsewhere_words h).elim
    · obtain ⟨h1, xs, u, hv, hf, h2⟩ := filters_words h
      exact ⟨h1, _, u, .self, .formula _ _ _ _ _ xs _ hv hf, h2⟩
    · exact (elsewhere_words h).elim
  | _ => simp [paramMqlMsg] at h

end

/-! ### Other exceptions -/

theorem blames_class {e : Err} {x : Val} (h : Blames e x) : e ≠ .invalidExpression := by
  cases h <;> decide

section
variable [U : PyUnicode]

theorem translate_class {v : Val} {r : Raised} (h : WF v) (hv : Element v) (he : elsewhere (translate .mql v) = .error r) :
    r.1 ≠ .invalidExpression := by
  obtain ⟨x, _, hb⟩ := wf_translate_error .mql h hv _ (elsewhere_class he).1
  exact blames_class hb

omit U in
theorem conds_raised {cfg : Cfg} {r : Raised} : ∀ {cs : List Val}, (∀ x ∈ cs, Cond x) → condMqlAllMsg cfg cs = .error r →
    ∃ x ∈ cs, condMqlMsg cfg x = .error r
  | [], _, h => by simp [condMqlAllMsg] at h
  | c :: cs, hc, h => by
    simp only [condMqlAllMsg, isCondition_iff.2 (hc c (.head _)), if_true, bind_eq_error, reduceCtorEq, and_false, exists_false, or_false] at h
    rcases h with h | ⟨_, _, h⟩
    · exact ⟨c, .head _, h⟩
    · obtain ⟨x, hx, h⟩ := conds_raised (fun x hx => hc x (.tail _ hx)) h
      exact ⟨x, .tail _ hx, h⟩

theorem cond_class {v : Val} {r : Raised} (h : WF v) : Cond v → condMqlMsg .mql v = .error r → r.2 = none → r.1 ≠ .invalidExpression := by
  induction h with
  | cond l o r' h1 h2 hl hu hr _ _ =>
    intro _ he hn
    simp only [condMqlMsg, bind_eq_error, reduceCtorEq, and_false, exists_false, or_false] at he
    rcases he with he | ⟨_, _, he⟩
    · have hd := congrArg dropMessage he
      rw [drop_rhs] at hd
      rcases rhsMql_cases hu hr with ⟨rfl, hr'⟩ | ⟨hf, _⟩ | ⟨_, hr'⟩
      · rw [hr'] at hd; cases hd
      · exfalso
        unfold rhsMqlMsg at he
        split at he
        · cases he
        split at he
        · cases he; cases hn
        next hc => exact hc (isFunction_iff.2 hf)
      · rw [hr'] at hd
        obtain ⟨x, _, hb⟩ := wf_translate_error .mql h2 (rhs_element hr) _ hd
        exact blames_class hb
    · exact translate_class h1 (colOrFn_element hl) he
  | boolCond cls o k cs h1 h2 _ _ _ ih =>
    intro _ he hn
    simp only [condMqlMsg, bind_eq_error, reduceCtorEq, and_false, exists_false, or_false] at he
    obtain ⟨x, hx, he⟩ := conds_raised h2 he
    exact ih x hx (h2 x hx) he hn
  | literal v h => intro hc; cases hc <;> cases h
  | _ => intro hc; cases hc

theorem filters_class {f : Val} {r : Raised} (h : OptList MadeCond f) (he : filtersMqlMsg f = .error r) (hn : r.2 = none) :
    r.1 ≠ .invalidExpression := by
  cases h with
  | none => cases he
  | list xs h =>
    simp only [filtersMqlMsg, Val.given, if_true, iterItems, Val.seq?, elsewhere, ok_bind, bind_eq_error, reduceCtorEq, and_false, exists_false,
      or_false] at he
    obtain ⟨x, hx, he⟩ := conds_raised (fun x hx => (h x hx).cond) he
    exact cond_class (built_wf (h x hx).built) (h x hx).cond he hn

variable [R : PyRepr]

theorem ts_class {t : TimeseriesObj} {r : Raised} (h : TimeseriesOk t) (hf : OptList MadeCond t.filters) (he : timeseriesMqlMsg t = .error r)
    (hn : r.2 = none) : r.1 ≠ .invalidExpression := by
  simp only [timeseriesMqlMsg, bind_eq_error, reduceCtorEq, and_false, exists_false, or_false] at he
  rcases he with he | ⟨_, _, he | ⟨_, _, he | ⟨_, _, he⟩⟩⟩
  · exact (metric_words h.metric he).elim
  · obtain ⟨he, _⟩ := elsewhere_class he
    have ha := h.aggregateParams
    generalize t.aggregateParams = p at he ha
    cases ha with
    | none => cases he
    | list xs hl =>
      unfold aggregateParamsMql at he
      split at he
      · simp only [iterItems, Val.seq?, ok_bind, bind_eq_error, reduceCtorEq, and_false, exists_false, or_false] at he
        obtain ⟨x, hx, he⟩ := translateAll_error he
        exact blames_class (blamed_part (hl x hx) he)
      · cases he
  · exact filters_class hf he hn
  · obtain ⟨g, hg⟩ := groupbyMql_succeeds h.groupby
    rw [hg] at he
    cases he

theorem param_class {r : Raised} (hn : r.2 = none) : ∀ x : MVal, (∀ y, InFormula x y → Annotated y) → paramMqlMsg x = .error r →
    r.1 ≠ .invalidExpression := by
  refine MVal.ind fun x ih ha he => ?_
  cases ha x .self with
  | ts t ht hf =>
    simp only [paramMqlMsg] at he
    exact ts_class ht hf he hn
  | formula s p a f g hp hap hf hg =>
    simp only [paramMqlMsg, bind_eq_error, reduceCtorEq, and_false, exists_false, or_false] at he
    rcases he with he | ⟨ps, _, he | ⟨_, _, he | ⟨_, _, he⟩⟩⟩
    · rcases params_raised he with ⟨_, h⟩ | ⟨xs, y, hs, hy, he⟩
      · exact h
      · exact ih _ _ _ _ _ rfl y (by cases hs <;> exact hy) (fun z hz => ha z (inFormula_trans (.param .self hs hy) hz)) he
    · obtain ⟨t, ht⟩ := formulaHead_succeeds (s := s) (ps := ps) hap
      rw [ht] at he
      cases he
    · exact filters_class hf he hn
    · obtain ⟨u, hu⟩ := groupbyMql_succeeds hg
      rw [hu] at he
      cases he
  | other x h1 h2 =>
    cases x <;> first | exact (h1 _ _ _ _ _ rfl).elim | exact (h2 _ rfl).elim | (simp only [paramMqlMsg] at he; cases he)

end

end Verif.PrintMessages
