import Verif.Lemmas.Errors
import Verif.Props.Setters
import Verif.Props.Columns
import Verif.Props.Request

/-!
# C59: which exceptions are raised
-/

namespace Verif
open Spec

section
variable [U : PyUnicode]

/-! ### Expressions -/

omit U in
theorem intLiteral_error {v : Val} {a b : Option Int} {e : Err} (h : validateIntLiteral v a b = .error e) : e = .invalidExpression := by
  unfold validateIntLiteral at h
  cases hv : v.asInt? with
  | none => rw [hv] at h; cases h; rfl
  | some i =>
    rw [hv] at h
    have key : ∀ c1 c2 : Bool, (if c1 then .error .invalidExpression else if c2 then .error .invalidExpression else .ok i : Except Err PyInt)
        = .error e → e = .invalidExpression := by
      intro c1 c2 h
      cases c1 <;> cases c2 <;> simp_all
    exact key _ _ h

/-- **C59** (expressions): whatever the arguments, these constructors raise nothing but the exception of their class. -/
theorem C59_expressions (e : Err) :
    (∀ v, mkLimit v = .error e → e = .invalidExpression) ∧
    (∀ v, mkOffset v = .error e → e = .invalidExpression) ∧
    (∀ v, mkGranularity v = .error e → e = .invalidExpression) ∧
    (∀ v, mkTotals v = .error e → e = .invalidExpression) ∧
    (∀ v, mkExtrapolate v = .error e → e = .invalidExpression) ∧
    (∀ n a s d, mkEntity n a s d = .error e → e = .invalidEntity) ∧
    (∀ n s d, mkStorage n s d = .error e → e = .invalidStorage) ∧
    (∀ n x, mkColumn n x = .error e → e = .invalidColumn) ∧
    (∀ c a, mkAliased c a = .error e → e = .invalidExpression) ∧
    (∀ n, mkIdentifier n = .error e → e = .invalidLambda) ∧
    (∀ is b, mkLambda is b = .error e → e = .invalidLambda) ∧
    (∀ o cs, mkBooleanCondition o cs = .error e → e = .invalidCondition) ∧
    (∀ cs, mkAnd cs = .error e → e = .invalidCondition) ∧
    (∀ cs, mkOr cs = .error e → e = .invalidCondition) ∧
    (∀ x d, mkOrderBy x d = .error e → e = .invalidExpression) ∧
    (∀ cs n, mkLimitBy cs n = .error e → e = .invalidExpression) ∧
    (∀ l n r, mkRelationship l n r = .error e → e = .invalidExpression) ∧
    (∀ rs, mkJoin rs = .error e → e = .invalidExpression) := by
  have hint : ∀ {v a b}, validateIntLiteral v a b = .error e → e = .invalidExpression := by
    intro v a b h
    exact intLiteral_error h
  have hsample : ∀ {v e'}, checkSample v e' = .error e → e = e' := by
    intro v e' h
    unfold checkSample at h
    split at h
    · cases h
    · split at h <;> cases h
      rfl
    · cases h; rfl
  have hmodel : ∀ {v e'}, checkDataModel v e' = .error e → e = e' := by
    intro v e' h
    unfold checkDataModel at h
    split at h <;> cases h
    rfl
  have hent : ∀ {v}, checkEntityAlias v = .error e → e = .invalidEntity := by
    intro v h
    unfold checkEntityAlias at h
    split at h
    · cases h
    · split at h <;> cases h
      rfl
    · cases h; rfl
  have hids : ∀ {xs : List Val}, checkIdentifiers xs = .error e → e = .invalidLambda := by
    intro xs
    induction xs with
    | nil => intro h; cases h
    | cons x xs ih =>
      intro h
      simp only [checkIdentifiers, bind_eq_error, ensure_eq_error] at h
      rcases h with h | ⟨_, _, ⟨_, h⟩ | ⟨_, _, h | ⟨_, _, h⟩⟩⟩
      · exact asStr_error h
      · exact h.symm
      · exact ih h
      · cases h
  have hvalid : ∀ {v}, validEntity v = .error e → e = .invalidExpression := by
    intro v h
    unfold validEntity at h
    split at h
    · split at h <;> cases h
      rfl
    · cases h; rfl
  refine ⟨fun v h => ?_, fun v h => ?_, fun v h => ?_, fun v h => ?_, fun v h => ?_, fun n a s d h => ?_, fun n s d h => ?_,
    fun n x h => C08_column_rejects n x e h, fun c a h => ?_, fun n h => ?_, fun is b h => ?_,
    fun o cs h => C11_boolean_rejects o cs e (.inl h), fun cs h => C11_boolean_rejects .none cs e (.inr (.inl h)),
    fun cs h => C11_boolean_rejects .none cs e (.inr (.inr h)), fun x d h => ?_, fun cs n h => C07_limitby_rejects cs n e h,
    fun l n r h => ?_, fun rs h => C12_join_rejects rs e h⟩
  · rcases bind_eq_error.1 h with h | ⟨_, _, h⟩
    · exact hint h
    · cases h
  · rcases bind_eq_error.1 h with h | ⟨_, _, h⟩
    · exact hint h
    · cases h
  · rcases bind_eq_error.1 h with h | ⟨_, _, h⟩
    · exact hint h
    · cases h
  · unfold mkTotals at h
    split at h <;> cases h
    rfl
  · unfold mkExtrapolate at h
    split at h <;> cases h
    rfl
  · simp only [mkEntity, bind_eq_error, ensure_eq_error] at h
    rcases h with h | ⟨_, _, ⟨_, h⟩ | ⟨_, _, h | ⟨_, _, h | ⟨_, _, h | ⟨_, _, h⟩⟩⟩⟩⟩
    · exact asStr_error h
    · exact h.symm
    · exact hsample h
    · exact hent h
    · exact hmodel h
    · cases h
  · simp only [mkStorage, bind_eq_error, ensure_eq_error] at h
    rcases h with h | ⟨_, _, ⟨_, h⟩ | ⟨_, _, h | ⟨_, _, h | ⟨_, _, h⟩⟩⟩⟩
    · exact asStr_error h
    · exact h.symm
    · exact hsample h
    · exact hmodel h
    · cases h
  · simp only [mkAliased, bind_eq_error] at h
    rcases h with h | ⟨_, _, h | ⟨_, _, h⟩⟩
    · unfold asColumn at h
      split at h <;> cases h
      rfl
    · exact checkAlias_error h
    · cases h
  · simp only [mkIdentifier, bind_eq_error, ensure_eq_error] at h
    rcases h with h | ⟨_, _, ⟨_, h⟩ | ⟨_, _, h⟩⟩
    · exact asStr_error h
    · exact h.symm
    · cases h
  · unfold mkLambda at h
    split at h
    · cases h; rfl
    · simp only [bind_eq_error, ensure_eq_error] at h
      rcases h with h | ⟨_, _, ⟨_, h⟩ | ⟨_, _, h⟩⟩
      · exact hids h
      · exact h.symm
      · cases h
  · simp only [mkOrderBy, bind_eq_error, ensure_eq_error] at h
    rcases h with ⟨_, h⟩ | ⟨_, _, h⟩
    · exact h.symm
    · split at h <;> cases h
      rfl
  · simp only [mkRelationship, bind_eq_error, ensure_eq_error] at h
    rcases h with h | ⟨_, _, h | ⟨_, _, h | ⟨_, _, ⟨_, h⟩ | ⟨_, _, h⟩⟩⟩⟩
    · exact hvalid h
    · exact hvalid h
    · exact asStr_error h
    · exact h.symm
    · cases h

/-- **C59** (functions): the constructors of functions raise `InvalidFunctionError`; they raise `InvalidExpressionError` in one case only, when
everything but the parameters is right and the first wrong parameter is a list or tuple with a wrong item at some depth. -/
theorem C59_functions (f i p a : Val) (e : Err) :
    (mkCurried f i p a = .error e → e = .invalidFunction ∨ e = .invalidExpression) ∧
    (mkCurried f i p a = .error .invalidExpression ↔ (∃ x, mkCurried f i .none a = .ok x) ∧
      ∃ k pre x post, SeqOf p k (pre ++ x :: post) ∧ (∀ y ∈ pre, Param y ∨ Scalar y) ∧ BadSeq x) ∧
    (mkFunction f p a = .error e → e = .invalidFunction ∨ e = .invalidExpression) ∧
    (mkFunction f p a = .error .invalidExpression ↔ (∃ x, mkFunction f .none a = .ok x) ∧
      ∃ k pre x post, SeqOf p k (pre ++ x :: post) ∧ (∀ y ∈ pre, Param y ∨ Scalar y) ∧ BadSeq x) := by
  have hc : ∀ i p, (∃ x, mkCurried f i p a = .ok x) ↔ ∃ r, checkCurried f i p a = .ok r := by
    intro i p
    unfold mkCurried
    cases checkCurried f i p a <;> simp [ok_bind, error_bind]
  have hf : ∀ p, (∃ x, mkFunction f p a = .ok x) ↔ ∃ r, checkCurried f .none p a = .ok r := by
    intro p
    unfold mkFunction
    cases checkCurried f .none p a <;> simp [ok_bind, error_bind]
  have hce : ∀ i p e, mkCurried f i p a = .error e ↔ checkCurried f i p a = .error e := by
    intro i p e
    unfold mkCurried
    cases checkCurried f i p a <;> simp [ok_bind, error_bind]
  have hfe : ∀ p e, mkFunction f p a = .error e ↔ checkCurried f .none p a = .error e := by
    intro p e
    unfold mkFunction
    cases checkCurried f .none p a <;> simp [ok_bind, error_bind]
  rw [hce, hce, hfe, hfe, hc, hf]
  exact ⟨checkCurried_error, checkCurried_error_iff, checkCurried_error, checkCurried_error_iff⟩

omit U in
/-- **C59** (conditions): `Condition` raises `InvalidConditionError`; it raises `InvalidExpressionError` exactly when everything but the
right-hand side is right and that side is a list or tuple with a wrong item at some depth. -/
theorem C59_conditions (l op r : Val) (e : Err) :
    (mkCondition l op r = .error e → e = .invalidCondition ∨ e = .invalidExpression) ∧
    (mkCondition l op r = .error .invalidExpression ↔
      ColOrFn l ∧ (∃ o, op = .op o ∧ o ≠ .isNull ∧ o ≠ .isNotNull) ∧ BadSeq r) := by
  have hr : ∀ {e}, checkRhs r = .error e → e = .invalidCondition ∨ e = .invalidExpression := by
    intro e h
    unfold checkRhs at h
    split at h
    · cases h
    · rcases bind_eq_error.1 h with h | ⟨_, _, h⟩
      · exact .inr (isScalar_error h)
      · split at h <;> cases h
        exact .inl rfl
  have key : mkCondition l op r = .error e → e = .invalidCondition ∨
      e = .invalidExpression ∧ ColOrFn l ∧ (∃ o, op = .op o ∧ checkUnary o r = .ok ()) ∧ checkRhs r = .error e := by
    intro h
    unfold mkCondition checkCondition at h
    simp only [bind_eq_error, ensure_eq_error, ensure_eq_ok, isColOrFn_iff, asOp_ok] at h
    rcases h with (⟨_, h⟩ | ⟨_, hl, h | ⟨o, ho, h | ⟨_, hu, h | ⟨_, _, h⟩⟩⟩⟩) | ⟨_, _, h⟩
    · exact .inl h.symm
    · exact .inl (asOp_error h)
    · exact .inl (checkUnary_error h)
    · rcases hr h with rfl | rfl
      · exact .inl rfl
      · exact .inr ⟨rfl, hl, ⟨o, ho, hu⟩, h⟩
    · cases h
    · cases h
  refine ⟨fun h => (key h).imp id And.left, fun h => ?_, fun ⟨hl, ⟨o, ho, h1, h2⟩, hs, hg⟩ => ?_⟩
  · have key' : ColOrFn l ∧ (∃ o, op = .op o ∧ checkUnary o r = .ok ()) ∧ checkRhs r = .error .invalidExpression := by
      unfold mkCondition checkCondition at h
      simp only [bind_eq_error, ensure_eq_error, ensure_eq_ok, isColOrFn_iff, asOp_ok] at h
      rcases h with (⟨_, h⟩ | ⟨_, hl, h | ⟨o, ho, h | ⟨_, hu, h | ⟨_, _, h⟩⟩⟩⟩) | ⟨_, _, h⟩
      · cases h
      · cases asOp_error h
      · cases checkUnary_error h
      · exact ⟨hl, ⟨o, ho, hu⟩, h⟩
      · cases h
      · cases h
    obtain ⟨hl, ⟨o, ho, hu⟩, h⟩ := key'
    have hb : BadSeq r := by
      unfold checkRhs at h
      split at h
      · cases h
      · rcases bind_eq_error.1 h with h | ⟨_, _, h⟩
        · exact (isScalar_error_iff.1 h).2
        · split at h <;> cases h
    refine ⟨hl, ⟨o, ho, ?_, ?_⟩, hb⟩
    · rintro rfl
      have := checkUnary_ok.1 hu (.inl rfl)
      subst this; obtain ⟨hs, _⟩ := hb; cases hs
    · rintro rfl
      have := checkUnary_ok.1 hu (.inr rfl)
      subst this; obtain ⟨hs, _⟩ := hb; cases hs
  · subst ho
    exact (C10_condition_sequence_exact l r o hl ⟨h1, h2⟩ hs).2 hg

end

/-! ### Metrics -/

theorem metric_error {m : MetricObj} {e : Err} (h : m.validate = .error e) : e = .invalidTimeseries := by
  simp only [MetricObj.validate, bind_eq_error, ensure_eq_error] at h
  rcases h with ⟨_, h⟩ | ⟨_, _, ⟨_, h⟩ | ⟨_, _, ⟨_, h⟩ | ⟨_, _, _, h⟩⟩⟩ <;> exact h.symm

theorem timeseries_error {t : TimeseriesObj} {e : Err} (h : t.validate = .error e) : e = .invalidTimeseries := by
  simp only [TimeseriesObj.validate, bind_eq_error, ensure_eq_error] at h
  rcases h with h | ⟨_, _, ⟨_, h⟩ | ⟨_, _, ⟨_, h⟩ | ⟨_, _, ⟨_, h⟩ | ⟨_, _, _, h⟩⟩⟩⟩
  · exact metric_error h
  all_goals exact h.symm

theorem scope_error {s : ScopeObj} {e : Err} (h : s.validate = .error e) : e = .invalidExpression := by
  simp only [ScopeObj.validate, bind_eq_error, ensure_eq_error] at h
  rcases h with ⟨_, h⟩ | ⟨_, _, ⟨_, h⟩ | ⟨_, _, _, h⟩⟩ <;> exact h.symm

theorem mkMetric_error {p m i : Val} {e : Err} (h : mkMetric p m i = .error e) : e = .invalidTimeseries := by
  rcases bind_eq_error.1 h with h | ⟨_, _, h⟩
  · exact metric_error h
  · cases h

theorem mkTimeseries_error {m : MVal} {a p f g : Val} {e : Err} (h : mkTimeseries m a p f g = .error e) : e = .invalidTimeseries := by
  rcases bind_eq_error.1 h with h | ⟨_, _, h⟩
  · cases m <;> simp_all [asMetric]
  · rcases bind_eq_error.1 h with h | ⟨_, _, h⟩
    · exact timeseries_error h
    · cases h

theorem mkScope_error {o p u : Val} {e : Err} (h : mkScope o p u = .error e) : e = .invalidExpression := by
  rcases bind_eq_error.1 h with h | ⟨_, _, h⟩
  · exact scope_error h
  · cases h

/-- **C59** (metrics, construction): whatever the arguments, these constructors raise nothing but the exception of their class. -/
theorem C59_metrics (e : Err) :
    (∀ p m i, mkMetric p m i = .error e → e = .invalidTimeseries) ∧
    (∀ m a p f g, mkTimeseries m a p f g = .error e → e = .invalidTimeseries) ∧
    (∀ o p u, mkScope o p u = .error e → e = .invalidExpression) :=
  ⟨fun _ _ _ => mkMetric_error, fun _ _ _ _ _ => mkTimeseries_error, fun _ _ _ => mkScope_error⟩

/-- **C59** (metrics, setters): on objects that a program can make, a setter of a metric or scope raises `InvalidExpressionError` and does so
exactly for values of the wrong type; a setter of a timeseries raises `InvalidTimeseriesError`. -/
theorem C59_metrics_setters (e : Err) :
    (∀ (m : MetricObj) (v : Val), MadeMetric m → ((m.setMri v = .error e ↔ e = .invalidExpression ∧ ∀ s, v ≠ .str s) ∧
      (m.setPublicName v = .error e ↔ e = .invalidExpression ∧ ∀ s, v ≠ .str s) ∧
      (m.setId v = .error e ↔ e = .invalidExpression ∧ ∀ n, ¬ IntLike v n))) ∧
    (∀ (s : ScopeObj) (v : Val), MadeScope s → (s.setUseCaseId v = .error e ↔ e = .invalidExpression ∧ ∀ u, v ≠ .str u)) ∧
    (∀ t : TimeseriesObj, (∀ x, t.setMetric x = .error e → e = .invalidTimeseries) ∧ (∀ a p, t.setAggregate a p = .error e → e = .invalidTimeseries) ∧
      (∀ f, t.setFilters f = .error e → e = .invalidTimeseries) ∧ (∀ g, t.setGroupby g = .error e → e = .invalidTimeseries)) := by
  have hstr : ∀ v : Val, v.isStr = false ↔ ∀ s, v ≠ .str s := by
    intro v; rw [← Bool.not_eq_true, isStr_iff]; simp
  have hint : ∀ v : Val, v.isInt = false ↔ ∀ n, ¬ IntLike v n := by
    intro v; rw [← Bool.not_eq_true, isInt_iff]; simp
  refine ⟨fun m v hm => ?_, fun s v hs => ?_, fun t => ⟨fun x h => ?_, fun a p h => ?_, fun f h => ?_, fun g h => ?_⟩⟩
  · have hok := C32_made_valid.1 m hm
    have h3 := C32_metric_setters m hok v
    refine ⟨?_, ?_, ?_⟩
    · cases hr : m.setMri v with
      | ok r =>
        obtain ⟨⟨s, hs⟩, _⟩ := (h3 r).1.1 hr
        simp [hs]
      | error e' =>
        have hb : v.isStr = false := by
          cases hb : v.isStr with
          | false => rfl
          | true => exact absurd (((h3 _).1.2 ⟨isStr_iff.1 hb, rfl⟩).symm.trans hr) (by simp)
        have : e' = .invalidExpression := by
          simp only [MetricObj.setMri, hb, ensure, Bool.false_eq_true, if_false, error_bind] at hr; cases hr; rfl
        subst this
        rw [← hstr, hb]
        simp [eq_comm]
    · cases hr : m.setPublicName v with
      | ok r =>
        obtain ⟨⟨s, hs⟩, _⟩ := (h3 r).2.1.1 hr
        simp [hs]
      | error e' =>
        have hb : v.isStr = false := by
          cases hb : v.isStr with
          | false => rfl
          | true => exact absurd (((h3 _).2.1.2 ⟨isStr_iff.1 hb, rfl⟩).symm.trans hr) (by simp)
        have : e' = .invalidExpression := by
          simp only [MetricObj.setPublicName, hb, ensure, Bool.false_eq_true, if_false, error_bind] at hr; cases hr; rfl
        subst this
        rw [← hstr, hb]
        simp [eq_comm]
    · cases hr : m.setId v with
      | ok r =>
        obtain ⟨⟨n, hn⟩, _⟩ := (h3 r).2.2.1 hr
        simp only [reduceCtorEq, false_iff, not_and]
        intro _ h; exact h n hn
      | error e' =>
        have hb : v.isInt = false := by
          cases hb : v.isInt with
          | false => rfl
          | true => exact absurd (((h3 _).2.2.2 ⟨isInt_iff.1 hb, rfl⟩).symm.trans hr) (by simp)
        have : e' = .invalidExpression := by
          simp only [MetricObj.setId, hb, ensure, Bool.false_eq_true, if_false, error_bind] at hr; cases hr; rfl
        subst this
        rw [← hint, hb]
        simp [eq_comm]
  · have hok := C32_made_valid.2.2 s hs
    have h3 := C32_scope_setter s hok v
    cases hr : s.setUseCaseId v with
    | ok r =>
      obtain ⟨⟨s, hs⟩, _⟩ := (h3 r).1 hr
      simp [hs]
    | error e' =>
      have hb : v.isStr = false := by
        cases hb : v.isStr with
        | false => rfl
        | true => exact absurd (((h3 _).2 ⟨isStr_iff.1 hb, rfl⟩).symm.trans hr) (by simp)
      have : e' = .invalidExpression := by
        simp only [ScopeObj.setUseCaseId, hb, ensure, Bool.false_eq_true, if_false, error_bind] at hr; cases hr; rfl
      subst this
      rw [← hstr, hb]
      simp [eq_comm]
  · rcases bind_eq_error.1 h with h | ⟨_, _, h⟩
    · cases x <;> simp_all [asMetric]
    · exact mkTimeseries_error h
  · simp only [TimeseriesObj.setAggregate, bind_eq_error, ensure_eq_error] at h
    rcases h with ⟨_, h⟩ | ⟨_, _, ⟨_, h⟩ | ⟨_, _, h⟩⟩
    · exact h.symm
    · exact h.symm
    · exact mkTimeseries_error h
  · simp only [TimeseriesObj.setFilters, bind_eq_error, ensure_eq_error] at h
    rcases h with ⟨_, h⟩ | ⟨_, _, h⟩
    · exact h.symm
    · exact mkTimeseries_error h
  · simp only [TimeseriesObj.setGroupby, bind_eq_error, ensure_eq_error] at h
    rcases h with ⟨_, h⟩ | ⟨_, _, h⟩
    · exact h.symm
    · exact mkTimeseries_error h

theorem rollup_error {r : RollupObj} {e : Err} (h : r.validate = .error e) :
    e = .invalidExpression ∨ e = .typeError ∧ Empty r.granularity ∧ ∃ n, IntLike r.interval n ∧ 10 ≤ n.toInt := by
  simp only [RollupObj.validate, bind_eq_error, ensure_eq_error] at h
  rcases h with ⟨_, h⟩ | ⟨_, hg, h | ⟨_, _, ⟨_, h⟩ | ⟨_, _, ⟨_, h⟩ | ⟨_, _, ⟨_, h⟩ | ⟨_, _, _, h⟩⟩⟩⟩⟩
  · exact .inl h.symm
  · rw [ensure_eq_ok, granularity_check] at hg
    unfold checkInterval at h
    split at h
    · rcases bind_eq_error.1 h with h | ⟨i, hi, h⟩
      · left
        exact intLiteral_error h
      · split at h
        · rename_i hgiven
          rcases bind_eq_error.1 h with h | ⟨_, _, h⟩
          · right
            rcases hg with hg | hg | ⟨n, _, hg⟩
            · rw [hg] at hgiven; cases hgiven
            · refine ⟨?_, hg, i, ?_⟩
              · generalize r.granularity = g at *
                cases hg <;> cases h <;> rfl
              · unfold validateIntLiteral at hi
                cases hj : r.interval.asInt? with
                | none => rw [hj] at hi; cases hi
                | some j =>
                  simp only [hj, Bool.false_eq_true, if_false] at hi
                  by_cases hlt : j.toInt < 10
                  · simp [hlt] at hi
                  · simp only [hlt, decide_false, Bool.false_eq_true, if_false, Except.ok.injEq] at hi
                    subst hi
                    exact ⟨asInt?_iff.1 hj, by omega⟩
            · rw [intLess_num hg] at h; cases h
          · exact .inl (ensure_eq_error.1 h).2.symm
        · cases h
    · cases h
  all_goals exact .inl h.symm

/-- **C59** (rollups): a rollup raises `InvalidExpressionError`, except for a `TypeError` that escapes exactly if the granularity is an empty
string, bytes, list or tuple and the interval is an integer of at least 10 (snuba_sdk/timeseries.py:192-196 compares the two). -/
theorem C59_rollup (interval totals orderby granularity : Val) (e : Err) :
    (mkRollup interval totals orderby granularity = .error e → e = .invalidExpression ∨ e = .typeError) ∧
    (mkRollup interval totals orderby granularity = .error .typeError ↔
      Empty granularity ∧ ∃ n, IntLike interval n ∧ 10 ≤ n.toInt) := by
  have hmk : ∀ e, mkRollup interval totals orderby granularity = .error e ↔
      (⟨interval, totals, orderby, granularity⟩ : RollupObj).validate = .error e := by
    intro e
    simp only [mkRollup]
    cases RollupObj.validate ⟨interval, totals, orderby, granularity⟩ <;> simp [ok_bind, error_bind]
  rw [hmk, hmk]
  refine ⟨fun h => (rollup_error h).imp id And.left, fun h => ?_, fun ⟨hg, n, hn, hle⟩ => ?_⟩
  · rcases rollup_error h with h | ⟨_, h⟩
    · cases h
    · exact h
  · have h1 : (!granularity.truthy || allowedGranularities.any fun n => pyEq granularity (.int n)) = true :=
      granularity_check.2 (.inr (.inl hg))
    have h2 : granularity.given = true := by cases hg <;> rfl
    have h3 : interval.given = true := by cases hn <;> rfl
    have h4 : validateIntLiteral interval (some 10) none = .ok n := by
      unfold validateIntLiteral
      rw [asInt?_iff.2 hn]
      have : ¬ n.toInt < 10 := by omega
      simp [this]
    have h5 : intLess n.toInt granularity = .error .typeError := by cases hg <;> rfl
    simp only [RollupObj.validate, h1, ensure, if_true, ok_bind, checkInterval, h2, h3, h4, h5, error_bind]

theorem formula_error {n : Val} {p : MVal} {a f g : Val} {e : Err} (h : validateFormula n p g = .error e) :
    e = .invalidFormula ∨ e = .typeError ∧ ∃ y, InFormula (.formula n p a f g) y ∧ Stops y := by
  have hscan := scanFormula_error (.formula n p a f g) e
  simp only [validateFormula, bind_eq_error, ensure_eq_error] at h
  rcases h with ⟨_, h⟩ | ⟨_, _, h⟩
  · exact .inl h.symm
  · split at h
    · cases h; exact .inl rfl
    · simp only [bind_eq_error, ensure_eq_error] at h
      rcases h with ⟨_, h⟩ | ⟨_, _, h | ⟨_, hg, h | ⟨_, _, ⟨_, h⟩ | ⟨_, _, _, h⟩⟩⟩⟩
      · exact .inl h.symm
      · exact .inr (hscan.1 (by simp only [scanFormula, h, error_bind]))
      · exact .inr (hscan.1 (by simp only [scanFormula, hg, h, ok_bind, error_bind]))
      · exact .inl h.symm
      · exact .inl h.symm

/-- **C59** (formulas): validation of a formula raises `InvalidFormulaError`, except for a `TypeError` that escapes exactly if the walk through
the formula meets a groupby that cannot be read as a tuple or holds unhashable values, or parameters that cannot be walked through
(snuba_sdk/formula.py:54-69). -/
theorem C59_formula (name : Val) (params : MVal) (aggregateParams filters groupby : Val) (e : Err) :
    (validateFormula name params groupby = .error e → e = .invalidFormula ∨ e = .typeError) ∧
    (validateFormula name params groupby = .error .typeError →
      ∃ y, InFormula (.formula name params aggregateParams filters groupby) y ∧ Stops y) ∧
    ((∃ s, name = .str s) → (∃ xs, MSeq params xs ∧ ∀ p ∈ xs, FormulaParam p) →
      ((validateFormula name params groupby = .error .typeError) ↔
        ∃ y, InFormula (.formula name params aggregateParams filters groupby) y ∧ Stops y)) := by
  have h2 : validateFormula name params groupby = .error .typeError →
      ∃ y, InFormula (.formula name params aggregateParams filters groupby) y ∧ Stops y := by
    intro h
    rcases formula_error (a := aggregateParams) (f := filters) h with h | ⟨_, h⟩
    · cases h
    · exact h
  refine ⟨fun h => (formula_error (a := .none) (f := .none) h).imp id And.left, h2, fun ⟨s, hs⟩ ⟨xs, hx, hp⟩ => ⟨h2, fun h => ?_⟩⟩
  have hscan := (scanFormula_error (.formula name params aggregateParams filters groupby) .typeError).2 ⟨rfl, h⟩
  have hseq : params.seq? = some xs := by cases hx <;> rfl
  have hall : xs.all MVal.isFormulaParam = true := by
    rw [List.all_eq_true]; exact fun p h => isFormulaParam_iff.2 (hp p h)
  simp only [validateFormula, hs, Val.isStr, hseq, hall, ensure, if_true, ok_bind]
  simp only [scanFormula] at hscan
  cases hg : optGroupKey groupby with
  | error e => rw [hg, error_bind] at hscan; rw [error_bind]; cases hscan; rfl
  | ok r =>
    rw [hg, ok_bind] at hscan
    cases hsp : scanParams params with
    | error e => rw [hsp, error_bind] at hscan; rw [ok_bind, error_bind]; cases hscan; rfl
    | ok r => rw [hsp, ok_bind] at hscan; cases hscan

theorem typed_not_stops {y : MVal} (h : Typed y) : ¬ Stops y := by
  have hg : ∀ g, OptList PlainGroupItem g → Groupable g := by
    rintro g (_ | ⟨xs, h⟩)
    · exact .none
    · refine .items _ _ _ (.list xs) fun x hx hu => ?_
      rcases h x hx with _ | _ <;> cases hu
  intro hs
  cases h with
  | formula n ps a f g hp ho =>
    cases hs with
    | groupby _ _ _ _ _ h => exact h (hg _ ho)
    | params _ _ _ _ _ h =>
      rcases hp with rfl | ⟨xs, hp⟩
      · exact h .none
      · exact h (.items _ _ hp)
  | ts t ho => cases hs with | ts _ h => exact h (hg _ ho)
  | other x h1 h2 =>
    cases hs with
    | groupby => exact h1 _ _ _ _ _ rfl
    | params => exact h1 _ _ _ _ _ rfl
    | ts => exact h2 _ rfl

section
variable [U : PyUnicode] [S : RegexSpace]

theorem checkQuery_error {x : MVal} {e : Err} (h : checkQuery x = .error e) :
    e = .invalidMetricsQuery ∨ e = .invalidTimeseries ∨ e = .invalidFormula ∨
      e = .typeError ∧ ∃ y, InFormula x y ∧ Stops y := by
  have hobj : ∀ {y : MVal}, ((∃ t, y = .ts t) ∨ ∃ n p a f g, y = .formula n p a f g) → y.validateQuery = .error e →
      e = .invalidTimeseries ∨ e = .invalidFormula ∨ e = .typeError ∧ ∃ z, InFormula y z ∧ Stops z := by
    rintro y (⟨t, rfl⟩ | ⟨n, p, a, f, g, rfl⟩) h
    · exact .inl (timeseries_error h)
    · exact .inr (formula_error h)
  unfold checkQuery at h
  split at h
  · rename_i s
    simp only [bind_eq_error, parseChecked] at h
    rcases h with h | ⟨y, hy, h⟩
    · split at h <;> cases h
      exact .inl rfl
    · split at hy
      · rename_i hp
        cases hy
        have hform : (∃ t, y = .ts t) ∨ ∃ n p a f g, y = .formula n p a f g := by
          rcases (C52_parsed_well_formed s y hp).1 with h | ⟨n, ps, a, f, g, h⟩
          · exact .inl h
          · exact .inr ⟨_, _, _, _, _, h⟩
        rcases hobj hform h with h | h | ⟨_, z, hz, hs⟩
        · exact .inr (.inl h)
        · exact .inr (.inr (.inl h))
        · exact absurd hs (typed_not_stops (parsed_typed hp z hz))
      · cases hy
  · exact .inr (hobj (.inl ⟨_, rfl⟩) h)
  · exact .inr (hobj (.inr ⟨_, _, _, _, _, rfl⟩) h)
  · cases h; exact .inl rfl

/-- **C59** (metrics queries): validation raises the exceptions of the metrics query and of its parts, except for the two `TypeError`s above:
of a formula whose walk is stopped, and of a rollup with an empty granularity. A text query never leads to a `TypeError` of the first kind. -/
theorem C59_metrics_query (q : MetricsQueryObj) (e : Err) (h : q.validate = .error e) :
    e ∈ [.invalidMetricsQuery, .invalidTimeseries, .invalidFormula, .invalidExpression] ∨
    (e = .typeError ∧ ((∃ y, InFormula q.query y ∧ Stops y) ∨
      ∃ r, q.rollup = .rollup r ∧ Empty r.granularity ∧ ∃ n, IntLike r.interval n ∧ 10 ≤ n.toInt)) := by
  have htime : ∀ {x}, checkTime x = .error e → e = .invalidMetricsQuery := by
    intro x h
    unfold checkTime at h
    split at h <;> cases h
    rfl
  simp only [MetricsQueryObj.validate, bind_eq_error] at h
  rcases h with h | ⟨_, _, h | ⟨_, _, h | ⟨_, _, h | ⟨_, _, h | ⟨_, _, h | ⟨_, _, h | ⟨_, _, h | ⟨_, _, h⟩⟩⟩⟩⟩⟩⟩⟩
  · rcases checkQuery_error h with rfl | rfl | rfl | ⟨rfl, hw⟩
    · simp
    · simp
    · simp
    · exact .inr ⟨rfl, .inl hw⟩
  · rw [htime h]; simp
  · rw [htime h]; simp
  · generalize hr : q.rollup = x at h
    cases x <;> simp only [checkRollup, bind_eq_error, ensure_eq_error, Except.error.injEq] at h
    case rollup r =>
      rcases h with ⟨_, h⟩ | ⟨_, _, h⟩
      · subst h; simp
      · rcases rollup_error h with rfl | ⟨rfl, hw⟩
        · simp
        · exact .inr ⟨rfl, .inr ⟨r, rfl, hw⟩⟩
    all_goals subst h; simp
  · generalize q.scope = x at h
    cases x <;> simp only [checkScope, Except.error.injEq] at h
    case scope s => rw [scope_error h]; simp
    all_goals subst h; simp
  · unfold checkLimit at h
    split at h
    · cases h
    · rw [← (ensure_eq_error.1 h).2]; simp
    · cases h; simp
  · unfold checkOffset at h
    split at h
    · cases h
    · rw [← (ensure_eq_error.1 h).2]; simp
    · cases h; simp
  · unfold checkExtrapolate at h
    split at h <;> cases h
    simp
  · unfold checkMappings at h
    split at h <;> cases h
    simp

/-! ### Deletions and requests -/

omit U S in
/-- **C59** (deletions): validation raises `InvalidDeleteQueryError`, except for an `AttributeError` exactly if the conditions are no mapping and a
`TypeError` exactly if a value has no length and the values before it are not empty. -/
theorem C59_delete (d : DeleteObj) (e : Err) :
    (d.validate = .error e → e = .invalidDelete ∨ e = .attributeError ∨ e = .typeError) ∧
    (d.validate = .error .attributeError ↔ ∀ kvs, d.columnConditions ≠ .dict kvs) ∧
    (d.validate = .error .typeError ↔ ∃ pre k v post, d.columnConditions = .dict (pre ++ (k, v) :: post) ∧ ¬ Sized v ∧
      ∀ p ∈ pre, SomeValues p.2) := by
  have hlen : ∀ v : Data, ∀ e, v.len = .error e ↔ e = .typeError ∧ ¬ Sized v := by
    intro v e
    constructor
    · intro h
      rcases v with v | xs | kvs
      · cases v <;> simp only [Data.len, Except.error.injEq, reduceCtorEq] at h
        all_goals
          subst h
          refine ⟨rfl, fun h => ?_⟩
          cases h with | vals _ _ _ h => cases h
      · cases h
      · cases h
    · rintro ⟨rfl, h⟩
      rcases v with v | xs | kvs
      · cases v <;> first
          | rfl
          | exact (h (.str _)).elim
          | exact (h (.bytes _)).elim
          | exact (h (.vals _ _ _ (.list _))).elim
          | exact (h (.vals _ _ _ (.tuple _))).elim
      · exact (h (.list _)).elim
      · exact (h (.dict _)).elim
  have hcols : ∀ kvs e, checkColumns kvs = .error e → e = .invalidDelete ∨ e = .typeError := by
    intro kvs
    induction kvs with
    | nil => intro e h; cases h
    | cons p kvs ih =>
      intro e h
      simp only [checkColumns, bind_eq_error, ensure_eq_error] at h
      rcases h with h | ⟨_, _, ⟨_, h⟩ | ⟨_, _, h⟩⟩
      · exact .inr ((hlen _ _).1 h).1
      · exact .inl h.symm
      · exact ih _ h
  have htype : ∀ kvs, checkColumns kvs = .error .typeError ↔ ∃ pre k v post, kvs = pre ++ (k, v) :: post ∧ ¬ Sized v ∧
      ∀ p ∈ pre, SomeValues p.2 := by
    intro kvs
    induction kvs with
    | nil => simp [checkColumns]
    | cons p kvs ih =>
      obtain ⟨k, v⟩ := p
      simp only [checkColumns, bind_eq_error, ensure_eq_error, ensure_eq_ok, reduceCtorEq, and_false, false_or, hlen, true_and, ih]
      constructor
      · rintro (h | ⟨n, hn, _, hne, pre, k', v', post, rfl, h1, h2⟩)
        · exact ⟨[], k, v, kvs, rfl, h, by simp⟩
        · refine ⟨(k, v) :: pre, k', v', post, rfl, h1, ?_⟩
          simp only [List.mem_cons, forall_eq_or_imp]
          exact ⟨(len_ok hn).1 (by simpa using hne), h2⟩
      · rintro ⟨pre, k', v', post, heq, h1, h2⟩
        cases pre with
        | nil => simp only [List.nil_append, List.cons.injEq, Prod.mk.injEq] at heq; obtain ⟨⟨rfl, rfl⟩, _⟩ := heq; exact .inl h1
        | cons q pre =>
          simp only [List.cons_append, List.cons.injEq] at heq
          obtain ⟨rfl, heq⟩ := heq
          simp only [List.mem_cons, forall_eq_or_imp] at h2
          obtain ⟨hs, h2⟩ := h2
          obtain ⟨n, hn, h0⟩ := someValues_len hs
          exact .inr ⟨n, hn, (), by simpa using h0, pre, k', v', post, heq, h1, h2⟩
  unfold DeleteObj.validate
  split
  · rename_i h
    rw [h]
    refine ⟨fun h => by cases h; exact .inl rfl, ?_, ?_⟩
    · simp
    · simp
  · rename_i kvs hne h
    rw [h]
    refine ⟨fun h => (hcols _ _ h).imp id .inr, ?_, ?_⟩
    · constructor
      · intro h; rcases hcols _ _ h with h | h <;> cases h
      · intro h; exact (h _ rfl).elim
    · rw [htype]
      simp only [Data.dict.injEq]
  · rename_i h1 h2
    refine ⟨fun h => by cases h; exact .inr (.inl rfl), ?_, ?_⟩
    · exact ⟨fun _ kvs h => h2 kvs h, fun _ => rfl⟩
    · simp only [Except.error.injEq, reduceCtorEq, false_iff]
      rintro ⟨pre, k, v, post, h, _⟩
      exact h2 _ h

/-- **C59** (requests): validation of a request raises `InvalidRequestError`, `InvalidFlagError` or what the validation of its query raises. -/
theorem C59_request (r : RequestObj) (e : Err) (h : r.validate = .error e) :
    e = .invalidRequest ∨ r.query.validate = .error e ∨ e = .invalidFlag := by
  have hname : ∀ {d}, checkName d = .error e → e = .invalidRequest := by
    intro d h
    unfold checkName at h
    split at h
    · split at h
      · cases h; rfl
      · exact (ensure_eq_error.1 h).2.symm
    · cases h; rfl
  have hflags : ∀ {fs}, checkFlags fs = .error e → e = .invalidFlag := by
    intro fs
    induction fs with
    | nil => intro h; cases h
    | cons p fs ih =>
      intro h
      obtain ⟨k, v⟩ := p
      rcases bind_eq_error.1 h with h | ⟨_, _, h⟩
      · unfold checkFlag at h
        split at h <;> cases h
        rfl
      · exact ih h
  simp only [RequestObj.validate, bind_eq_error] at h
  rcases h with h | ⟨_, _, h | ⟨_, _, h | ⟨_, _, h | ⟨_, _, h | ⟨_, _, h⟩⟩⟩⟩⟩
  · exact .inl (hname h)
  · exact .inl (hname h)
  · left
    unfold checkParent at h
    split at h
    · split at h <;> cases h
      rfl
    · cases h; rfl
  · left
    unfold checkTenants at h
    split at h <;> cases h
    rfl
  · exact .inr (.inl h)
  · unfold validateFlags at h
    split at h
    · cases h
    · exact .inr (.inr (hflags h))

end

/-! ### Queries -/

section
variable [U : PyUnicode]

/-- Queries that a program makes by naming the match in the constructor and giving the clauses to the setters, all arguments being values that
the constructors of the SDK return. -/
inductive Spec.Called : Query → Prop
  | new (m q) : Built m → mkQuery m {} = .ok q → Called q
  | newNested (i q) : Called i → mkNested i {} = .ok q → Called q
  | set (f q v q') : Called q → Built v → setField f q v = .ok q' → Called q'
  | setMatch (q m q') : Called q → Built m → q.setMatch m = .ok q' → Called q'
  | setMatchQuery (q i q') : Called q → Called i → q.setMatchQuery i = .ok q' → Called q'

/-- The data model of an entity or storage. -/
inductive Spec.HasModel : Val → DataModel → Prop
  | entity (e : EntityObj) (d : DataModel) : e.dataModel = some d → HasModel (.entity e) d
  | storage (s : StorageObj) (d : DataModel) : s.dataModel = some d → HasModel (.storage s) d

theorem called_reach {q : Query} (h : Called q) : Reach q := by
  induction h with
  | new m q _ h => exact .new m {} q h
  | newNested i q _ h ih => exact .newNested i {} q ih h
  | set f q v q' _ _ h ih => exact .set f q v q' ih h
  | setMatch q m q' _ _ h ih => exact .setMatch q m q' ih h
  | setMatchQuery q i q' _ _ h ih ih' => exact .setMatchQuery q i q' ih ih' h

/-- The items of a built list are built. -/
theorem built_list {xs : List Val} (hb : Built (.list xs)) : ∀ x ∈ xs, Built x := by
  obtain ⟨h1, h2, h3, h4, h5, h6, h7, h8, h9, h10, h11, h12, h13, h14, h15, h16, h17, h18⟩ := mk_validate (U := U)
  have no : ∀ {P : Prop}, (Val.list xs).validate = .ok () → P := fun h => by cases h
  cases hb with
  | list _ h => exact h
  | literal _ h => cases h
  | limit v _ _ h => exact no (h1 _ _ h)
  | offset v _ _ h => exact no (h2 _ _ h)
  | granularity v _ _ h => exact no (h3 _ _ h)
  | totals v _ _ h => exact no (h4 _ _ h)
  | extrapolate v _ _ h => exact no (h5 _ _ h)
  | column n e _ _ _ h => obtain ⟨_, h, _⟩ := mkColumn_ok h; cases h
  | aliased _ _ _ _ _ h => exact no (h6 _ _ _ h)
  | curried _ _ _ _ _ _ _ _ _ h => exact no (h7 _ _ _ _ _ h)
  | function _ _ _ _ _ _ _ h => exact no (h8 _ _ _ _ h)
  | identifier _ _ _ h => exact no (h9 _ _ h)
  | lambda _ _ _ _ _ h => exact no (h10 _ _ _ h)
  | condition _ _ _ _ _ _ _ h => exact no (h11 _ _ _ _ h)
  | boolean o _ _ _ _ h =>
    cases o <;> simp only [mkBooleanCondition, reduceCtorEq] at h
    exact no (h12 _ _ _ _ h)
  | and _ _ _ h => exact no (h12 _ _ _ _ h)
  | or _ _ _ h => exact no (h12 _ _ _ _ h)
  | orderby _ _ _ _ _ h => exact no (h13 _ _ _ h)
  | limitby _ _ _ _ _ h => exact no (h14 _ _ _ h)
  | entity _ _ _ _ _ _ _ _ _ h => exact no (h15 _ _ _ _ _ h)
  | storage _ _ _ _ _ _ _ h => exact no (h16 _ _ _ _ h)
  | relationship _ _ _ _ _ _ _ h => exact no (h17 _ _ _ _ h)
  | join _ _ _ h => exact no (h18 _ _ h)

/-- What a clause of such a query holds. -/
def Taken (f : Field) (x : Val) : Prop := x = .none ∨ ∃ v, Built v ∧ Accepts f v x

theorem called_taken {q : Query} (h : Called q) : ∀ f : Field, Taken f (f.get q.body) := by
  induction h with
  | new m q _ h =>
    unfold mkQuery at h
    split at h <;> cases h
    intro f; cases f <;> exact .inl rfl
  | newNested i q _ h _ =>
    obtain ⟨_, rfl⟩ := mkNested_ok h
    intro f; cases f <;> exact .inl rfl
  | set f q v q' hq hv h ih =>
    obtain ⟨x, hx, _, hf, hg⟩ := (C54_setter_iff f q q' v (called_reach hq)).1 h
    intro g
    by_cases hgf : g = f
    · subst hgf; rw [hf]; exact .inr ⟨v, hv, hx⟩
    · rw [hg g hgf]; exact ih g
  | setMatch q m q' _ _ h ih => rw [((C21_set_match_effect q q').1 m h).2]; exact ih
  | setMatchQuery q i q' _ _ h ih _ => rw [((C21_set_match_effect q q').2 i h).2]; exact ih

theorem called_match {q : Query} (h : Called q) {m : Val} (hm : matchOf q = .inl m) : Built m := by
  induction h with
  | new m' q hb h =>
    unfold mkQuery at h
    split at h <;> cases h
    cases hm; exact hb
  | newNested i q _ h _ =>
    obtain ⟨_, rfl⟩ := mkNested_ok h
    cases hm
  | set f q v q' _ _ h ih => exact ih ((C21_setter_effect f q q' v h).1 ▸ hm)
  | setMatch q m' q' _ hb h _ => rw [((C21_set_match_effect q q').1 m' h).1] at hm; cases hm; exact hb
  | setMatchQuery q i q' _ _ h _ _ => rw [((C21_set_match_effect q q').2 i h).1] at hm; cases hm

/-- The items of a list clause. -/
theorem taken_list {f : Field} (hf : f ∈ [.select, .groupby, .arrayJoin, .where_, .having, .orderby]) {x : Val} (h : Taken f x) :
    x = .none ∨ ∃ xs, x = .list xs ∧ ∀ y ∈ xs, Built y ∧ Spec.Expr y ∧ ∀ e, y ≠ .extrapolate e := by
  rcases h with h | ⟨v, hb, h⟩
  · exact .inl h
  · right
    cases h with
    | select xs _ h => exact ⟨xs, rfl, fun y hy => ⟨built_list hb y hy, by cases h y hy <;> constructor, by cases h y hy <;> simp⟩⟩
    | groupby xs h => exact ⟨xs, rfl, fun y hy => ⟨built_list hb y hy, by cases h y hy <;> constructor, by cases h y hy <;> simp⟩⟩
    | arrayJoin cs h =>
      refine ⟨_, rfl, fun y hy => ⟨built_list hb y hy, ?_, ?_⟩⟩
      · simp only [List.mem_map] at hy; obtain ⟨c, _, rfl⟩ := hy; constructor
      · simp only [List.mem_map] at hy; obtain ⟨c, _, rfl⟩ := hy; simp
    | where_ xs h => exact ⟨xs, rfl, fun y hy => ⟨built_list hb y hy, by cases h y hy <;> constructor, by cases h y hy <;> simp⟩⟩
    | having xs h => exact ⟨xs, rfl, fun y hy => ⟨built_list hb y hy, by cases h y hy <;> constructor, by cases h y hy <;> simp⟩⟩
    | orderby xs h => exact ⟨xs, rfl, fun y hy => ⟨built_list hb y hy, by cases h y hy <;> constructor, by cases h y hy <;> simp⟩⟩
    | limitby => simp at hf
    | limit => simp at hf
    | offset => simp at hf
    | granularity => simp at hf
    | totals => simp at hf

/-- The value of another clause. -/
theorem taken_one {f : Field} (hf : f ∈ [.limitby, .limit, .offset, .granularity, .totals]) {x : Val} (h : Taken f x) :
    x = .none ∨ Built x ∧ Spec.Expr x ∧ ¬ ModelMismatch x ∧ ∀ e, x ≠ .extrapolate e := by
  rcases h with h | ⟨v, hb, h⟩
  · exact .inl h
  · right
    cases h with
    | limitby k cs n => exact ⟨hb, .limitby .., (by rintro ⟨_, _, _, _, h, _⟩; cases h), by simp⟩
    | limit _ n h1 h2 h3 =>
      exact ⟨.limit _ _ hb ((C07_limit_accepts_iff _ _).2 ⟨n, h1, h2, h3, rfl⟩), .limit _, (by rintro ⟨_, _, _, _, h, _⟩; cases h), by simp⟩
    | offset _ n h1 h2 =>
      exact ⟨.offset _ _ hb ((C07_offset_accepts_iff _ _).2 ⟨n, h1, h2, rfl⟩), .offset _, (by rintro ⟨_, _, _, _, h, _⟩; cases h), by simp⟩
    | granularity _ n h1 h2 =>
      exact ⟨.granularity _ _ hb ((C07_granularity_accepts_iff _ _).2 ⟨n, h1, h2, rfl⟩), .granularity _,
        (by rintro ⟨_, _, _, _, h, _⟩; cases h), by simp⟩
    | totals b => exact ⟨.totals _ _ hb rfl, .totals _, (by rintro ⟨_, _, _, _, h, _⟩; cases h), by simp⟩
    | select => simp at hf
    | groupby => simp at hf
    | arrayJoin => simp at hf
    | where_ => simp at hf
    | having => simp at hf
    | orderby => simp at hf

theorem validateAll_cases : ∀ {xs : List Val}, (∀ x ∈ xs, Built x ∧ Spec.Expr x ∧ ∀ e, x ≠ .extrapolate e) →
    (validateAll xs = .error .invalidColumn ∧ ∃ x ∈ xs, ModelMismatch x) ∨ ∀ x ∈ xs, ¬ ModelMismatch x
  | [], _ => .inr (by simp)
  | x :: xs, h => by
    simp only [List.mem_cons, forall_eq_or_imp] at h
    by_cases hx : ModelMismatch x
    · left
      refine ⟨?_, x, by simp, hx⟩
      simp only [validateAll, C13_mismatch_rejected x h.1.1 hx, error_bind]
    · rcases validateAll_cases h.2 with ⟨he, y, hy, hm⟩ | hn
      · left
        refine ⟨?_, y, by simp [hy], hm⟩
        simp only [validateAll, C13_built_stay_valid_partial x h.1.1 h.1.2.1 hx, ok_bind, he]
      · right
        simp only [List.mem_cons, forall_eq_or_imp]
        exact ⟨hx, hn⟩

theorem listValidate_cases {f : Field} (hf : f ∈ [.select, .groupby, .arrayJoin, .where_, .having, .orderby]) {x : Val} (h : Taken f x) :
    (listValidate x = .error .invalidColumn ∧ ∃ k xs, SeqOf x k xs ∧ ∃ y ∈ xs, ModelMismatch y) ∨ ListClauseBuilt x := by
  rcases taken_list hf h with rfl | ⟨xs, rfl, hx⟩
  · exact .inr (.inl rfl)
  · rcases validateAll_cases hx with ⟨he, hm⟩ | hn
    · exact .inl ⟨by simp [listValidate, Val.iter, Val.seq?, he, ok_bind], _, xs, .list xs, hm⟩
    · exact .inr (.inr ⟨_, xs, .list xs, fun y hy => ⟨(hx y hy).1, (hx y hy).2.1, hn y hy⟩⟩)

theorem bodyBuilt_cases {b : Body} (h : ∀ f : Field, Taken f (f.get b)) :
    (validateClauses b = .error .invalidColumn ∧ ∃ x, HasItem b x ∧ ModelMismatch x) ∨ BodyBuilt b := by
  have ho : ∀ f ∈ [Field.limitby, .limit, .offset, .granularity, .totals], OptClauseBuilt (f.get b) := by
    intro f hf
    rcases taken_one hf (h f) with h | ⟨h1, h2, h3, _⟩
    · exact .inl h
    · exact .inr ⟨h1, h2, h3⟩
  have hitem : ∀ v ∈ [b.select, b.groupby, b.arrayJoin, b.where_, b.having, b.orderby],
      (∃ k xs, SeqOf v k xs ∧ ∃ y ∈ xs, ModelMismatch y) → ∃ x, HasItem b x ∧ ModelMismatch x := by
    rintro v hv ⟨k, xs, hs, y, hy, hm⟩
    exact ⟨y, .inl ⟨v, hv, k, xs, hs, hy⟩, hm⟩
  rcases listValidate_cases (by simp) (h .select) with ⟨he, hm⟩ | h1
  · exact .inl ⟨by simp only [validateClauses, show listValidate b.select = _ from he, error_bind], hitem _ (by simp [Field.get]) hm⟩
  rcases listValidate_cases (by simp) (h .groupby) with ⟨he, hm⟩ | h2
  · exact .inl ⟨by simp only [validateClauses, listValidate_built h1, Field.get, show listValidate b.groupby = _ from he, error_bind,
      show listValidate b.select = _ from listValidate_built h1, ok_bind], hitem _ (by simp [Field.get]) hm⟩
  rcases listValidate_cases (by simp) (h .arrayJoin) with ⟨he, hm⟩ | h3
  · exact .inl ⟨by simp only [validateClauses, show listValidate b.select = _ from listValidate_built h1,
      show listValidate b.groupby = _ from listValidate_built h2, show listValidate b.arrayJoin = _ from he, ok_bind, error_bind],
      hitem _ (by simp [Field.get]) hm⟩
  rcases listValidate_cases (by simp) (h .where_) with ⟨he, hm⟩ | h4
  · exact .inl ⟨by simp only [validateClauses, show listValidate b.select = _ from listValidate_built h1,
      show listValidate b.groupby = _ from listValidate_built h2, show listValidate b.arrayJoin = _ from listValidate_built h3,
      show listValidate b.where_ = _ from he, ok_bind, error_bind], hitem _ (by simp [Field.get]) hm⟩
  rcases listValidate_cases (by simp) (h .having) with ⟨he, hm⟩ | h5
  · exact .inl ⟨by simp only [validateClauses, show listValidate b.select = _ from listValidate_built h1,
      show listValidate b.groupby = _ from listValidate_built h2, show listValidate b.arrayJoin = _ from listValidate_built h3,
      show listValidate b.where_ = _ from listValidate_built h4, show listValidate b.having = _ from he, ok_bind, error_bind],
      hitem _ (by simp [Field.get]) hm⟩
  rcases listValidate_cases (by simp) (h .orderby) with ⟨he, hm⟩ | h6
  · exact .inl ⟨by simp only [validateClauses, show listValidate b.select = _ from listValidate_built h1,
      show listValidate b.groupby = _ from listValidate_built h2, show listValidate b.arrayJoin = _ from listValidate_built h3,
      show listValidate b.where_ = _ from listValidate_built h4, show listValidate b.having = _ from listValidate_built h5,
      show listValidate b.orderby = _ from he, ok_bind, error_bind], hitem _ (by simp [Field.get]) hm⟩
  exact .inr ⟨h1, h2, h3, h4, h5, h6, ho .limitby (by simp), ho .limit (by simp), ho .offset (by simp), ho .granularity (by simp),
    ho .totals (by simp)⟩

theorem taken_noExtrapolate {b : Body} (h : ∀ f : Field, Taken f (f.get b)) (e : Bool) : ¬ HasItem b (.extrapolate e) := by
  rintro (⟨v, hv, k, xs, hs, hx⟩ | hx)
  · have key : ∀ f ∈ [Field.select, .groupby, .arrayJoin, .where_, .having, .orderby], v = f.get b → False := by
      rintro f hf rfl
      rcases taken_list hf (h f) with h0 | ⟨ys, h0, hy⟩
      · rw [h0] at hs; cases hs
      · rw [h0] at hs; cases hs; exact (hy _ hx).2.2 e rfl
    simp only [List.mem_cons, List.not_mem_nil, or_false] at hv
    rcases hv with hv | hv | hv | hv | hv | hv
    · exact key .select (by simp) hv
    · exact key .groupby (by simp) hv
    · exact key .arrayJoin (by simp) hv
    · exact key .where_ (by simp) hv
    · exact key .having (by simp) hv
    · exact key .orderby (by simp) hv
  · have key : ∀ f ∈ [Field.limitby, .limit, .offset, .granularity, .totals], .extrapolate e = f.get b → False := by
      intro f hf h0
      rcases taken_one hf (h f) with h1 | ⟨_, _, _, h1⟩
      · rw [h1] at h0; cases h0
      · exact h1 e h0.symm
    simp only [List.mem_cons, List.not_mem_nil, or_false] at hx
    rcases hx with hv | hv | hv | hv | hv
    · exact key .limitby (by simp) hv
    · exact key .limit (by simp) hv
    · exact key .offset (by simp) hv
    · exact key .granularity (by simp) hv
    · exact key .totals (by simp) hv

theorem taken_combine {b : Body} (h : ∀ f : Field, Taken f (f.get b)) {e : Err} (he : combineChecks b = .error e) :
    e = .invalidQuery ∧ ¬ Complete b := by
  refine ⟨?_, fun hc => by rw [combineChecks_complete hc] at he; cases he⟩
  simp only [combineChecks, bind_eq_error, ensure_eq_error] at he
  rcases he with he | ⟨_, _, ⟨_, he⟩ | ⟨_, _, he | ⟨_, _, _, he⟩⟩⟩
  · exfalso
    rcases taken_list (by simp) (h .select) with h0 | ⟨xs, h0, _⟩
    · simp only [Field.get] at h0; rw [h0] at he; cases he
    · simp only [Field.get] at h0; rw [h0] at he; cases he
  · exact he.symm
  · exfalso
    rcases h .totals with h0 | ⟨v, _, h0⟩
    · simp only [Field.get] at h0; rw [h0] at he; cases he
    · simp only [Field.get] at h0
      generalize b.totals = t at h0 he
      cases h0; cases he
  · exact he.symm

/-- **C59** (queries): the validation of a query that a program makes by naming its match and calling the setters raises one of three exceptions,
each for its own reason: `InvalidQueryError` if the select list is missing or totals come without groupby, `InvalidMatchError` if a
column on a join has no entity of the join, or a column on a subquery is not one of its outputs, and `InvalidColumnError` if a column is not in the data model of the match or of its own entity. -/
theorem C59_query (q : Query) (hq : Called q) (e : Err) (h : q.validate = .error e) :
    (e = .invalidQuery ∧ ¬ Complete q.body) ∨
    (e = .invalidMatch ∧ ∃ c, OccursInBody c q.body ∧
      ((∃ k rs, matchOf q = .inl (.join k rs) ∧ ¬ ∃ n a, c.entity = some n ∧ n.alias = some a ∧ Uses rs a n.name) ∨
      ∃ i k xs, matchOf q = .inr i ∧ SeqOf i.body.select k xs ∧ ¬ ∃ x ∈ xs, (∃ d, x = .column d ∧ d.name = c.name) ∨
        ∃ f n ik is pk ps, x = .curried f n ik is pk ps (some c.name))) ∨
    (e = .invalidColumn ∧ ((∃ m d c, matchOf q = .inl m ∧ HasModel m d ∧ OccursInBody c q.body ∧ ¬ ∃ x ∈ d.columns, x.name = lookupName c) ∨
      ∃ x, HasItem q.body x ∧ ModelMismatch x)) := by
  have ht := called_taken hq
  cases q with
  | base m b =>
    have hbm := called_match hq rfl
    have hmm := reach_match (called_reach hq) (m := m) rfl
    simp only [Query.body] at ht ⊢
    have hmv : m.validate = .ok () := by
      refine C13_built_stay_valid_partial m hbm ?_ ?_
      · cases m <;> first | constructor | cases hmm
      · rintro ⟨_, _, _, _, rfl, _⟩; cases hmm
    rcases bodyBuilt_cases ht with ⟨he, hx⟩ | hb
    · simp only [Query.validate, hmv, he, ok_bind, error_bind] at h
      cases h; exact .inr (.inr ⟨rfl, .inr hx⟩)
    · obtain ⟨cs, hcs⟩ := searchBody_total hb (taken_noExtrapolate ht)
      have hmodel : ∀ dm, (dm = none ∨ ∃ d, dm = some d ∧ HasModel m d) →
          validateModel dm cs = .error e → e = .invalidColumn ∧
            ∃ m' d c, matchOf (.base m b) = .inl m' ∧ HasModel m' d ∧ OccursInBody c b ∧ ¬ ∃ x ∈ d.columns, x.name = lookupName c := by
        intro dm hdm he
        have hne : ¬ validateModel dm cs = .ok () := by rw [he]; simp
        have := validateModel_error hne
        rw [this] at he; cases he
        refine ⟨rfl, ?_⟩
        rw [validateModel_iff] at hne
        have ⟨c, hc, hcv⟩ : ∃ c ∈ cs, ¬ c.validateDataModel dm = .ok () := by
          apply Classical.byContradiction
          intro hno
          exact hne fun c hc => Classical.byContradiction fun hv => hno ⟨c, hc, hv⟩
        have ho := (searchBody_mem hcs).1 hc
        rcases hdm with rfl | ⟨d, rfl, hd⟩
        · exact absurd rfl hcv
        · exact ⟨m, d, c, rfl, hd, ho, fun hin => hcv (containsModel (subscriptable_ne_nil (occursInBody_colOk hb ho)) hin)⟩
      simp only [Query.validate, hmv, validateClauses_built hb, ok_bind, bind_eq_error] at h
      rcases h with h | ⟨_, _, h⟩
      · simp only [validateMatchBase, hcs, ok_bind] at h
        cases m <;> first | (cases hmm; done) | skip
        case entity en =>
          have hd : en.dataModel = none ∨ ∃ d, en.dataModel = some d ∧ HasModel (.entity en) d := by
            cases hdm : en.dataModel with
            | none => exact .inl rfl
            | some d => exact .inr ⟨d, rfl, .entity _ _ hdm⟩
          obtain ⟨h1, h2⟩ := hmodel _ hd h
          exact .inr (.inr ⟨h1, .inl h2⟩)
        case storage st =>
          have hd : st.dataModel = none ∨ ∃ d, st.dataModel = some d ∧ HasModel (.storage st) d := by
            cases hdm : st.dataModel with
            | none => exact .inl rfl
            | some d => exact .inr ⟨d, rfl, .storage _ _ hdm⟩
          obtain ⟨h1, h2⟩ := hmodel _ hd h
          exact .inr (.inr ⟨h1, .inl h2⟩)
        case join k rs =>
          have hfun : ∀ a n n', Uses rs a n → Uses rs a n' → n = n' := by
            cases built_wf hbm with
            | literal _ h => cases h
            | join _ _ _ _ h => exact h
          have hne : ¬ validateJoin rs cs = .ok () := by intro h0; simp [h0] at h
          rw [validateJoin_iff hfun] at hne
          obtain ⟨c, hc⟩ := Classical.not_forall.1 hne
          obtain ⟨hc, hn⟩ := Classical.not_imp.1 hc
          exact .inr (.inl ⟨(ensure_eq_error.1 h).2.symm, c, (searchBody_mem hcs).1 hc, .inl ⟨k, rs, rfl, hn⟩⟩)
      · exact .inl (taken_combine ht h)
  | nested i b =>
    have hiv := reach_inner (called_reach hq) (i := i) rfl
    simp only [Query.body] at ht ⊢
    rcases bodyBuilt_cases ht with ⟨he, hx⟩ | hb
    · simp only [Query.validate, hiv, he, ok_bind, error_bind] at h
      cases h; exact .inr (.inr ⟨rfl, .inr hx⟩)
    · obtain ⟨cs, hcs⟩ := searchBody_total hb (taken_noExtrapolate ht)
      simp only [Query.validate, hiv, validateClauses_built hb, hcs, ok_bind, bind_eq_error] at h
      rcases h with h | ⟨_, _, h⟩
      · obtain ⟨⟨k, xs, hs, _⟩, _⟩ := body_complete hiv
        have hne : ¬ validateSubquery i.body cs = .ok () := by rw [h]; simp
        rw [validateSubquery_iff hs] at hne
        obtain ⟨c, hc⟩ := Classical.not_forall.1 hne
        obtain ⟨hc, hn⟩ := Classical.not_imp.1 hc
        have hsel : validateSubquery i.body cs = ensure (cs.all fun c => (innerNames xs).contains (some c.name)) .invalidMatch := by
          unfold validateSubquery
          generalize i.body.select = v at hs
          cases hs <;> rfl
        rw [hsel] at h
        exact .inr (.inl ⟨(ensure_eq_error.1 h).2.symm, c, (searchBody_mem hcs).1 hc, .inr ⟨i, k, xs, rfl, hs, hn⟩⟩)
      · exact .inl (taken_combine ht h)

end

section Examples
open Ex
attribute [local instance] asciiUnicode pySpace

/-- C59: a wrong value raises the exception of the class, be it a wrong text, a wrong type or a wrong part. -/
example : mkLimit (.str c!"ten") = .error .invalidExpression ∧ mkLimit (.int 10001) = .error .invalidExpression ∧
    mkColumn (.str c!"no spaces") .none = .error .invalidColumn ∧ mkColumn (.list []) .none = .error .invalidColumn ∧
    mkEntity (.int 1) .none .none .none = .error .invalidEntity ∧ mkAnd (.list [col c!"a"]) = .error .invalidCondition ∧
    mkLambda (.list [col c!"a"]) (col c!"a") = .error .invalidLambda ∧ mkJoin (.list [col c!"a"]) = .error .invalidExpression :=
  ⟨rfl, rfl, rfl, rfl, rfl, rfl, rfl, rfl⟩
example := (C59_expressions _).1 (.str c!"ten") (rfl : mkLimit (.str c!"ten") = .error .invalidExpression)

/-- C59: a wrong parameter raises `InvalidFunctionError`, a list with a wrong item `InvalidExpressionError`, unless another parameter before it
is wrong. -/
example : mkFunction (.str c!"count") (.list [col c!"x", .other 0]) .none = .error .invalidFunction ∧
    mkFunction (.str c!"count") (.list [col c!"x", .list [.int 1, .other 0]]) .none = .error .invalidExpression ∧
    mkFunction (.str c!"count") (.list [.other 0, .list [.int 1, .other 0]]) .none = .error .invalidFunction ∧
    mkFunction (.str c!"a b!") (.list [.list [.other 0]]) .none = .error .invalidFunction :=
  ⟨rfl, rfl, rfl, rfl⟩
example := (C59_functions (.str c!"count") .none (.list [col c!"x", .list [.int 1, .other 0]]) .none .invalidExpression).2.2.2.1 rfl

/-- C59: so does a condition. -/
example : mkCondition (col c!"a") (.op .eq) (.other 0) = .error .invalidCondition ∧
    mkCondition (col c!"a") (.op .in_) (.list [.int 1, .other 0]) = .error .invalidExpression ∧
    mkCondition (col c!"a") (.op .isNull) (.list [.other 0]) = .error .invalidCondition :=
  ⟨rfl, rfl, rfl⟩
example := (C59_conditions (col c!"a") (.op .in_) (.list [.int 1, .other 0]) .invalidExpression).2.1 rfl

/-- C59: metrics, timeseries, scopes and their setters. -/
example : mkMetric .none .none .none = .error .invalidTimeseries ∧ mkScope (.list [.str c!"1"]) (.list [.int 1]) .none = .error .invalidExpression ∧
    (⟨.str c!"a", .none, .none⟩ : MetricObj).setId (.str c!"1") = .error .invalidExpression :=
  ⟨rfl, rfl, rfl⟩
example := (C59_metrics .invalidTimeseries).1 .none .none .none rfl
example := (((C59_metrics_setters .invalidExpression).1 ⟨.str c!"a", .none, .none⟩ (.str c!"1")
  (.new (.str c!"a") .none .none _ rfl)).2.2).1 rfl

/-- C59: an empty string as granularity leads to a comparison of a string and a number if there is an interval. -/
example : mkRollup (.int 60) .none .none (.str []) = .error .typeError ∧ mkRollup .none (.bool true) .none (.str []) = .ok ⟨.none, .bool true, .none, .str []⟩ ∧
    mkRollup (.int 5) .none .none (.str []) = .error .invalidExpression ∧ mkRollup (.int 60) .none .none (.int 61) = .error .invalidExpression :=
  ⟨rfl, rfl, rfl, rfl⟩
example := (C59_rollup (.int 60) .none .none (.str []) .typeError).2.2 ⟨.str, .int 60, .int 60, by decide⟩

/-- C59: a number as groupby of a formula, and a function of a list as groupby of a timeseries in it. -/
example : validateFormula (.str c!"plus") (.list [grouped c!"a" []]) (.int 5) = .error .typeError ∧
    validateFormula (.str c!"plus") (.list [.ts ⟨⟨.str c!"a", .none, .none⟩, .str c!"sum", .none, .none, .list [count]⟩]) .none =
      .error .typeError ∧
    validateFormula (.str c!"plus") (.list [.val (.str c!"a")]) (.int 5) = .error .invalidFormula :=
  ⟨rfl, rfl, rfl⟩
example := (C59_formula (.str c!"plus") (.list [grouped c!"a" []]) .none .none (.int 5) .typeError).2.1 rfl

/-- C59: a metrics query around such a formula. -/
example : (exMetricsQuery (.formula (.str c!"plus") (.list [grouped c!"a" []]) .none .none (.int 5))).validate = .error .typeError := rfl
example := C59_metrics_query (exMetricsQuery (.formula (.str c!"plus") (.list [grouped c!"a" []]) .none .none (.int 5))) .typeError rfl

/-- C59: a value without length, an empty one before it, and conditions that are no mapping. -/
example : (⟨.val (.str c!"st"), .dict [(c!"a", .list [.val (.int 1)]), (c!"b", .val (.int 2))]⟩ : DeleteObj).validate = .error .typeError ∧
    (⟨.val (.str c!"st"), .dict [(c!"a", .list []), (c!"b", .val (.int 2))]⟩ : DeleteObj).validate = .error .invalidDelete ∧
    (⟨.val (.str c!"st"), .list []⟩ : DeleteObj).validate = .error .attributeError :=
  ⟨rfl, rfl, rfl⟩
example := (C59_delete ⟨.val (.str c!"st"), .dict [(c!"a", .list [.val (.int 1)]), (c!"b", .val (.int 2))]⟩ .typeError).2.2.1 rfl

/-- C59: a request with a wrong flag and one with an incomplete query. -/
example : ({ exRequest (.snql exSnql) with flags := some { turbo := .int 1 } } : RequestObj).validate = .error .invalidFlag ∧
    (exRequest (.snql (.base (.entity events) {}))).validate = .error .invalidQuery := ⟨rfl, rfl⟩
example := C59_request (exRequest (.snql (.base (.entity events) {}))) .invalidQuery rfl

/-- An entity with a data model of one column, and a query on it for another column. -/
private def exModelled : EntityObj := ⟨c!"events", none, none, some ⟨[⟨c!"a", false⟩], ⟨c!"time", true⟩⟩⟩

private theorem exModelled_built : Built (.entity exModelled) :=
  .entity (.str c!"events") .none .none (.dataModel ⟨[⟨c!"a", false⟩], ⟨c!"time", true⟩⟩) _ (.literal _ (.str _)) (.literal _ .none) (.literal _ .none)
    (.dataModel _) rfl

/-- C59: the three exceptions of a query. -/
private theorem exCalled : Called (.base (.entity exModelled) (body [col c!"b"])) :=
  .set .select (.base (.entity exModelled) {}) (.list [col c!"b"]) _ (.new _ _ exModelled_built rfl)
    (.list _ (by intro x hx; simp at hx; subst hx; exact col_built _ rfl)) rfl
example : (Query.base (.entity exModelled) (body [col c!"b"])).validate = .error .invalidColumn ∧
    (Query.base (.entity exModelled) {}).validate = .error .invalidQuery ∧
    (Query.nested inner (body [col c!"zz"])).validate = .error .invalidMatch := ⟨rfl, rfl, rfl⟩
example := C59_query _ exCalled .invalidColumn rfl

end Examples

end Verif
