import Verif.Lemmas.Built

/-!
# C13: constructed expressions stay valid
-/

namespace Verif
open Spec

section
variable [U : PyUnicode]

/-- The excluded case: a subscripted column on an entity with a data model that does not
list the part before the bracket. (Construction looks up the whole name, because `subscriptable` is not yet
set; re-validation looks up the part before the bracket.) -/
def Spec.ModelMismatch (v : Val) : Prop :=
  ∃ c e d s, v = .column c ∧ c.entity = some e ∧ e.dataModel = some d ∧ c.subscriptable = some s ∧
    ¬ ∃ m ∈ d.columns, m.name = s

theorem subscriptable_ne_nil {c : ColumnObj} (h : ColOk c) : c.subscriptable ≠ some [] := by
  intro hs
  rw [h.sub.1] at hs
  have hm := h.name
  rw [columnNameRe_iff, optNewline_iff] at hm
  obtain ⟨b, t, hb, hn, _⟩ := hm
  have : ∃ x xs, c.name = x :: xs ∧ x ≠ '[' := by
    rcases hb with hi | ⟨i, k, hi, _, rfl⟩
    · have hnb := (colIdent_no_bracket hi).1
      obtain ⟨x, u, rfl, _⟩ := hi
      exact ⟨x, u ++ t, hn, by rintro rfl; simp at hnb⟩
    · have hnb := (colIdent_no_bracket hi).1
      obtain ⟨x, u, rfl, _⟩ := hi
      exact ⟨x, _, hn, by rintro rfl; simp at hnb⟩
  obtain ⟨x, xs, hx, hne⟩ := this
  rw [hx] at hs
  simp [splitSubscript, splitOnce, hne] at hs

/-- **C13** (partial: excludes `ModelMismatch`, for which the statement is false, see
`C13_violated_by_subscripted_columns`). Any expression built with the SDK's constructors
validates again. -/
theorem C13_built_stay_valid_partial (v : Val) (hb : Built v) (he : Expr v) (hm : ¬ ModelMismatch v) :
    v.validate = .ok () := by
  obtain ⟨h1, h2, h3, h4, h5, h6, h7, h8, h9, h10, h11, h12, h13, h14, h15, h16, h17, h18⟩ :=
    mk_validate (U := U)
  cases hb with
  | literal _ h => cases h <;> cases he
  | list => cases he
  | tuple => cases he
  | op => cases he
  | boolOp => cases he
  | direction => cases he
  | dataModel => cases he
  | other => cases he
  | limit _ _ _ h => exact h1 _ _ h
  | offset _ _ _ h => exact h2 _ _ h
  | granularity _ _ _ h => exact h3 _ _ h
  | totals _ _ _ h => exact h4 _ _ h
  | extrapolate _ _ _ h => exact h5 _ _ h
  | column n e _ _ _ h =>
    obtain ⟨c, rfl, hc, _⟩ := mkColumn_ok h
    have : ∃ c', c.validate = .ok c' := by
      rw [colOk_validate_iff hc]
      intro e d s he hd hs
      have hne : s ≠ [] := by rintro rfl; exact subscriptable_ne_nil hc hs
      rw [if_neg hne]
      exact Classical.not_not.1 fun hn => hm ⟨c, e, d, s, rfl, he, hd, hs, hn⟩
    obtain ⟨c', hc'⟩ := this
    simp [Val.validate, hc']
  | aliased _ _ _ _ _ h => exact h6 _ _ _ h
  | curried _ _ _ _ _ _ _ _ _ h => exact h7 _ _ _ _ _ h
  | function _ _ _ _ _ _ _ h => exact h8 _ _ _ _ h
  | identifier _ _ _ h => exact h9 _ _ h
  | lambda _ _ _ _ _ h => exact h10 _ _ _ h
  | condition _ _ _ _ _ _ _ h => exact h11 _ _ _ _ h
  | boolean o _ _ _ _ h =>
    cases o <;> simp only [mkBooleanCondition, reduceCtorEq] at h
    exact h12 _ _ _ _ h
  | and _ _ _ h => exact h12 _ _ _ _ h
  | or _ _ _ h => exact h12 _ _ _ _ h
  | orderby _ _ _ _ _ h => exact h13 _ _ _ h
  | limitby _ _ _ _ _ h => exact h14 _ _ _ h
  | entity _ _ _ _ _ _ _ _ _ h => exact h15 _ _ _ _ _ h
  | storage _ _ _ _ _ _ _ h => exact h16 _ _ _ _ h
  | relationship _ _ _ _ _ _ _ h => exact h17 _ _ _ _ h
  | join _ _ _ h => exact h18 _ _ h

/-- **C13**: the excluded case always fails: a mismatching column is rejected by its own `validate()`. -/
theorem C13_mismatch_rejected (v : Val) (hb : Built v) (hm : ModelMismatch v) :
    v.validate = .error .invalidColumn := by
  obtain ⟨c, e, d, s, rfl, he, hd, hs, hn⟩ := hm
  have hc : ColOk c := by
    cases hb with
    | literal _ h => cases h
    | column n e _ _ _ h => obtain ⟨c', h', hc, _⟩ := mkColumn_ok h; cases h'; exact hc
    | limit _ _ _ h => obtain ⟨_, _, _, _, h⟩ := (C07_limit_accepts_iff _ _).1 h; cases h
    | offset _ _ _ h => obtain ⟨_, _, _, h⟩ := (C07_offset_accepts_iff _ _).1 h; cases h
    | granularity _ _ _ h => obtain ⟨_, _, _, h⟩ := (C07_granularity_accepts_iff _ _).1 h; cases h
    | totals _ _ _ h => obtain ⟨_, _, h⟩ := (C07_totals_extrapolate_accept_iff _ _).1.1 h; cases h
    | extrapolate _ _ _ h => obtain ⟨_, _, h⟩ := (C07_totals_extrapolate_accept_iff _ _).2.1 h; cases h
    | aliased _ _ _ _ _ h =>
      simp only [mkAliased, bind_eq_ok, Except.ok.injEq, reduceCtorEq, and_false, exists_false] at h
    | curried _ _ _ _ _ _ _ _ _ h =>
      simp only [mkCurried, bind_eq_ok, Except.ok.injEq, reduceCtorEq, and_false, exists_false] at h
    | function _ _ _ _ _ _ _ h =>
      simp only [mkFunction, bind_eq_ok, Except.ok.injEq, reduceCtorEq, and_false, exists_false] at h
    | identifier _ _ _ h =>
      simp only [mkIdentifier, bind_eq_ok, Except.ok.injEq, reduceCtorEq, and_false, exists_false] at h
    | lambda _ _ _ _ _ h => obtain ⟨_, _, _, _, _, h⟩ := (C09_lambda_accepts_iff _ _ _).1 h; cases h
    | condition _ _ _ _ _ _ _ h =>
      simp only [mkCondition, bind_eq_ok, Except.ok.injEq, reduceCtorEq, and_false, exists_false] at h
    | boolean o _ _ _ _ h =>
      cases o <;> simp only [mkBooleanCondition, reduceCtorEq] at h
      obtain ⟨_, _, _, _, _, h⟩ := (mkBool_ok_iff _ _ _ _).1 h; cases h
    | and _ _ _ h => obtain ⟨_, _, _, _, _, h⟩ := (mkBool_ok_iff _ _ _ _).1 h; cases h
    | or _ _ _ h => obtain ⟨_, _, _, _, _, h⟩ := (mkBool_ok_iff _ _ _ _).1 h; cases h
    | orderby e d _ _ _ h =>
      simp only [mkOrderBy, bind_eq_ok] at h
      obtain ⟨_, _, h⟩ := h
      cases d <;> simp at h
    | limitby _ _ _ _ _ h =>
      obtain ⟨_, _, _, _, _, _, _, _, h⟩ := (C07_limitby_accepts_iff _ _ _).1 h; cases h
    | entity _ _ _ _ _ _ _ _ _ h =>
      simp only [mkEntity, bind_eq_ok, Except.ok.injEq, reduceCtorEq, and_false, exists_false] at h
    | storage _ _ _ _ _ _ _ h =>
      simp only [mkStorage, bind_eq_ok, Except.ok.injEq, reduceCtorEq, and_false, exists_false] at h
    | relationship _ _ _ _ _ _ _ h =>
      simp only [mkRelationship, bind_eq_ok, Except.ok.injEq, reduceCtorEq, and_false, exists_false] at h
    | join _ _ _ h => obtain ⟨_, _, _, _, _, h⟩ := (C12_join_accepts_iff _ _).1 h; cases h
  have hne : s ≠ [] := by rintro rfl; exact subscriptable_ne_nil hc hs
  obtain ⟨a, ha, hane⟩ := hc.alias e he
  have hcont : d.contains s = false := by
    cases h : d.contains s with
    | false => rfl
    | true => simp [DataModel.contains] at h; exact absurd h hn
  simp [Val.validate, ColumnObj.validate, ColumnObj.checkEntity, ColumnObj.validateDataModel, hc.name,
    ensure, he, ha, hane, hd, hs, hne, hcont]

/-- A list clause that is None or a list/tuple of built expressions (without mismatch). -/
def Spec.ListClauseBuilt (v : Val) : Prop :=
  v = .none ∨ ∃ k xs, SeqOf v k xs ∧ ∀ x ∈ xs, Built x ∧ Expr x ∧ ¬ ModelMismatch x

/-- A single-value clause that is None or a built expression (without mismatch). -/
def Spec.OptClauseBuilt (v : Val) : Prop := v = .none ∨ (Built v ∧ Expr v ∧ ¬ ModelMismatch v)

/-- All clauses hold built expressions. -/
structure Spec.BodyBuilt (b : Body) : Prop where
  select : ListClauseBuilt b.select
  groupby : ListClauseBuilt b.groupby
  arrayJoin : ListClauseBuilt b.arrayJoin
  where_ : ListClauseBuilt b.where_
  having : ListClauseBuilt b.having
  orderby : ListClauseBuilt b.orderby
  limitby : OptClauseBuilt b.limitby
  limit : OptClauseBuilt b.limit
  offset : OptClauseBuilt b.offset
  granularity : OptClauseBuilt b.granularity
  totals : OptClauseBuilt b.totals

theorem validateAll_built : ∀ {xs : List Val}, (∀ x ∈ xs, Built x ∧ Expr x ∧ ¬ ModelMismatch x) →
    validateAll xs = .ok ()
  | [], _ => rfl
  | x :: xs, h => by
    simp only [List.mem_cons, forall_eq_or_imp] at h
    simp [validateAll, C13_built_stay_valid_partial x h.1.1 h.1.2.1 h.1.2.2, validateAll_built h.2]

theorem listValidate_built {v : Val} (h : ListClauseBuilt v) : listValidate v = .ok () := by
  rcases h with rfl | ⟨k, xs, hs, h⟩
  · rfl
  · cases hs <;> simp [listValidate, Val.iter, Val.seq?, validateAll_built h]

theorem optValidate_built {v : Val} (h : OptClauseBuilt v) : optValidate v = .ok () := by
  rcases h with rfl | ⟨h1, h2, h3⟩
  · rfl
  · have := C13_built_stay_valid_partial v h1 h2 h3
    cases h2 <;> exact this

theorem validateClauses_built {b : Body} (h : BodyBuilt b) : validateClauses b = .ok () := by
  simp only [validateClauses, listValidate_built h.select, listValidate_built h.groupby,
    listValidate_built h.arrayJoin, listValidate_built h.where_, listValidate_built h.having,
    listValidate_built h.orderby, optValidate_built h.limitby, optValidate_built h.limit,
    optValidate_built h.offset, optValidate_built h.granularity, optValidate_built h.totals, ok_bind]

/-- **C13** (partial, as above), for a query over an entity, storage or join with built parts: validation is
exactly the cross-clause checks (column search against the match; select present and totals with groupby);
no individual expression is rejected. -/
theorem C13_query_checks_only_combination_partial (m : Val) (b : Body) (hm : Built m) (hme : Expr m)
    (hmm : ¬ ModelMismatch m) (hb : BodyBuilt b) :
    (Query.base m b).validate = (do validateMatchBase m b; combineChecks b) := by
  simp [Query.validate, C13_built_stay_valid_partial m hm hme hmm, validateClauses_built hb]

/-- An entity with a data model containing the subscripted name `tags[a]` but not `tags`. -/
def exTagEntity : EntityObj := ⟨c!"events", some c!"e", none, some ⟨[⟨c!"tags[a]", false⟩], ⟨c!"t", true⟩⟩⟩

/-- **C13** is false without the exclusion: a column that constructs and then fails its own
`validate()`. -/
theorem C13_violated_by_subscripted_columns : ∃ v, Built v ∧ Expr v ∧ v.validate = .error .invalidColumn := by
  have hent : Built (U := U) (.entity exTagEntity) :=
    .entity (.str c!"events") (.str c!"e") .none (.dataModel ⟨[⟨c!"tags[a]", false⟩], ⟨c!"t", true⟩⟩) _
      (.literal _ (.str _)) (.literal _ (.str _)) (.literal _ .none) (.dataModel _) rfl
  have hname : columnNameRe.matches c!"tags[a]" = true := by
    rw [columnNameRe_iff]
    refine .inl (.inr ⟨c!"tags", c!"a", ⟨'t', c!"ags", rfl, .inl (by decide), ?_⟩, by unfold ColKey; decide, rfl⟩)
    intro c hc
    left
    have : c.toNat < 128 ∧ (isAlpha c || isDigit c || c == '_') = true := by
      simp at hc; rcases hc with rfl | rfl | rfl <;> decide
    rw [U.ascii c this.1]; exact this.2
  have hcol : mkColumn (.str c!"tags[a]") (.entity exTagEntity) =
      .ok (.column ⟨c!"tags[a]", some exTagEntity, some c!"tags", some c!"a"⟩) := by
    simp only [mkColumn, asStr, asEntity, ok_bind, hname, ensure, if_true, ColumnObj.validate,
      ColumnObj.checkEntity]
    rfl
  refine ⟨_, .column _ _ _ (.literal _ (.str _)) hent hcol, .column _, ?_⟩
  simp only [Val.validate, ColumnObj.validate, hname, ensure, if_true, ok_bind]
  rfl

end

/-- C13: a condition `count(a) > 5` meets the hypotheses. -/
example : ∃ v, v = Val.cond (.curried true c!"count" .absent [] .list [.column ⟨c!"a", none, none, none⟩] none) .gt (.int 5) ∧
    @Built asciiUnicode v ∧ Expr v ∧ ¬ ModelMismatch v := by
  let : PyUnicode := asciiUnicode
  have hc : @Built asciiUnicode (.column ⟨c!"a", none, none, none⟩) :=
    .column (U := asciiUnicode) (.str c!"a") .none _ (.literal _ (.str _)) (.literal _ .none) rfl
  have hf : @Built asciiUnicode (.curried true c!"count" .absent [] .list [.column ⟨c!"a", none, none, none⟩] none) :=
    .function (U := asciiUnicode) (.str c!"count") (.list [.column ⟨c!"a", none, none, none⟩]) .none _
      (.literal _ (.str _)) (.list _ (by intro x hx; simp at hx; subst hx; exact hc)) (.literal _ .none) rfl
  refine ⟨_, rfl, .condition (U := asciiUnicode) _ (.op .gt) (.int 5) _ hf (.op _) (.literal _ (.int _)) rfl, .cond .., ?_⟩
  rintro ⟨_, _, _, _, h, _⟩; cases h

end Verif
