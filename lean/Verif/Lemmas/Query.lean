import Verif.Lemmas.Finder
import Verif.Spec.Query

/-!
# Lemmas about query validation
-/

namespace Verif
open Spec

theorem ensure_ne_ok {b : Bool} {e : Err} (h : ¬ ensure b e = .ok ()) : ensure b e = .error e := by
  cases b
  · rfl
  · exact absurd rfl h

theorem Spec.SeqOf.unique {v : Val} {k k' : SeqKind} {xs xs' : List Val} (h : SeqOf v k xs)
    (h' : SeqOf v k' xs') : xs = xs' := by cases h <;> cases h' <;> rfl

theorem validateSubquery_iff {b : Body} {k : SeqKind} {xs : List Val} (hs : SeqOf b.select k xs)
    {cs : List ColumnObj} : validateSubquery b cs = .ok () ↔
      ∀ c ∈ cs, ∃ x ∈ xs, (∃ d, x = .column d ∧ d.name = c.name) ∨
        (∃ f n ik is pk ps, x = .curried f n ik is pk ps (some c.name)) := by
  have hin : ∀ (ys : List Val) (s : Str), some s ∈ innerNames ys ↔ ∃ x ∈ ys,
      (∃ d, x = .column d ∧ d.name = s) ∨ (∃ f n ik is pk ps, x = .curried f n ik is pk ps (some s)) := by
    intro ys s
    induction ys with
    | nil => simp [innerNames]
    | cons y ys ih =>
      cases y with
      | column c => simp [innerNames, ih, eq_comm]
      | curried f n ik is pk ps a =>
        simp only [innerNames, List.mem_cons, ih, exists_eq_or_imp, reduceCtorEq, false_and, exists_false, false_or,
          Val.curried.injEq]
        constructor
        · rintro (h | h)
          · exact .inl ⟨_, _, _, _, _, _, rfl, rfl, rfl, rfl, rfl, rfl, h.symm⟩
          · exact .inr h
        · rintro (⟨_, _, _, _, _, _, _, _, _, _, _, _, h⟩ | h)
          · exact .inl h.symm
          · exact .inr h
      | _ => simp [innerNames, ih]
  have e : validateSubquery b cs =
      ensure (cs.all fun c => (innerNames xs).contains (some c.name)) .invalidMatch := by
    unfold validateSubquery
    generalize b.select = sel at hs
    cases hs <;> rfl
  rw [e, ensure_eq_ok, List.all_eq_true]
  simp only [List.contains_iff_mem, hin]

theorem validateSubquery_error {b : Body} {k : SeqKind} {xs : List Val} (hs : SeqOf b.select k xs)
    {cs : List ColumnObj} (h : ¬ validateSubquery b cs = .ok ()) :
    validateSubquery b cs = .error .invalidMatch := by
  unfold validateSubquery at h ⊢
  generalize b.select = sel at hs h ⊢
  cases hs <;>
  · simp only [Val.iter, Val.seq?, ok_bind, ensure] at h ⊢
    split at h
    · exact absurd rfl h
    · rename_i h'; exact if_neg h'

theorem lookup_eq_some_of {a n : Str} {m : List (Str × Str)} (hm : (a, n) ∈ m)
    (hf : ∀ n', (a, n') ∈ m → n' = n) : m.lookup a = some n := by
  cases h : m.lookup a with
  | none => exact absurd hm (lookup_none h n)
  | some n' => rw [hf n' (lookup_some_mem h)]

theorem validateJoin_iff {rels : List RelObj} (hfun : ∀ a n n', Uses rels a n → Uses rels a n' → n = n')
    {cs : List ColumnObj} : validateJoin rels cs = .ok () ↔
      ∀ c ∈ cs, ∃ e a, c.entity = some e ∧ e.alias = some a ∧ Uses rels a e.name := by
  unfold validateJoin
  simp only [ensure_eq_ok, List.all_eq_true]
  constructor
  · intro h c hc
    have := h c hc
    cases he : c.entity with
    | none => simp [he] at this
    | some e =>
      cases ha : e.alias with
      | none => simp [he, ha] at this
      | some a =>
        simp only [he, ha] at this
        cases hl : (aliasMappings rels).reverse.lookup a with
        | none => simp [hl] at this
        | some n =>
          simp only [hl, beq_iff_eq] at this
          subst this
          have hm := lookup_some_mem hl
          rw [List.mem_reverse, mem_aliasMappings] at hm
          exact ⟨e, a, rfl, ha, hm⟩
  · intro h c hc
    obtain ⟨e, a, he, ha, hu⟩ := h c hc
    have hl : (aliasMappings rels).reverse.lookup a = some e.name := by
      apply lookup_eq_some_of
      · rw [List.mem_reverse, mem_aliasMappings]; exact hu
      · intro n' hn'
        rw [List.mem_reverse, mem_aliasMappings] at hn'
        exact hfun _ _ _ hn' hu
    simp [he, ha, hl]

theorem validateModel_iff {dm : Option DataModel} : ∀ {cs : List ColumnObj},
    validateModel dm cs = .ok () ↔ ∀ c ∈ cs, c.validateDataModel dm = .ok ()
  | [] => by simp [validateModel]
  | c :: cs => by
    simp only [validateModel, bind_eq_ok, validateModel_iff (cs := cs), List.mem_cons, forall_eq_or_imp]
    exact ⟨fun ⟨_, h⟩ => h, fun h => ⟨(), h⟩⟩

theorem validateModel_error {dm : Option DataModel} : ∀ {cs : List ColumnObj},
    ¬ validateModel dm cs = .ok () → validateModel dm cs = .error .invalidColumn
  | [], h => absurd rfl h
  | c :: cs, h => by
    simp only [validateModel] at h ⊢
    cases hv : c.validateDataModel dm with
    | ok u => simp only [hv, ok_bind] at h ⊢; exact validateModel_error h
    | error e =>
      unfold ColumnObj.validateDataModel at hv
      split at hv
      · cases hv
      · rw [← (ensure_eq_error.1 hv).2]; rfl

/-- The name under which a column is looked up. -/
theorem modelContains {c : ColumnObj} {d : DataModel} (hne : c.subscriptable ≠ some [])
    (h : c.validateDataModel (some d) = .ok ()) :
    ∃ x ∈ d.columns, x.name = (match c.subscriptable with | some s => s | none => c.name) := by
  simp only [ColumnObj.validateDataModel, ensure_eq_ok, DataModel.contains, List.any_eq_true, beq_iff_eq] at h
  cases hs : c.subscriptable with
  | none => simpa [hs] using h
  | some s =>
    have : s ≠ [] := by rintro rfl; exact hne hs
    simpa [hs, this] using h

theorem containsModel {c : ColumnObj} {d : DataModel} (hne : c.subscriptable ≠ some [])
    (h : ∃ x ∈ d.columns, x.name = (match c.subscriptable with | some s => s | none => c.name)) :
    c.validateDataModel (some d) = .ok () := by
  simp only [ColumnObj.validateDataModel, ensure_eq_ok, DataModel.contains, List.any_eq_true, beq_iff_eq]
  cases hs : c.subscriptable with
  | none => simpa [hs] using h
  | some s =>
    have : s ≠ [] := by rintro rfl; exact hne hs
    simpa [hs, this] using h

variable [U : PyUnicode]

theorem base_validate_iff {m : Val} {b : Body} : (Query.base m b).validate = .ok () ↔
    m.validate = .ok () ∧ validateClauses b = .ok () ∧ validateMatchBase m b = .ok () ∧
      combineChecks b = .ok () := by
  simp only [Query.validate, bind_eq_ok]
  exact ⟨fun ⟨_, h1, _, h2, _, h3, h4⟩ => ⟨h1, h2, h3, h4⟩, fun ⟨h1, h2, h3, h4⟩ => ⟨_, h1, _, h2, _, h3, h4⟩⟩

theorem nested_validate_iff {q : Query} {b : Body} : (Query.nested q b).validate = .ok () ↔
    q.validate = .ok () ∧ validateClauses b = .ok () ∧ ∃ cs, searchBody b = .ok cs ∧
      validateSubquery q.body cs = .ok () ∧ combineChecks b = .ok () := by
  simp only [Query.validate, bind_eq_ok]
  exact ⟨fun ⟨_, h1, _, h2, cs, h3, _, h4, h5⟩ => ⟨h1, h2, cs, h3, h4, h5⟩,
    fun ⟨h1, h2, cs, h3, h4, h5⟩ => ⟨_, h1, _, h2, cs, h3, _, h4, h5⟩⟩

/-- A validated list clause is None, a list or a tuple (or an empty string or bytes). -/
theorem listValidate_seq {v : Val} (h : listValidate v = .ok ()) (ht : v.truthy = true) : NonEmptySeq v := by
  cases v <;> simp only [listValidate, Val.iter, Val.seq?, bind_eq_ok, reduceCtorEq, false_and,
    exists_false, Except.ok.injEq] at h
  case none => simp [Val.truthy] at ht
  case str s =>
    obtain ⟨_, rfl, h⟩ := h
    cases s with
    | nil => simp [Val.truthy] at ht
    | cons c s => simp [validateAll, Val.validate] at h
  case bytes s =>
    obtain ⟨_, rfl, h⟩ := h
    cases s with
    | nil => simp [Val.truthy] at ht
    | cons c s => simp [validateAll, Val.validate] at h
  case list xs => exact ⟨_, _, .list _, by simpa [Val.truthy] using ht⟩
  case tuple xs => exact ⟨_, _, .tuple _, by simpa [Val.truthy] using ht⟩

theorem validateClauses_parts {b : Body} (h : validateClauses b = .ok ()) :
    listValidate b.select = .ok () ∧ listValidate b.groupby = .ok () ∧ optValidate b.totals = .ok () := by
  simp only [validateClauses, bind_eq_ok] at h
  obtain ⟨_, h1, _, h2, _, _, _, _, _, _, _, _, _, _, _, _, _, _, _, _, h3⟩ := h
  exact ⟨h1, h2, h3⟩

theorem selectMissing_seq {v : Val} {ms : Bool} (hm : selectMissing v = .ok ms) (hms : (!ms) = true) :
    v.truthy = true := by
  cases v <;> simp only [selectMissing, Val.iter, Val.seq?, ok_bind, Except.ok.injEq, error_bind, reduceCtorEq] at hm <;>
    subst hm <;> simp_all [Val.truthy]

/-- Totals that pass validation are None or a `Totals` object. -/
theorem totalsSet_shape {v : Val} {t : Bool} (hv : optValidate v = .ok ()) (ht : totalsSet v = .ok t) :
    (v = .none ∧ t = false) ∨ v = .totals t := by
  cases v <;> simp_all [optValidate, totalsSet, Val.validate, Val.truthy]

/-- A validated query is complete. -/
theorem clauses_complete {b : Body} (h1 : validateClauses b = .ok ()) (h2 : combineChecks b = .ok ()) :
    Complete b := by
  obtain ⟨hs, hg, hv⟩ := validateClauses_parts h1
  simp only [combineChecks, bind_eq_ok, ensure_eq_ok] at h2
  obtain ⟨ms, hm, _, hms, t, ht, h3⟩ := h2
  refine ⟨listValidate_seq hs (selectMissing_seq hm hms), ?_⟩
  rcases totalsSet_shape hv ht with ⟨h, rfl⟩ | h
  · exact .inl h
  · refine .inr ⟨t, h, ?_⟩
    rintro rfl
    apply listValidate_seq hg
    simpa using h3

theorem body_complete {q : Query} (h : q.validate = .ok ()) : Complete q.body := by
  cases q with
  | base m b =>
    obtain ⟨_, h1, _, h2⟩ := base_validate_iff.1 h
    exact clauses_complete h1 h2
  | nested q b =>
    obtain ⟨_, h1, _, _, _, h2⟩ := nested_validate_iff.1 h
    exact clauses_complete h1 h2

omit U in
theorem NonEmptySeq.truthy {v : Val} (h : NonEmptySeq v) : v.truthy = true := by
  obtain ⟨k, xs, hs, hne⟩ := h
  cases hs <;> simpa [Val.truthy] using hne

omit U in
/-- The cross-clause checks pass on complete clauses. -/
theorem combineChecks_complete {b : Body} (hc : Complete b) : combineChecks b = .ok () := by
  obtain ⟨⟨k, xs, hs, hne⟩, hg⟩ := hc
  have h1 : selectMissing b.select = .ok false := by
    generalize b.select = v at *
    cases hs <;> simp [selectMissing, Val.iter, Val.seq?, hne]
  rcases hg with hg | ⟨t, hg, hgr⟩
  · simp [combineChecks, h1, hg, totalsSet, ensure]
  · cases t
    · simp [combineChecks, h1, hg, totalsSet, ensure]
    · simp [combineChecks, h1, hg, totalsSet, ensure, NonEmptySeq.truthy (hgr rfl)]

theorem searchTerms_total {v : Val} (h : ListClauseBuilt v)
    (hx : ∀ k xs, SeqOf v k xs → ∀ x ∈ xs, ∀ e, x ≠ .extrapolate e) : ∃ cs, searchTerms v = .ok cs := by
  rcases h with rfl | ⟨k, xs, hs, h⟩
  · exact ⟨[], rfl⟩
  · obtain ⟨cs, hc⟩ := findInAll_total (xs := xs) fun x hm =>
      wf_findColumns (built_wf (h x hm).1) (.inl ⟨(h x hm).2.1, hx k xs hs x hm⟩)
    unfold searchTerms
    split
    · exact ⟨cs, by simp [Val.iter, hs.seq, hc]⟩
    · exact ⟨_, rfl⟩

theorem searchOne_total {v : Val} (h : OptClauseBuilt v) (hx : ∀ e, v ≠ .extrapolate e) :
    ∃ cs, searchOne v = .ok cs := by
  rcases h with rfl | ⟨h1, h2, _⟩
  · exact ⟨[], rfl⟩
  · unfold searchOne
    split
    · exact wf_findColumns (built_wf h1) (.inl ⟨h2, hx⟩)
    · exact ⟨_, rfl⟩

theorem searchBody_total {b : Body} (hb : BodyBuilt b) (hx : ∀ e, ¬ HasItem b (.extrapolate e)) :
    ∃ cs, searchBody b = .ok cs := by
  have hl : ∀ v ∈ [b.select, b.groupby, b.arrayJoin, b.where_, b.having, b.orderby],
      ListClauseBuilt v → ∃ cs, searchTerms v = .ok cs := fun v hv h =>
    searchTerms_total h fun k xs hs x hm e he => hx e (.inl ⟨v, hv, k, xs, hs, he ▸ hm⟩)
  have ho : ∀ v ∈ [b.limitby, b.limit, b.offset, b.granularity, b.totals],
      OptClauseBuilt v → ∃ cs, searchOne v = .ok cs := fun v hv h =>
    searchOne_total h fun e he => hx e (.inr (he ▸ hv))
  obtain ⟨_, h1⟩ := hl _ (by simp) hb.select
  obtain ⟨_, h2⟩ := hl _ (by simp) hb.groupby
  obtain ⟨_, h3⟩ := hl _ (by simp) hb.arrayJoin
  obtain ⟨_, h4⟩ := hl _ (by simp) hb.where_
  obtain ⟨_, h5⟩ := hl _ (by simp) hb.having
  obtain ⟨_, h6⟩ := hl _ (by simp) hb.orderby
  obtain ⟨_, h7⟩ := ho _ (by simp) hb.limitby
  obtain ⟨_, h8⟩ := ho _ (by simp) hb.limit
  obtain ⟨_, h9⟩ := ho _ (by simp) hb.offset
  obtain ⟨_, h10⟩ := ho _ (by simp) hb.granularity
  obtain ⟨_, h11⟩ := ho _ (by simp) hb.totals
  simp only [searchBody, h1, h2, h3, h4, h5, h6, h7, h8, h9, h10, h11, ok_bind]
  exact ⟨_, rfl⟩

/-- Columns occurring in a well-formed value are well formed. -/
theorem occurs_colOk {c : ColumnObj} {v : Val} (ho : Occurs c v) (h : WF v) : ColOk c := by
  induction ho with
  | column => exact h.column_inv.1
  | aliased a =>
    cases h with
    | literal _ h => cases h
    | aliased _ _ h => exact h
  | init f n ik is pk ps a v hm _ ih =>
    cases h with
    | literal _ h => cases h
    | curried _ _ _ _ _ _ _ h1 => exact ih (h1 v hm)
  | param f n ik is pk ps a v hm _ ih =>
    cases h with
    | literal _ h => cases h
    | curried _ _ _ _ _ _ _ _ h2 => exact ih (h2 v hm)
  | lam k is b _ ih =>
    cases h with
    | literal _ h => cases h
    | lam _ _ _ _ h => exact ih h
  | condL l o r _ ih =>
    cases h with
    | literal _ h => cases h
    | cond _ _ _ h => exact ih h
  | condR l o r _ _ _ ih =>
    cases h with
    | literal _ h => cases h
    | cond _ _ _ _ h => exact ih h
  | bool cls o k cs v hm _ ih =>
    cases h with
    | literal _ h => cases h
    | boolCond _ _ _ _ h => exact ih (h v hm)
  | orderby e d _ ih =>
    cases h with
    | literal _ h => cases h
    | orderby _ _ h => exact ih h
  | limitby k cs n hm =>
    cases h with
    | literal _ h => cases h
    | limitby _ _ _ h => exact h c hm

theorem occursInList_colOk {c : ColumnObj} {v : Val} (h : ListClauseBuilt v) (ho : OccursInList c v) :
    ColOk c := by
  obtain ⟨k, xs, hs, x, hx, ho⟩ := ho
  rcases h with rfl | ⟨k', xs', hs', h⟩
  · cases hs
  · rw [hs.unique hs'] at hx
    exact occurs_colOk ho (built_wf (h x hx).1)

theorem occursOne_colOk {c : ColumnObj} {v : Val} (h : OptClauseBuilt v) (ho : Occurs c v) : ColOk c := by
  rcases h with rfl | ⟨h, _⟩
  · cases ho
  · exact occurs_colOk ho (built_wf h)

theorem occursInBody_colOk {c : ColumnObj} {b : Body} (hb : BodyBuilt b) (ho : OccursInBody c b) :
    ColOk c := by
  rcases ho with h | h | h | h | h | h | h | h | h | h | h
  · exact occursInList_colOk hb.select h
  · exact occursInList_colOk hb.groupby h
  · exact occursInList_colOk hb.arrayJoin h
  · exact occursInList_colOk hb.where_ h
  · exact occursInList_colOk hb.having h
  · exact occursInList_colOk hb.orderby h
  · exact occursOne_colOk hb.limitby h
  · exact occursOne_colOk hb.limit h
  · exact occursOne_colOk hb.offset h
  · exact occursOne_colOk hb.granularity h
  · exact occursOne_colOk hb.totals h

end Verif
