import Verif.Spec.QueryMessages
import Verif.Lemmas.MetricsMessages
import Verif.Props.Messages
import Verif.Props.SetOrder
import Verif.Props.Errors

/-!
# Lemmas: queries with the messages of their exceptions
-/

namespace Verif.QueryMsg
open Spec BuildMsg MetricsMsg

section
variable [U : PyUnicode]

/-! ### The results are those of the functions without messages -/

omit U in
theorem drop_entityOf (c : ColumnObj) : dropMessage c.checkEntityMsg = c.checkEntity := by
  unfold ColumnObj.checkEntityMsg ColumnObj.checkEntity
  cases c.entity with
  | none => rfl
  | some e =>
    cases ha : e.alias with
    | none => simp [ha, ensure]; rfl
    | some a => cases a with
      | nil => simp [ha, ensure]; rfl
      | cons x xs => simp only [ha, drop_dataModel, List.isEmpty_cons, Bool.not_false, ensure, if_true, ok_bind]

theorem drop_column (c : ColumnObj) : dropMessage c.validateMsg = (Val.column c).validate := by
  simp only [ColumnObj.validateMsg, Val.validate, ColumnObj.validate, ensure, drop_if, drop_entityOf, drop_raise]
  cases columnNameRe.matches c.name with
  | false => rfl
  | true =>
    simp only [if_true, ok_bind]
    cases c.checkEntity <;> rfl

theorem drop_item (v : Val) : dropMessage v.validateMsg = v.validate := by
  cases v with
  | column c => exact drop_column c
  | _ => simp only [Val.validateMsg, drop_elsewhere]

theorem drop_items : ∀ vs, dropMessage (validateAllMsg vs) = validateAll vs
  | [] => rfl
  | v :: vs => by simp only [validateAllMsg, validateAll, drop_bind, drop_item, drop_items vs]

theorem drop_list (v : Val) : dropMessage (listValidateMsg v) = listValidate v := by
  have h : ∀ v : Val, dropMessage (do let xs ← elsewhere v.iter; validateAllMsg xs) = (do let xs ← v.iter; validateAll xs) := by
    intro v
    simp only [drop_bind, drop_elsewhere, drop_items]
  cases v <;> first | rfl | exact h _

theorem drop_opt (v : Val) : dropMessage (optValidateMsg v) = optValidate v := by
  cases v with
  | none => rfl
  | _ => simp only [optValidateMsg, optValidate, drop_item]

theorem drop_clauses (b : Body) : dropMessage (validateClausesMsg b) = validateClauses b := by
  simp only [validateClausesMsg, validateClauses, drop_bind, drop_list, drop_opt]

theorem drop_matchClause (σ : SetOrders) (m : Val) : dropMessage (validateMatchClauseMsg σ m) = validateMatchClauseIn σ m := by
  cases m with
  | join k rels => exact drop_join σ rels
  | _ => simp only [validateMatchClauseMsg, validateMatchClauseIn, drop_elsewhere]

omit U in
theorem drop_combine (b : Body) : dropMessage (combineChecksMsg b) = combineChecks b := by
  simp only [combineChecksMsg, combineChecks, drop_bind, drop_elsewhere, drop_if, drop_raise, drop_ok, ensure]
  cases selectMissing b.select with
  | error e => rfl
  | ok s =>
    cases s with
    | true => rfl
    | false =>
      simp only [ok_bind, Bool.not_false, if_true, Bool.false_eq_true, if_false]
      cases totalsSet b.totals with
      | error e => rfl
      | ok t =>
        simp only [ok_bind]
        cases t <;> cases b.groupby.truthy <;> rfl

theorem drop_validate (σ : SetOrders) : ∀ q : Query, dropMessage (q.validateMsg σ) = q.validateIn σ
  | .base m b => by
    simp only [Query.validateMsg, Query.validateIn, drop_bind, drop_matchClause, drop_clauses, (C85_same_class σ).2.1, drop_combine]
  | .nested q b => by
    simp only [Query.validateMsg, Query.validateIn, drop_bind, drop_validate σ q, drop_clauses, (C85_same_class σ).2.2.1, drop_combine]
    cases q.validateIn σ with
    | error e => rfl
    | ok _ =>
      simp only [ok_bind]
      cases validateClauses b with
      | error e => rfl
      | ok _ =>
        simp only [ok_bind]
        cases searchBody b <;> rfl

omit U in
theorem drop_mkQuery (m : Val) (b : Body) : dropMessage (mkQueryMsg m b) = mkQuery m b := by
  simp only [mkQueryMsg, mkQuery, drop_if, drop_raise, drop_ok]

omit U in
/-- What only failed without words, or not at all, did so in the same way. -/
theorem ok_of_drop {α : Type} {x : Except Raised α} {a : α} (h : dropMessage x = .ok a) : x = .ok a := by
  cases x with
  | ok b => cases h; rfl
  | error r => cases h

theorem validateMsg_ok {σ : SetOrders} (hσ : PossibleOrders σ) {q : Query} : q.validateMsg σ = .ok () ↔ q.validate = .ok () := by
  rw [← C82_validate_model hσ, ← drop_validate]
  exact ⟨fun h => by rw [h]; rfl, fun h => ok_of_drop h⟩

theorem drop_mkNested {σ : SetOrders} (hσ : PossibleOrders σ) (q : Query) (b : Body) : dropMessage (mkNestedMsg σ q b) = mkNested q b := by
  have h : dropMessage (q.validateMsg σ) = q.validate := by rw [drop_validate, C82_validate_model hσ]
  unfold mkNestedMsg mkNested
  rw [← h]
  cases q.validateMsg σ <;> rfl

theorem drop_withBody {σ : SetOrders} (hσ : PossibleOrders σ) (q : Query) (b : Body) : dropMessage (q.withBodyMsg σ b) = q.withBody b := by
  cases q with
  | base m b0 => exact drop_mkQuery m b
  | nested i b0 => exact drop_mkNested hσ i b

theorem drop_setMatchQuery {σ : SetOrders} (hσ : PossibleOrders σ) (q i : Query) :
    dropMessage (q.setMatchQueryMsg σ i) = q.setMatchQuery i := by
  have h : dropMessage (i.validateMsg σ) = i.validate := by rw [drop_validate, C82_validate_model hσ]
  unfold Query.setMatchQueryMsg Query.setMatchQuery
  rw [← h]
  cases hv : i.validateMsg σ with
  | error e => rfl
  | ok u => exact drop_mkNested hσ i _

variable [PyShow] [PyText]

omit U in
theorem drop_limitArg (v : Val) : dropMessage (mkLimitMsg v) = mkLimit v := by
  simp only [mkLimitMsg, mkLimit, drop_bind, drop_int, drop_ok]

omit U in
theorem drop_offsetArg (v : Val) : dropMessage (mkOffsetMsg v) = mkOffset v := by
  simp only [mkOffsetMsg, mkOffset, drop_bind, drop_int, drop_ok]

omit U in
theorem drop_granularityArg (v : Val) : dropMessage (mkGranularityMsg v) = mkGranularity v := by
  simp only [mkGranularityMsg, mkGranularity, drop_bind, drop_int, drop_ok]

omit U [PyShow] [PyText] in
theorem drop_totalsArg (v : Val) : dropMessage (mkTotalsMsg v) = mkTotals v := by
  cases v <;> rfl

omit U in
theorem drop_setMatch (q : Query) (m : Val) : dropMessage (q.setMatchMsg m) = q.setMatch m := by
  cases m <;> first | rfl | exact drop_mkQuery _ _

theorem drop_setField {σ : SetOrders} (hσ : PossibleOrders σ) (f : Field) (q : Query) (v : Val) :
    dropMessage (setFieldMsg σ f q v) = setField f q v := by
  cases f
  case limitby => cases v <;> first | rfl | exact drop_withBody hσ _ _
  all_goals simp only [setFieldMsg, setField, Query.setSelectMsg, Query.setGroupbyMsg, Query.setArrayJoinMsg,
      Query.setWhereMsg, Query.setHavingMsg, Query.setOrderbyMsg, Query.setLimitMsg, Query.setOffsetMsg, Query.setGranularityMsg,
      Query.setTotalsMsg, Query.setSelect, Query.setGroupby, Query.setArrayJoin,
      Query.setWhere, Query.setHaving, Query.setOrderby, Query.setLimit, Query.setOffset, Query.setGranularity,
      Query.setTotals, drop_bind, drop_if, drop_raise, drop_withBody hσ, drop_limitArg, drop_offsetArg, drop_granularityArg, drop_totalsArg]

end

/-! ### What is said -/

section
variable [U : PyUnicode]

omit U in
theorem unsupported_of {c : ColumnObj} {owner : Str} {dm : Option DataModel} {x : Err} {t : Str}
    (h : c.validateDataModelMsg owner dm = .error (x, some t)) :
    x = .invalidColumn ∧ Unsupported dm c ∧ t = c!"'" ++ owner ++ c!"' does not support the column '" ++ c.name ++ c!"'" := by
  have h' : validateModelMsg owner dm [c] = .error (x, some t) := by simp only [validateModelMsg, h, error_bind]
  obtain ⟨h0, c', hc, hu, ht⟩ := model_text h'
  cases List.mem_singleton.1 hc
  exact ⟨h0, hu, ht⟩

theorem item_text {q : Query} {v : Val} {x : Err} {t : Str} (hv : HasItem q.body v) (h : v.validateMsg = .error (x, some t)) :
    OwnFault q x t := by
  have none : ∀ {y : Except Err Unit}, elsewhere y ≠ .error (x, some t) := by
    intro y h; cases y <;> cases h
  cases v with
  | column c =>
    simp only [Val.validateMsg, ColumnObj.validateMsg] at h
    split at h
    · unfold ColumnObj.checkEntityMsg at h
      split at h
      · cases h
      · rename_i e he
        split at h
        · rename_i ha; cases h; exact .columnAlias hv he (.inl ha)
        · rename_i ha; cases h; exact .columnAlias hv he (.inr ha)
        · obtain ⟨rfl, hu, rfl⟩ := unsupported_of h
          exact .columnUnknown hv he hu
    · rename_i hn
      cases h
      exact .columnName hv fun hc => hn (columnNameRe_iff.2 hc)
  | _ => simp only [Val.validateMsg] at h; exact absurd h none

theorem items_text {q : Query} {x : Err} {t : Str} : ∀ {vs : List Val}, (∀ v ∈ vs, HasItem q.body v) →
    validateAllMsg vs = .error (x, some t) → OwnFault q x t
  | [], _, h => by cases h
  | v :: vs, hv, h => by
    rcases bind_eq_error.1 h with h | ⟨_, _, h⟩
    · exact item_text (hv v (by simp)) h
    · exact items_text (fun w hw => hv w (List.mem_cons_of_mem _ hw)) h

theorem list_text {q : Query} {v : Val} {x : Err} {t : Str} (hv : v ∈ [q.body.select, q.body.groupby, q.body.arrayJoin, q.body.where_,
    q.body.having, q.body.orderby]) (h : listValidateMsg v = .error (x, some t)) : OwnFault q x t := by
  have key : ∀ {k xs}, SeqOf v k xs → validateAllMsg xs = .error (x, some t) → OwnFault q x t := fun hs h =>
    items_text (fun y hy => .inl ⟨v, hv, _, _, hs, hy⟩) h
  have lits : ∀ {xs : List Val}, (∀ y ∈ xs, ∀ c, y ≠ .column c) → validateAllMsg xs ≠ .error (x, some t) := by
    intro xs
    induction xs with
    | nil => intro _ h; cases h
    | cons y ys ih =>
      intro hy h
      rcases bind_eq_error.1 h with h | ⟨_, _, h⟩
      · cases y with
        | column c => exact hy _ (by simp) c rfl
        | _ => simp only [Val.validateMsg] at h; revert h; generalize Val.validate _ = z; intro h; cases z <;> cases h
      · exact ih (fun z hz => hy z (List.mem_cons_of_mem _ hz)) h
  cases v <;> simp only [listValidateMsg, Val.iter, Val.seq?, elsewhere, ok_bind, error_bind] at h <;>
    first
    | (cases h; done)
    | exact key (.list _) h
    | exact key (.tuple _) h
    | exact absurd h (lits (by simp))

theorem opt_text {q : Query} {v : Val} {x : Err} {t : Str} (hv : v ∈ [q.body.limitby, q.body.limit, q.body.offset, q.body.granularity,
    q.body.totals]) (h : optValidateMsg v = .error (x, some t)) : OwnFault q x t := by
  unfold optValidateMsg at h
  split at h
  · cases h
  · exact item_text (.inr hv) h

theorem clauses_text {q : Query} {x : Err} {t : Str} (h : validateClausesMsg q.body = .error (x, some t)) : OwnFault q x t := by
  simp only [validateClausesMsg, bind_eq_error] at h
  rcases h with h | ⟨_, _, h | ⟨_, _, h | ⟨_, _, h | ⟨_, _, h | ⟨_, _, h | ⟨_, _, h | ⟨_, _, h | ⟨_, _, h | ⟨_, _, h | ⟨_, _, h⟩⟩⟩⟩⟩⟩⟩⟩⟩⟩
  · exact list_text (by simp) h
  · exact list_text (by simp) h
  · exact list_text (by simp) h
  · exact list_text (by simp) h
  · exact list_text (by simp) h
  · exact list_text (by simp) h
  · exact opt_text (by simp) h
  · exact opt_text (by simp) h
  · exact opt_text (by simp) h
  · exact opt_text (by simp) h
  · exact opt_text (by simp) h

omit U in
/-- What is said about columns and the match is said in one of two classes. -/
theorem match_class {σ : SetOrders} {q : Query} {x : Err} {t : Str} (h : validateMatchMsg σ q = .error (x, some t)) :
    x = .invalidMatch ∨ x = .invalidColumn := by
  cases q with
  | nested q b =>
    rcases bind_eq_error.1 h with h | ⟨cols, _, h⟩
    · revert h; cases searchBody b <;> intro h <;> cases h
    · unfold validateSubqueryMsg at h
      split at h
      · cases h
      · split at h
        · cases h
        · exact .inl (inner_text h).1
  | base m b =>
    rcases bind_eq_error.1 h with h | ⟨cols, _, h⟩
    · revert h; cases searchBody b <;> intro h <;> cases h
    · cases m with
      | join k rels => exact .inl (qualified_text h).1
      | storage s => exact .inr (model_text h).1
      | entity e => exact .inr (model_text h).1
      | _ => cases h

theorem match_text {σ : SetOrders} (hσ : PossibleOrders σ) {q : Query} {x : Err} {t : Str} (h : validateMatchMsg σ q = .error (x, some t)) :
    OwnFault q x t := by
  obtain ⟨t', c, ht, ho, hc⟩ := C85_match hσ h (match_class h)
  cases ht
  exact .column ho hc

/-- The clauses have been validated before the checks across clauses. -/
theorem combine_text {q : Query} {x : Err} {t : Str} (hv : validateClauses q.body = .ok ())
    (h : combineChecksMsg q.body = .error (x, some t)) : OwnFault q x t := by
  have hs : listValidate q.body.select = .ok () := by
    simp only [validateClauses, bind_eq_ok] at hv
    exact hv.elim fun _ h => h.1
  simp only [combineChecksMsg, bind_eq_error] at h
  rcases h with h | ⟨s, hm, h⟩
  · revert h; cases selectMissing q.body.select <;> intro h <;> cases h
  · have hsel : selectMissing q.body.select = .ok s := by
      revert hm; cases selectMissing q.body.select <;> intro hm <;> cases hm; rfl
    split at h
    · rename_i hs; subst hs
      cases h
      refine .noSelect ?_
      rintro ⟨k, xs, hx, hne⟩
      generalize q.body.select = v at hx hsel
      cases hx <;> simp [selectMissing, Val.iter, Val.seq?, ok_bind, hne] at hsel
    · rename_i hs'
      have hs0 : s = false := by simpa using hs'
      subst hs0
      simp only [bind_eq_error] at h
      rcases h with h | ⟨b, hb, h⟩
      · revert h; cases totalsSet q.body.totals <;> intro h <;> cases h
      · split at h
        · rename_i hc
          cases h
          rw [Bool.and_eq_true] at hc
          obtain ⟨rfl, hg⟩ := hc
          refine .noGroupby ?_ ?_ ?_
          · apply listValidate_seq hs
            generalize q.body.select = v at hsel
            cases v <;> simp only [selectMissing, Val.iter, Val.seq?, ok_bind, error_bind, Except.ok.injEq, reduceCtorEq] at hsel <;>
              first | (cases hsel; done) | simpa [Val.truthy] using hsel
          · generalize q.body.totals = v at hb
            cases v <;> simp only [totalsSet] at hb <;> first | (cases hb; done) | (cases hb; rfl) | skip
            all_goals (split at hb <;> cases hb)
          · rintro hn
            rw [Verif.NonEmptySeq.truthy hn] at hg; cases hg
        · cases h

theorem base_text {σ : SetOrders} (hσ : PossibleOrders σ) {m : Val} {b : Body} {x : Err} {t : Str}
    (h : validateMatchClauseMsg σ m = .error (x, some t)) : OwnFault (.base m b) x t := by
  have none : ∀ {y : Except Err Unit}, elsewhere y ≠ .error (x, some t) := by
    intro y h; cases y <;> cases h
  cases m with
  | join k rels =>
    rcases C85_join hσ h with ⟨rfl, hr⟩ | ⟨a, n, m, h1, h2, h3, hr⟩
    · cases hr; exact .emptyJoin
    · cases hr; exact .joinAlias h1 h2 h3
  | _ => simp only [validateMatchClauseMsg] at h; exact absurd h none

theorem rest_text {σ : SetOrders} (hσ : PossibleOrders σ) {q : Query} {x : Err} {t : Str}
    (h : (do validateClausesMsg q.body; validateMatchMsg σ q; combineChecksMsg q.body) = .error (x, some t)) : OwnFault q x t := by
  simp only [bind_eq_error] at h
  rcases h with h | ⟨_, hc, h | ⟨_, _, h⟩⟩
  · exact clauses_text h
  · exact match_text hσ h
  · refine combine_text ?_ h
    rw [← drop_clauses, hc]; rfl

/-- What validation says is said of the query itself or of one inside it. -/
theorem validate_text {σ : SetOrders} (hσ : PossibleOrders σ) {x : Err} {t : Str} : ∀ {q : Query}, q.validateMsg σ = .error (x, some t) →
    OwnFault q x t ∨ ∃ i, matchOf q = .inr i ∧ i.validateMsg σ = .error (x, some t)
  | .base m b, h => by
    left
    simp only [Query.validateMsg] at h
    rcases bind_eq_error.1 h with h | ⟨_, _, h⟩
    · exact base_text hσ h
    · exact rest_text hσ (q := .base m b) h
  | .nested i b, h => by
    simp only [Query.validateMsg] at h
    rcases bind_eq_error.1 h with h | ⟨_, _, h⟩
    · exact .inr ⟨i, rfl, h⟩
    · exact .inl (rest_text hσ (q := .nested i b) h)

/-! ### There is always a message -/

theorem item_said {v : Val} (hb : Built v) (he : Spec.Expr v) (x : Err) : v.validateMsg ≠ .error (x, none) := by
  intro h
  cases v with
  | column c =>
    simp only [Val.validateMsg, ColumnObj.validateMsg] at h
    split at h
    · unfold ColumnObj.checkEntityMsg at h
      split at h
      · cases h
      · split at h
        · cases h
        · cases h
        · unfold ColumnObj.validateDataModelMsg at h
          split at h <;> cases h
    · cases h
  | _ =>
    have hv := C13_built_stay_valid_partial _ hb he (by rintro ⟨_, _, _, _, h, _⟩; cases h)
    simp only [Val.validateMsg, hv] at h
    cases h

theorem items_said {x : Err} : ∀ {vs : List Val}, (∀ v ∈ vs, Built v ∧ Spec.Expr v) → validateAllMsg vs ≠ .error (x, none)
  | [], _, h => by cases h
  | v :: vs, hv, h => by
    rcases bind_eq_error.1 h with h | ⟨_, _, h⟩
    · exact item_said (hv v (by simp)).1 (hv v (by simp)).2 x h
    · exact items_said (fun w hw => hv w (List.mem_cons_of_mem _ hw)) h

theorem clauses_said {b : Body} (ht : ∀ f : Field, Taken f (f.get b)) (x : Err) : validateClausesMsg b ≠ .error (x, none) := by
  have list : ∀ f ∈ [Field.select, .groupby, .arrayJoin, .where_, .having, .orderby], listValidateMsg (f.get b) ≠ .error (x, none) := by
    intro f hf h
    rcases taken_list hf (ht f) with h0 | ⟨xs, h0, hx⟩
    · rw [h0] at h; cases h
    · rw [h0] at h
      exact items_said (fun y hy => ⟨(hx y hy).1, (hx y hy).2.1⟩) h
  have opt : ∀ f ∈ [Field.limitby, .limit, .offset, .granularity, .totals], optValidateMsg (f.get b) ≠ .error (x, none) := by
    intro f hf h
    rcases taken_one hf (ht f) with h0 | ⟨h1, h2, _⟩
    · rw [h0] at h; cases h
    · generalize f.get b = v at h h1 h2
      unfold optValidateMsg at h
      split at h
      · cases h
      · exact item_said h1 h2 x h
  intro h
  simp only [validateClausesMsg, bind_eq_error] at h
  rcases h with h | ⟨_, _, h | ⟨_, _, h | ⟨_, _, h | ⟨_, _, h | ⟨_, _, h | ⟨_, _, h | ⟨_, _, h | ⟨_, _, h | ⟨_, _, h | ⟨_, _, h⟩⟩⟩⟩⟩⟩⟩⟩⟩⟩
  · exact list .select (by simp) h
  · exact list .groupby (by simp) h
  · exact list .arrayJoin (by simp) h
  · exact list .where_ (by simp) h
  · exact list .having (by simp) h
  · exact list .orderby (by simp) h
  · exact opt .limitby (by simp) h
  · exact opt .limit (by simp) h
  · exact opt .offset (by simp) h
  · exact opt .granularity (by simp) h
  · exact opt .totals (by simp) h

theorem combine_said {b : Body} (ht : ∀ f : Field, Taken f (f.get b)) (x : Err) : combineChecksMsg b ≠ .error (x, none) := by
  intro h
  have hs : ∃ s, selectMissing b.select = .ok s := by
    rcases taken_list (by simp) (ht .select) with h0 | ⟨xs, h0, _⟩ <;> simp only [Field.get] at h0 <;> rw [h0] <;> exact ⟨_, rfl⟩
  have hT : ∃ s, totalsSet b.totals = .ok s := by
    rcases ht .totals with h0 | ⟨v, _, h0⟩
    · simp only [Field.get] at h0; rw [h0]; exact ⟨_, rfl⟩
    · simp only [Field.get] at h0
      generalize b.totals = t at h0
      cases h0; exact ⟨_, rfl⟩
  obtain ⟨s, hs⟩ := hs
  obtain ⟨u, hu⟩ := hT
  simp only [combineChecksMsg, hs, hu, elsewhere, ok_bind] at h
  split at h
  · cases h
  · split at h <;> cases h

theorem called_said {σ : SetOrders} {q : Query} (hq : Called q) (x : Err) (hσ : PossibleOrders σ) : q.validateMsg σ ≠ .error (x, none) := by
  have ht := called_taken hq
  have rest : (∀ cols, searchBody q.body = .ok cols → validateMatchMsg σ q ≠ .error (x, none)) →
      (do validateClausesMsg q.body; validateMatchMsg σ q; combineChecksMsg q.body) ≠ .error (x, none) := by
    intro hm h
    simp only [bind_eq_error] at h
    rcases h with h | ⟨_, hc, h | ⟨_, _, h⟩⟩
    · exact clauses_said ht x h
    · rcases bodyBuilt_cases ht with ⟨he, _⟩ | hb
      · rw [← drop_clauses, hc] at he; cases he
      · obtain ⟨cs, hcs⟩ := searchBody_total hb (taken_noExtrapolate ht)
        exact hm cs hcs h
    · exact combine_said ht x h
  cases q with
  | base m b =>
    have hbm := called_match hq rfl
    have hmm := reach_match (called_reach hq) (m := m) rfl
    have hmv : m.validate = .ok () := by
      refine C13_built_stay_valid_partial m hbm ?_ ?_
      · cases m <;> first | constructor | cases hmm
      · rintro ⟨_, _, _, _, rfl, _⟩; cases hmm
    have hv : validateMatchClauseMsg σ m = .ok () := by
      apply ok_of_drop
      rw [drop_matchClause]
      cases m with
      | join k rels => exact (checkJoin_order hσ rels).trans hmv
      | _ => exact hmv
    simp only [Query.validateMsg, hv, ok_bind]
    refine rest fun cols hcs h => ?_
    simp only [Query.body] at hcs
    simp only [validateMatchMsg, hcs, elsewhere, ok_bind] at h
    cases m with
    | join k rels => exact qualified_said _ _ _ h
    | storage s => exact model_said _ _ _ _ h
    | entity e => exact model_said _ _ _ _ h
    | _ => cases hmm
  | nested i b =>
    have hiv := reach_inner (called_reach hq) (i := i) rfl
    simp only [Query.validateMsg, (validateMsg_ok hσ).2 hiv, ok_bind]
    refine rest fun cols hcs h => ?_
    simp only [Query.body] at hcs
    simp only [validateMatchMsg, hcs, elsewhere, ok_bind, validateSubqueryMsg] at h
    obtain ⟨⟨k, xs, hs, _⟩, _⟩ := body_complete hiv
    generalize i.body.select = s at hs h
    cases hs <;> exact inner_said _ _ _ h

/-! ### A valid query from which something is taken away -/

/-- A valid query whose match is kept, and whose clauses are kept or have less in them, fails in the checks across clauses only. -/
theorem only_combine {σ : SetOrders} (hσ : PossibleOrders σ) {q q' : Query} (hv : q.validate = .ok ()) (hm : matchOf q' = matchOf q)
    (hc : validateClauses q'.body = .ok ()) {cs : List ColumnObj} (hs : searchBody q'.body = .ok cs)
    (ho : ∀ c, OccursInBody c q'.body → OccursInBody c q.body) : q'.validateMsg σ = combineChecksMsg q'.body := by
  have hcl : validateClausesMsg q'.body = .ok () := ok_of_drop (by rw [drop_clauses, hc])
  cases q with
  | base m b =>
    cases q' with
    | nested i b' => cases hm
    | base m' b' =>
      cases hm
      obtain ⟨h1, h2, h3, _⟩ := base_validate_iff.1 hv
      simp only [Query.body] at hcl hs ho hc
      have hmc : validateMatchClauseMsg σ m = .ok () := by
        apply ok_of_drop
        rw [drop_matchClause]
        cases m with
        | join k rels => exact (checkJoin_order hσ rels).trans h1
        | _ => exact h1
      have hmm : validateMatchMsg σ (.base m b') = .ok () := by
        apply ok_of_drop
        rw [(C85_same_class σ).2.1]
        simp only [validateMatchBase, bind_eq_ok] at h3
        obtain ⟨ds, hd, h3⟩ := h3
        have sub : ∀ c ∈ cs, c ∈ ds := fun c h => (searchBody_mem hd).2 (ho c ((searchBody_mem hs).1 h))
        simp only [validateMatchBaseIn, hs, ok_bind]
        cases m with
        | join k rels =>
          simp only [] at h3 ⊢
          rw [validateJoin_order hσ h1]
          simp only [validateJoin, ensure_eq_ok, List.all_eq_true] at h3 ⊢
          exact fun c h => h3 c (sub c h)
        | storage s =>
          simp only [] at h3 ⊢
          rw [validateModel_order hσ, validateModel_iff]
          exact fun c h => validateModel_iff.1 h3 c (sub c h)
        | entity e =>
          simp only [] at h3 ⊢
          rw [validateModel_order hσ, validateModel_iff]
          exact fun c h => validateModel_iff.1 h3 c (sub c h)
        | _ => cases h3
      simp only [Query.validateMsg, hmc, hcl, hmm, ok_bind, Query.body]
  | nested i b =>
    cases q' with
    | base m' b' => cases hm
    | nested i' b' =>
      cases hm
      obtain ⟨h1, h2, ds, hd, h3, _⟩ := nested_validate_iff.1 hv
      simp only [Query.body] at hcl hs ho hc
      have sub : ∀ c ∈ cs, c ∈ ds := fun c h => (searchBody_mem hd).2 (ho c ((searchBody_mem hs).1 h))
      have hmm : validateMatchMsg σ (.nested i b') = .ok () := by
        apply ok_of_drop
        rw [(C85_same_class σ).2.2.1]
        simp only [hs, ok_bind, validateSubquery_order hσ]
        unfold validateSubquery at h3 ⊢
        split
        · rename_i h0; rw [h0] at h3; cases h3
        · rename_i sel hsel
          split at h3
          · cases h3
          · simp only [bind_eq_ok, ensure_eq_ok, List.all_eq_true] at h3 ⊢
            obtain ⟨xs, hx, h3⟩ := h3
            exact ⟨xs, hx, fun c h => h3 c (sub c h)⟩
      simp only [Query.validateMsg, (validateMsg_ok hσ).2 h1, hcl, hmm, ok_bind, Query.body]

end

end Verif.QueryMsg
