import Verif.Spec.RequestMessages
import Verif.Props.Errors
import Verif.Props.MetricsMessages
import Verif.Props.QueryMessages

/-!
# Lemmas on the messages of requests
-/

namespace Verif.RequestMsg
open Spec BuildMsg MetricsMsg QueryMsg

theorem len_sized {v : Data} {n : Nat} (h : v.len = .ok n) : Sized v := by
  rcases v with v | xs | kvs
  · cases v <;> simp only [Data.len, reduceCtorEq] at h
    · exact .str _
    · exact .bytes _
    · exact .vals _ _ _ (.list _)
    · exact .vals _ _ _ (.tuple _)
  · exact .list _
  · exact .dict _

theorem len_error {v : Data} {e : Err} (h : v.len = .error e) : e = .typeError ∧ ¬ Sized v := by
  rcases v with v | xs | kvs
  · cases v <;> simp only [Data.len, Except.error.injEq, reduceCtorEq] at h
    all_goals
      subst h
      refine ⟨rfl, fun h => ?_⟩
      cases h with | vals _ _ _ h => cases h
  · cases h
  · cases h

/-- A refusal without a message whose reason is the first demand. -/
theorem by_silent {α : Type} {p : Prop} {e : Err} {ds : List Demand} (h : ¬ p) :
    RefusedBy (.error (e, none) : Except Raised α) (⟨p, e, none⟩ :: ds) := by
  intro r
  simp only [unmet_cons, h, not_false_eq_true, true_and, false_and, or_false, Except.error.injEq]

theorem by_columns : ∀ kvs, RefusedBy (checkColumnsMsg kvs) (kvs.flatMap columnDemands)
  | [] => by_ok _
  | (k, v) :: kvs => by
    simp only [checkColumnsMsg, List.flatMap_cons, columnDemands, List.cons_append, List.nil_append]
    cases h : v.len with
    | error e =>
      obtain ⟨rfl, hs⟩ := len_error h
      exact by_silent hs
    | ok n =>
      refine by_met (len_sized h) ?_
      simp only [elsewhere, ok_bind]
      by_cases hn : n = 0
      · rw [if_pos hn]
        exact by_raise fun hs => by
          obtain ⟨m, hm, h0⟩ := someValues_len hs
          rw [h] at hm; cases hm; exact h0 hn
      · rw [if_neg hn]
        exact by_met ((len_ok h).1 hn) (by_columns kvs)

theorem by_delete (d : DeleteObj) : RefusedBy d.validateMsg (deleteDemands d) := by
  unfold DeleteObj.validateMsg deleteDemands
  cases d.columnConditions with
  | dict kvs =>
    refine by_met ⟨_, rfl⟩ ?_
    cases kvs with
    | nil => exact by_raise (fun h => h rfl)
    | cons p kvs => exact by_met (by simp) (by_columns (p :: kvs))
  | _ => exact by_silent (by simp)

theorem by_flagList : ∀ fs : List (Str × Val), RefusedBy (checkFlagsMsg fs) (fs.map fun p => flagDemand p.1 p.2)
  | [] => by_ok _
  | (k, v) :: fs => by
    simp only [checkFlagsMsg, List.map_cons]
    cases v with
    | none => exact by_met (.inl rfl) (by_flagList fs)
    | bool b => exact by_met (.inr ⟨b, rfl⟩) (by_flagList fs)
    | _ => exact by_raise (by simp)

theorem by_flags : ∀ f, RefusedBy (validateFlagsMsg f) (flagDemands f)
  | none => by_ok _
  | some f => by_flagList f.fields

theorem by_name (field : Str) (d : Data) : RefusedBy (checkNameMsg field d) (nameDemands field d) := by
  unfold checkNameMsg nameDemands
  rcases d with v | xs | kvs
  · cases v with
    | str s =>
      cases s with
      | nil => exact by_raise (by simp)
      | cons x xs => exact by_met ⟨_, rfl, by simp⟩ (by_demand FLAG_RE_iff)
    | _ => exact by_raise (by simp)
  · exact by_raise (by simp)
  · exact by_raise (by simp)

section
variable [PyShow] [PyText]

theorem by_parent (d : Data) : RefusedBy (checkParentMsg d)
    [requestDemand (∃ s, d = .val (.str s) ∧ s ≠ []) (c!"`" ++ d.text ++ c!"` is not a valid parent_api")] := by
  rcases d with v | xs | kvs
  · cases v with
    | str s =>
      cases s with
      | nil => exact by_raise (by simp)
      | cons x xs => exact by_met ⟨_, rfl, by simp⟩ (by_ok _)
    | _ => exact by_raise (by simp)
  · exact by_raise (by simp)
  · exact by_raise (by simp)

omit [PyShow] [PyText] in
theorem by_tenants (d : Data) : RefusedBy (checkTenantsMsg d)
    [requestDemand (∃ kvs, d = .dict kvs) c!"Request must have a `tenant_ids` dictionary"] := by
  cases d with
  | dict kvs => exact by_met ⟨_, rfl⟩ (by_ok _)
  | _ => exact by_raise (by simp)

/-- The checks before the query. -/
def headMsg (r : RequestObj) : Except Raised Unit := do
  checkNameMsg c!"dataset" r.dataset
  checkNameMsg c!"app_id" r.appId
  checkParentMsg r.parentApi
  checkTenantsMsg r.tenantIds

theorem by_head (r : RequestObj) : RefusedBy (headMsg r) (headDemands r) := by
  unfold headMsg headDemands
  rw [List.append_assoc]
  exact by_bind (by_name _ _) fun _ _ _ => by_bind (by_name _ _) fun _ _ _ => by_bind (by_parent _) fun _ _ _ => by_tenants _

variable [U : PyUnicode] [S : RegexSpace] [R : PyRepr]

theorem validate_head (σ : SetOrders) (r : RequestObj) :
    r.validateMsg σ = headMsg r >>= fun _ => r.query.validateMsg σ >>= fun _ => validateFlagsMsg r.flags := by
  simp only [RequestObj.validateMsg, headMsg, bind_assoc]

omit [PyShow] [PyText] U S R in
theorem drop_name (field : Str) (d : Data) : dropMessage (checkNameMsg field d) = checkName d := by
  rcases d with v | xs | kvs
  · cases v <;> first | rfl | (simp only [checkNameMsg, checkName, drop_if, drop_raise, drop_demand])
  · rfl
  · rfl

omit U S R in
theorem drop_parent (d : Data) : dropMessage (checkParentMsg d) = checkParent d := by
  rcases d with v | xs | kvs
  · cases v <;> first | rfl | (simp only [checkParentMsg, checkParent, drop_if, drop_raise, drop_ok])
  · rfl
  · rfl

omit [PyShow] [PyText] U S R in
theorem drop_tenants (d : Data) : dropMessage (checkTenantsMsg d) = checkTenants d := by
  cases d <;> rfl

omit [PyShow] [PyText] U S R in
theorem drop_reqFlags (f : Option FlagsObj) : dropMessage (validateFlagsMsg f) = validateFlags f := by
  cases f with
  | none => rfl
  | some f => exact drop_flags f.fields

end

end Verif.RequestMsg
