import Verif.Spec.SendMessages
import Verif.Props.RequestMessages
import Verif.Props.PrintMessages
import Verif.Props.TotalErrors
import Verif.Props.RequestJson
import Verif.Lemmas.LegacySend

/-!
# Lemmas: sending a request, with messages
-/

namespace Verif.SendMsg
open Spec BuildMsg MetricsMsg QueryMsg RequestMsg

section
variable [PyShow] [PyText] [U : PyUnicode] [S : RegexSpace] [R : PyRepr]

omit [PyShow] [PyText] U S R in
theorem drop_flagsDict (f : Option FlagsObj) : dropMessage (flagsDictMsg f) = flagsDict f := by
  cases f with
  | none => rfl
  | some f =>
    have := drop_reqFlags (some f)
    simp only [validateFlagsMsg, validateFlags] at this
    simp only [flagsDictMsg, FlagsObj.toDictMsg, flagsDict, FlagsObj.toDict, Verif.drop_bind, this]
    rfl

omit S in
theorem drop_query {σ : SetOrders} (hσ : PossibleOrders σ) (q : Query) : dropMessage (q.serializeMsg σ) = q.serialize := by
  simp only [Query.serializeMsg, Query.serialize, Verif.drop_bind, (C91_same_class hσ).1, PrintMessages.drop_else]

theorem drop_build {σ : SetOrders} (hσ : PossibleOrders σ) (r : RequestObj) (flags : List (Str × Data)) :
    dropMessage (r.buildMsg σ flags) = (r.build flags).1 := by
  cases hq : r.query with
  | snql q =>
    simp only [RequestObj.buildMsg, RequestObj.build, hq, Verif.drop_bind, drop_query hσ]
    cases q.serialize <;> rfl
  | metrics q =>
    simp only [RequestObj.buildMsg, RequestObj.build, hq, Verif.drop_bind, (C94_same_class q).2, PrintMessages.drop_else]
    rcases q.serialize with ⟨_ | _, _⟩ <;> rfl
  | delete q =>
    simp only [RequestObj.buildMsg, RequestObj.build, hq, DeleteObj.serializeMsg, DeleteObj.serialize, Verif.drop_bind,
      (C85_same_class σ).2.2.2.2.1 q]
    cases q.validate <;> rfl

/-- A request that passes validation has flags that can be sent, and its query passes too. -/
theorem valid_parts {σ : SetOrders} {r : RequestObj} (h : r.validateMsg σ = .ok ()) :
    r.query.validateMsg σ = .ok () ∧ ∃ flags, flagsDictMsg r.flags = .ok flags := by
  simp only [RequestObj.validateMsg, bind_eq_ok] at h
  obtain ⟨_, _, _, _, _, _, _, _, _, hq, hf⟩ := h
  refine ⟨hq, ?_⟩
  cases hr : r.flags with
  | none => exact ⟨_, rfl⟩
  | some f =>
    rw [hr] at hf
    simp only [validateFlagsMsg] at hf
    exact ⟨_, by simp only [flagsDictMsg, FlagsObj.toDictMsg, hf, ok_bind]; rfl⟩

theorem toDict_valid {σ : SetOrders} {r : RequestObj} (h : r.validateMsg σ = .ok ()) :
    ∃ flags, r.toDictMsg σ = r.buildMsg σ flags := by
  obtain ⟨_, flags, hf⟩ := valid_parts h
  exact ⟨flags, by simp only [RequestObj.toDictMsg, h, hf, ok_bind]⟩

/-- The dictionary of a metrics query that was serialised can be taken apart. -/
theorem metricsDict_total {q : MetricsQueryObj} (hv : q.validate = .ok ()) {d : Data} (h : q.serializeMsg = .ok d) (r : RequestObj)
    (flags : List (Str × Data)) : ∃ x, r.metricsDict flags d = .ok x := by
  have hs : q.serialize.1 = .ok d := by rw [← (C94_same_class q).2, h]; rfl
  simp only [MetricsQueryObj.serialize, hv] at hs
  cases hx : optimizeQuery q.query with
  | error e => rw [hx] at hs; cases hs
  | ok v =>
    rw [hx] at hs
    simp only at hs
    obtain ⟨_, _, _, _, _, _, _, _, _, _, _, _, _, _, _, _, _, _, rfl⟩ := print_parts.1 hs
    exact ⟨_, rfl⟩

/-- What `to_dict` raises for a valid request for a metrics query is what the query raises. -/
theorem metrics_build {σ : SetOrders} {r : RequestObj} {q : MetricsQueryObj} (hq : r.query = .metrics q) (h : r.validateMsg σ = .ok ())
    (x : Raised) : r.toDictMsg σ = .error x ↔ q.serializeMsg = .error x := by
  obtain ⟨flags, hf⟩ := toDict_valid h
  have hv : q.validate = .ok () := by
    have := (valid_parts h).1
    rw [hq] at this
    rw [← MetricsMsg.drop_metricsQuery]
    simp only [AnyQuery.validateMsg] at this
    rw [this]; rfl
  rw [hf]
  simp only [RequestObj.buildMsg, hq]
  cases hs : q.serializeMsg with
  | error e => simp only [error_bind]
  | ok d =>
    obtain ⟨y, hy⟩ := metricsDict_total hv hs r flags
    simp only [ok_bind, hy, elsewhere, reduceCtorEq]

omit [PyShow] [PyText] S R in
theorem called_inner {q i : Query} (h : Called q) (hm : matchOf q = .inr i) : Called i := by
  induction h with
  | new m' q hb h =>
    unfold mkQuery at h
    split at h <;> cases h
    cases hm
  | newNested i' q hc h _ =>
    obtain ⟨_, rfl⟩ := mkNested_ok h
    cases hm; exact hc
  | set f q v q' _ _ h ih => exact ih ((C21_setter_effect f q q' v h).1 ▸ hm)
  | setMatch q m' q' _ hb h _ => rw [((C21_set_match_effect q q').1 m' h).1] at hm; cases hm
  | setMatchQuery q i' q' _ hc h _ _ => rw [((C21_set_match_effect q q').2 i' h).1] at hm; cases hm; exact hc

omit [PyShow] [PyText] S R in
theorem taken_made {b : Body} (h : ∀ f : Field, Taken f (f.get b)) : BodyMade b := by
  have l : ∀ {f : Field}, f ∈ [.select, .groupby, .arrayJoin, .where_, .having, .orderby] →
      f.get b = .none ∨ ∃ k xs, SeqOf (f.get b) k xs ∧ ∀ x ∈ xs, Built x ∧ Spec.Expr x := by
    intro f hf
    rcases taken_list hf (h f) with h | ⟨xs, h1, h2⟩
    · exact .inl h
    · exact .inr ⟨_, xs, by rw [h1]; exact .list xs, fun x hx => ⟨(h2 x hx).1, (h2 x hx).2.1⟩⟩
  have o : ∀ {f : Field}, f ∈ [.limitby, .limit, .offset, .granularity, .totals] → f.get b = .none ∨ (Built (f.get b) ∧ Spec.Expr (f.get b)) := by
    intro f hf
    rcases taken_one hf (h f) with h | ⟨h1, h2, _⟩
    · exact .inl h
    · exact .inr ⟨h1, h2⟩
  constructor
  · simp only [List.mem_cons, List.not_mem_nil, or_false, forall_eq_or_imp, forall_eq]
    exact ⟨l (f := .select) (by simp), l (f := .groupby) (by simp), l (f := .arrayJoin) (by simp), l (f := .where_) (by simp),
      l (f := .having) (by simp), l (f := .orderby) (by simp)⟩
  · simp only [List.mem_cons, List.not_mem_nil, or_false, forall_eq_or_imp, forall_eq]
    exact ⟨o (f := .limitby) (by simp), o (f := .limit) (by simp), o (f := .offset) (by simp), o (f := .granularity) (by simp),
      o (f := .totals) (by simp)⟩

omit [PyShow] [PyText] S R in
theorem called_made : ∀ {q : Query}, Called q → ∀ b ∈ levels q, BodyMade b
  | .base m b, h => by
    intro b' hb
    simp only [levels, List.mem_singleton] at hb
    subst hb
    exact taken_made (called_taken h)
  | .nested i b, h => by
    intro b' hb
    simp only [levels, List.mem_cons] at hb
    rcases hb with rfl | hb
    · exact taken_made (called_taken h)
    · exact called_made (called_inner h rfl) b' hb

end

end Verif.SendMsg
