import Verif.Spec.Built
import Verif.Props.Construct
import Verif.Props.Names

/-!
# Structure of built values
-/

namespace Verif
open Spec

variable [U : PyUnicode]

/-- What a column object satisfies after construction. -/
structure ColOk (c : ColumnObj) : Prop where
  name : columnNameRe.matches c.name = true
  alias : ∀ e, c.entity = some e → ∃ a, e.alias = some a ∧ a ≠ []
  model : ∀ e d, c.entity = some e → e.dataModel = some d → ∃ m ∈ d.columns, m.name = c.name
  sub : c.subscriptable = (splitSubscript c.name).map (·.1) ∧ c.key = (splitSubscript c.name).map (·.2)

theorem mkColumn_ok {n e x : Val} (h : mkColumn n e = .ok x) :
    ∃ c, x = .column c ∧ ColOk c ∧ n = .str c.name ∧
      ((c.entity = none ∧ e = .none) ∨ ∃ en, c.entity = some en ∧ e = .entity en) := by
  simp only [mkColumn, ColumnObj.validate, ColumnObj.checkEntity, bind_eq_ok, ensure_eq_ok] at h
  obtain ⟨s, hs, _, hm, en, hen, c, ⟨_, _, _, hc, hx⟩, hx'⟩ := h
  cases hx; cases hx'
  have hname : (ColumnObj.setSubscript ⟨s, en, none, none⟩).name = s := by
    unfold ColumnObj.setSubscript; split <;> rfl
  have hent : (ColumnObj.setSubscript ⟨s, en, none, none⟩).entity = en := by
    unfold ColumnObj.setSubscript; split <;> rfl
  refine ⟨_, rfl, ⟨?_, ?_, ?_, ?_⟩, ?_, ?_⟩
  · rw [hname]; exact hm
  · intro e' he'
    rw [hent] at he'; subst he'
    simp only [bind_eq_ok, ensure_eq_ok] at hc
    obtain ⟨_, h, _⟩ := hc
    cases ha : e'.alias with
    | none => simp [ha] at h
    | some a => simp [ha] at h; exact ⟨a, rfl, h⟩
  · intro e' d he' hd
    rw [hent] at he'; subst he'
    simp only [bind_eq_ok, ensure_eq_ok, ColumnObj.validateDataModel, hd] at hc
    obtain ⟨_, _, h⟩ := hc
    simp only [DataModel.contains, List.any_eq_true, beq_iff_eq] at h
    rw [hname]; exact h
  · rw [hname]
    unfold ColumnObj.setSubscript
    split
    · rename_i h; simp only at h; rw [h]; exact ⟨rfl, rfl⟩
    · rename_i h; simp only at h; rw [h]; exact ⟨rfl, rfl⟩
  · rw [hname]; cases n <;> simp [asStr] at hs; rw [hs]
  · rw [hent]
    cases e <;> simp [asEntity] at hen
    · left; exact ⟨hen.symm, rfl⟩
    · right; exact ⟨_, hen.symm, rfl⟩

/-- Re-validating a constructed column. -/
theorem colOk_validate_iff {c : ColumnObj} (h : ColOk c) :
    (∃ c', c.validate = .ok c') ↔ ∀ e d s, c.entity = some e → e.dataModel = some d →
      c.subscriptable = some s → ∃ m ∈ d.columns, m.name = (if s = [] then c.name else s) := by
  simp only [ColumnObj.validate, bind_eq_ok, ensure_eq_ok, h.name]
  constructor
  · rintro ⟨c', _, _, _, hc, _⟩ e d s he hd hs
    simp only [ColumnObj.checkEntity, he, bind_eq_ok, ensure_eq_ok, ColumnObj.validateDataModel, hd, hs,
      DataModel.contains, List.any_eq_true, beq_iff_eq, List.isEmpty_iff] at hc
    obtain ⟨_, _, hc⟩ := hc
    exact hc
  · intro hh
    refine ⟨_, (), trivial, (), ?_, rfl⟩
    unfold ColumnObj.checkEntity
    cases he : c.entity with
    | none => rfl
    | some e =>
      obtain ⟨a, ha, hne⟩ := h.alias e he
      simp only [ha, bind_eq_ok, ensure_eq_ok]
      refine ⟨(), by simpa using hne, ?_⟩
      unfold ColumnObj.validateDataModel
      cases hd : e.dataModel with
      | none => rfl
      | some d =>
        simp only [ensure_eq_ok, DataModel.contains, List.any_eq_true, beq_iff_eq]
        cases hs : c.subscriptable with
        | none => exact h.model e d he hd
        | some s => simpa [List.isEmpty_iff] using hh e d s he hd hs

theorem checkOptSeq_ok {check : List Val → Except Err Unit} {v : Val} {r : SeqKind × List Val}
    (h : checkOptSeq check v = .ok r) (h0 : check [] = .ok ()) : check r.2 = .ok () := by
  cases v <;> simp only [checkOptSeq, Val.seq?, bind_eq_ok, reduceCtorEq, Except.ok.injEq] at h
  case none => subst h; exact h0
  all_goals (obtain ⟨_, h1, rfl⟩ := h; exact h1)

theorem checkCurried_ok {f i p a : Val} {r : Str × (SeqKind × List Val) × (SeqKind × List Val) × Option Str}
    (h : checkCurried f i p a = .ok r) :
    checkFunctionName r.1 = .ok () ∧ checkInits r.2.1.2 = .ok () ∧ checkParams r.2.2.1.2 = .ok () ∧
      checkAliasStr r.2.2.2 .invalidFunction = .ok () := by
  simp only [checkCurried, bind_eq_ok] at h
  obtain ⟨n, hn, _, hc, ri, hi, al, hal, rp, hp, hx⟩ := h
  cases hx
  refine ⟨hc, checkOptSeq_ok hi rfl, checkOptSeq_ok hp rfl, ?_⟩
  cases a <;> simp only [checkAlias, reduceCtorEq, Except.ok.injEq] at hal
  · subst hal; rfl
  · split at hal
    · cases hal
    · split at hal
      · rename_i h1 h2
        cases hal; simp [checkAliasStr, ensure_eq_ok, h2] ; simpa using h1
      · cases hal

theorem checkAlias_str {a : Val} {e : Err} {o : Option Str} (h : checkAlias a e = .ok o) (e' : Err) :
    checkAliasStr o e' = .ok () := by
  cases a <;> simp only [checkAlias, reduceCtorEq, Except.ok.injEq] at h
  · subst h; rfl
  · split at h
    · cases h
    · split at h
      · rename_i h1 h2
        cases h; simp [checkAliasStr, ensure_eq_ok, h2]; simpa using h1
      · cases h

/-- Every constructed expression that is not a column validates again. -/
theorem mk_validate :
    (∀ v x, mkLimit v = .ok x → x.validate = .ok ()) ∧
    (∀ v x, mkOffset v = .ok x → x.validate = .ok ()) ∧
    (∀ v x, mkGranularity v = .ok x → x.validate = .ok ()) ∧
    (∀ v x, mkTotals v = .ok x → x.validate = .ok ()) ∧
    (∀ v x, mkExtrapolate v = .ok x → x.validate = .ok ()) ∧
    (∀ c a x, mkAliased c a = .ok x → x.validate = .ok ()) ∧
    (∀ f i p a x, mkCurried f i p a = .ok x → x.validate = .ok ()) ∧
    (∀ f p a x, mkFunction f p a = .ok x → x.validate = .ok ()) ∧
    (∀ n x, mkIdentifier n = .ok x → x.validate = .ok ()) ∧
    (∀ is b x, mkLambda is b = .ok x → x.validate = .ok ()) ∧
    (∀ l o r x, mkCondition l o r = .ok x → x.validate = .ok ()) ∧
    (∀ cls o cs x, mkBool cls o cs = .ok x → x.validate = .ok ()) ∧
    (∀ e d x, mkOrderBy e d = .ok x → x.validate = .ok ()) ∧
    (∀ cs n x, mkLimitBy cs n = .ok x → x.validate = .ok ()) ∧
    (∀ n a s d x, mkEntity n a s d = .ok x → x.validate = .ok ()) ∧
    (∀ n s d x, mkStorage n s d = .ok x → x.validate = .ok ()) ∧
    (∀ l n r x, mkRelationship l n r = .ok x → x.validate = .ok ()) ∧
    (∀ rs x, mkJoin rs = .ok x → x.validate = .ok ()) := by
  refine ⟨?_, ?_, ?_, ?_, ?_, ?_, ?_, ?_, ?_, ?_, ?_, ?_, ?_, ?_, ?_, ?_, ?_, ?_⟩
  · intro v x h
    obtain ⟨n, _, h1, h2, rfl⟩ := (C07_limit_accepts_iff _ _).1 h
    simp [Val.validate, ensure_eq_ok]; omega
  · intro v x h
    obtain ⟨n, _, h1, rfl⟩ := (C07_offset_accepts_iff _ _).1 h
    simp [Val.validate, ensure_eq_ok]; omega
  · intro v x h
    obtain ⟨n, _, h1, rfl⟩ := (C07_granularity_accepts_iff _ _).1 h
    simp [Val.validate, ensure_eq_ok]; omega
  · intro v x h
    obtain ⟨b, _, rfl⟩ := (C07_totals_extrapolate_accept_iff _ _).1.1 h
    rfl
  · intro v x h
    obtain ⟨b, _, rfl⟩ := (C07_totals_extrapolate_accept_iff _ _).2.1 h
    rfl
  · intro c a x h
    simp only [mkAliased, bind_eq_ok] at h
    obtain ⟨c', _, o, ho, hx⟩ := h
    cases hx; exact checkAlias_str ho _
  · intro f i p a x h
    simp only [mkCurried, bind_eq_ok] at h
    obtain ⟨r, hr, hx⟩ := h
    cases hx
    obtain ⟨h1, h2, h3, h4⟩ := checkCurried_ok hr
    simp [Val.validate, h1, h2, h3, h4]
  · intro f p a x h
    simp only [mkFunction, bind_eq_ok] at h
    obtain ⟨r, hr, hx⟩ := h
    cases hx
    obtain ⟨h1, h2, h3, h4⟩ := checkCurried_ok hr
    simp [Val.validate, h1, h2, h3, h4]
  · intro n x h
    simp only [mkIdentifier, bind_eq_ok, ensure_eq_ok] at h
    obtain ⟨s, _, _, h, hx⟩ := h
    cases hx; simp [Val.validate, ensure_eq_ok, h]
  · intro is b x h
    obtain ⟨k, ss, _, h2, ⟨_, _, _, _, _, _, _, rfl⟩, rfl⟩ := (C09_lambda_accepts_iff _ _ _).1 h
    simp only [Val.validate, bind_eq_ok, ensure_eq_ok, List.all_eq_true]
    exact ⟨(), fun s hs => identifierRe_iff.2 (h2 s hs), rfl⟩
  · intro l o r x h
    simp only [mkCondition, bind_eq_ok] at h
    obtain ⟨o', ho, hx⟩ := h
    cases hx
    have : o = .op o' := by
      simp only [checkCondition, bind_eq_ok, asOp_ok] at ho
      obtain ⟨_, _, o2, rfl, _, _, _, _, h⟩ := ho
      cases h; rfl
    subst this
    simp [Val.validate, ho]
  · intro cls o cs x h
    obtain ⟨k, xs, _, h1, h2, rfl⟩ := (mkBool_ok_iff _ _ _ _).1 h
    simp only [Val.validate, checkConditionItems, bind_eq_ok, ensure_eq_ok, decide_eq_true_eq,
      List.all_eq_true, isCondition_iff]
    exact ⟨(), h1, h2⟩
  · intro e d x h
    simp only [mkOrderBy, bind_eq_ok, ensure_eq_ok] at h
    obtain ⟨_, h1, h2⟩ := h
    cases d <;> simp at h2
    subst h2
    simp [Val.validate, ensure_eq_ok, h1]
  · intro cs n x h
    obtain ⟨k, cs', n', _, hne, _, h1, h2, rfl⟩ := (C07_limitby_accepts_iff _ _ _).1 h
    simp only [Val.validate, bind_eq_ok, ensure_eq_ok]
    refine ⟨(), ?_, by simp; omega⟩
    cases cs' <;> simp at hne ⊢
  · intro n a s d x h
    simp only [mkEntity, bind_eq_ok, ensure_eq_ok] at h
    obtain ⟨nm, _, _, h1, smp, h2, al, h3, dm, _, hx⟩ := h
    cases hx
    simp only [Val.validate, EntityObj.validate, bind_eq_ok, ensure_eq_ok]
    refine ⟨(), h1, (), ?_, ?_⟩
    · cases s <;> simp only [checkSample, reduceCtorEq, Except.ok.injEq] at h2
      · subst h2; rfl
      · split at h2
        · cases h2
        · rename_i hz; cases h2; simpa using hz
    · cases a <;> simp only [checkEntityAlias, reduceCtorEq, Except.ok.injEq] at h3
      · subst h3; rfl
      · split at h3
        · cases h3
        · rename_i hz; cases h3; simpa using hz
  · intro n s d x h
    simp only [mkStorage, bind_eq_ok, ensure_eq_ok] at h
    obtain ⟨nm, _, _, h1, smp, h2, dm, _, hx⟩ := h
    cases hx
    simp only [Val.validate, StorageObj.validate, bind_eq_ok, ensure_eq_ok]
    refine ⟨(), h1, ?_⟩
    cases s <;> simp only [checkSample, reduceCtorEq, Except.ok.injEq] at h2
    · subst h2; rfl
    · split at h2
      · cases h2
      · rename_i hz; cases h2; simpa using hz
  · intro l n r x h
    simp only [mkRelationship, bind_eq_ok, ensure_eq_ok] at h
    obtain ⟨le, h1, re, h2, s, _, _, h3, hx⟩ := h
    cases hx
    have ve : ∀ v e, validEntity v = .ok e → e.alias.isSome = true := by
      intro v e h
      unfold validEntity at h
      split at h
      · split at h <;> cases h; simp [*]
      · cases h
    simp only [Val.validate, bind_eq_ok, ensure_eq_ok]
    exact ⟨(), ve _ _ h1, (), ve _ _ h2, h3⟩
  · intro rs x h
    obtain ⟨k, rels, _, h1, h2, rfl⟩ := (C12_join_accepts_iff _ _).1 h
    exact (checkJoin_iff rels).2 ⟨h1, h2⟩

end Verif
