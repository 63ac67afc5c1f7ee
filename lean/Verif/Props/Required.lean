import Verif.Lemmas.Examples
import Verif.Model.Required
import Verif.Spec.Semantics

/-!
# C28: the required-column check
-/

namespace Verif
open Spec

theorem mem_firstLevelAnd (xs : List Val) (c : Val) : c ∈ firstLevelAnd xs ↔ TopLevel c xs := by
  constructor
  · have key : ∀ v, c ∈ flattenAnd v → ∀ xs, v ∈ xs → TopLevel c xs := by
      intro v
      induction v using Val.childInd with
      | step v ih =>
        intro hc xs hx
        by_cases h : ∃ o k cs, v = .boolCond .and o k cs
        · obtain ⟨o, k, cs, rfl⟩ := h
          simp only [flattenAnd] at hc
          have : ∀ ys, (∀ y ∈ ys, y ∈ (Val.boolCond .and o k cs).children) → c ∈ firstLevelAnd ys →
              TopLevel c ys := by
            intro ys
            induction ys with
            | nil => intro _ h; simp [firstLevelAnd] at h
            | cons y ys ihy =>
              intro hy h
              simp only [firstLevelAnd, List.mem_append] at h
              rcases h with h | h
              · exact ih y (hy y (List.mem_cons_self ..)) h _ (List.mem_cons_self ..)
              · cases ihy (fun z hz => hy z (List.mem_cons_of_mem _ hz)) h with
                | here _ h1 h2 => exact .here _ (List.mem_cons_of_mem _ h1) h2
                | inAnd _ o k cs h1 h2 => exact .inAnd _ o k cs (List.mem_cons_of_mem _ h1) h2
          exact .inAnd _ o k cs hx (this cs (fun y hy => by simpa [Val.children] using hy) hc)
        · have hf : flattenAnd v = [v] := by
            cases v with
            | boolCond cls o k cs =>
              cases cls with
              | and => exact absurd ⟨o, k, cs, rfl⟩ h
              | _ => rfl
            | _ => rfl
          rw [hf, List.mem_singleton] at hc
          subst hc
          exact .here _ hx fun o k cs he => h ⟨o, k, cs, he⟩
    induction xs with
    | nil => intro h; simp [firstLevelAnd] at h
    | cons x xs ih =>
      intro h
      simp only [firstLevelAnd, List.mem_append] at h
      rcases h with h | h
      · exact key x h _ (List.mem_cons_self ..)
      · cases ih h with
        | here _ h1 h2 => exact .here _ (List.mem_cons_of_mem _ h1) h2
        | inAnd _ o k cs h1 h2 => exact .inAnd _ o k cs (List.mem_cons_of_mem _ h1) h2
  · have sub : ∀ (xs : List Val) v, v ∈ xs → ∀ c, c ∈ flattenAnd v → c ∈ firstLevelAnd xs := by
      intro xs
      induction xs with
      | nil => intro v h; simp at h
      | cons x xs ih =>
        intro v hv c hc
        simp only [firstLevelAnd, List.mem_append]
        rcases List.mem_cons.1 hv with rfl | hv
        · exact .inl hc
        · exact .inr (ih v hv c hc)
    intro h
    induction h with
    | here xs hm hn =>
      refine sub xs c hm c ?_
      cases c with
      | boolCond cls o k cs =>
        cases cls with
        | and => exact absurd rfl (hn o k cs)
        | _ => simp [flattenAnd]
      | _ => simp [flattenAnd]
    | inAnd xs o k cs hm _ ih => exact sub xs _ hm c (by simpa [flattenAnd] using ih)

theorem matchesRequired_iff {ops : List Op} {name : Str} {alias : Option Str} {c : Val} :
    matchesRequired ops name alias c = true ↔ Restricts c name alias ops := by
  unfold Restricts
  constructor
  · intro h
    unfold matchesRequired at h
    split at h
    · rename_i col o r
      simp only [Bool.and_eq_true, beq_iff_eq, List.contains_iff_mem] at h
      refine ⟨col, o, r, rfl, h.1.2, h.2, ?_⟩
      intro e he
      simpa [he] using h.1.1
    · cases h
  · rintro ⟨col, o, r, rfl, hn, ho, he⟩
    simp only [matchesRequired, Bool.and_eq_true, beq_iff_eq, List.contains_iff_mem]
    refine ⟨⟨?_, hn⟩, ho⟩
    cases hc : col.entity with
    | none => rfl
    | some e => simpa using he e hc

theorem matchingConditionExists_iff {ops : List Op} {name : Str} {alias : Option Str} {xs : List Val} :
    matchingConditionExists ops name (firstLevelAnd xs) alias = true ↔
      ∃ c, TopLevel c xs ∧ Restricts c name alias ops := by
  simp only [matchingConditionExists, List.any_eq_true, matchesRequired_iff, mem_firstLevelAnd]

/-- The check for one entity. -/
theorem checkEntityRequired_iff {e : EntityObj} {v : Val} {k : SeqKind} {xs : List Val} (hv : SeqOf v k xs) :
    (checkEntityRequired e v = .ok () ↔ EntityCovered e xs) ∧
    (¬ EntityCovered e xs → checkEntityRequired e v = .error .requiredColumn) := by
  have hiff : checkEntityRequired e v = .ok () ↔ EntityCovered e xs := by
    unfold checkEntityRequired EntityCovered
    cases hd : e.dataModel with
    | none => simp
    | some d =>
      have ht : v.truthy = true ↔ xs ≠ [] := by cases hv <;> simp [Val.truthy]
      simp only [bind_eq_ok, ensure_eq_ok, ht, Val.iter, hv.seq, Except.ok.injEq, List.all_eq_true,
        DataModel.required, List.mem_filter, and_imp, matchingConditionExists_iff, List.mem_cons, List.not_mem_nil,
        or_false, forall_eq_or_imp, forall_eq, Option.some.injEq, forall_eq']
      constructor
      · rintro ⟨_, h1, _, rfl, _, h2, h3, h4⟩; exact ⟨h1, h2, h3, h4⟩
      · rintro ⟨h1, h2, h3, h4⟩; exact ⟨(), h1, xs, rfl, (), h2, h3, h4⟩
  refine ⟨hiff, fun hn => ?_⟩
  rw [← hiff] at hn
  revert hn
  unfold checkEntityRequired
  cases e.dataModel with
  | none => intro h; exact absurd rfl h
  | some d =>
    simp only [Val.iter, hv.seq, ok_bind]
    intro h
    cases h1 : ensure v.truthy .requiredColumn with
    | error e => rw [← (ensure_eq_error.1 h1).2]; rfl
    | ok u =>
      simp only [h1, ok_bind] at h ⊢
      cases h2 : ensure (d.required.all fun r => matchingConditionExists [.eq, .in_] r.name (firstLevelAnd xs) e.alias)
          Err.requiredColumn with
      | error e => rw [← (ensure_eq_error.1 h2).2]; rfl
      | ok u => simp only [h2, ok_bind] at h ⊢; exact ensure_ne_ok h

/-- The entities whose required columns are checked for a match. -/
inductive Spec.Matched (e : EntityObj) : Val → Prop
  | entity : Matched e (.entity e)
  | joinL (k rels r) : r ∈ rels → r.lhs = e → Matched e (.join k rels)
  | joinR (k rels r) : r ∈ rels → r.rhs = e → Matched e (.join k rels)

theorem checkEntitiesRequired_iff {v : Val} {k : SeqKind} {xs : List Val} (hv : SeqOf v k xs) :
    ∀ {es : List EntityObj},
      (checkEntitiesRequired es v = .ok () ↔ ∀ e ∈ es, EntityCovered e xs) ∧
      (¬ (∀ e ∈ es, EntityCovered e xs) → checkEntitiesRequired es v = .error .requiredColumn)
  | [] => by simp [checkEntitiesRequired]
  | e :: es => by
    obtain ⟨i1, i2⟩ := checkEntitiesRequired_iff hv (es := es)
    obtain ⟨h1, h2⟩ := checkEntityRequired_iff (e := e) hv
    by_cases hc : EntityCovered e xs
    · simp only [checkEntitiesRequired, h1.2 hc, ok_bind, List.mem_cons, forall_eq_or_imp, hc, true_and]
      exact ⟨i1, i2⟩
    · simp [checkEntitiesRequired, h2 hc, hc]

/-- The innermost level of a query. -/
def Spec.innermost : Query → Val × Body
  | .base m b => (m, b)
  | .nested q _ => innermost q

/-- **C28** (exactness): the check, which looks at the innermost query, accepts exactly when the WHERE list
covers each matched entity that has a data model; otherwise it raises `RequiredColumnError`. -/
theorem C28_required_exact (q : Query) (k : SeqKind) (xs : List Val)
    (hw : SeqOf (innermost q).2.where_ k xs) :
    (validateRequiredColumns q = .ok () ↔ ∀ e, Matched e (innermost q).1 → EntityCovered e xs) ∧
    ((¬ ∀ e, Matched e (innermost q).1 → EntityCovered e xs) →
      validateRequiredColumns q = .error .requiredColumn) := by
  induction q with
  | nested q b ih => exact ih hw
  | base m b =>
    simp only [innermost] at hw ⊢
    cases m with
    | entity e =>
      have : (∀ e', Matched e' (.entity e) → EntityCovered e' xs) ↔ EntityCovered e xs :=
        ⟨fun h => h e .entity, fun h e' he => by cases he; exact h⟩
      rw [this]
      exact checkEntityRequired_iff hw
    | join k' rels =>
      have : (∀ e', Matched e' (.join k' rels) → EntityCovered e' xs) ↔
          ∀ e ∈ joinEntities rels, EntityCovered e xs := by
        simp only [joinEntities, List.mem_flatMap, List.mem_cons, List.not_mem_nil, or_false]
        constructor
        · rintro h e ⟨r, hr, rfl | rfl⟩
          · exact h _ (.joinL k' rels r hr rfl)
          · exact h _ (.joinR k' rels r hr rfl)
        · intro h e he
          cases he with
          | joinL _ _ r hr he => exact h e ⟨r, hr, .inl he.symm⟩
          | joinR _ _ r hr he => exact h e ⟨r, hr, .inr he.symm⟩
      rw [this]
      exact checkEntitiesRequired_iff hw
    | _ =>
      refine ⟨⟨fun _ e he => (by cases he), fun _ => rfl⟩, fun h => absurd ?_ h⟩
      intro e he; cases he

/-- **C28** (no WHERE): a matched entity with a data model is rejected. -/
theorem C28_no_where (q : Query) (hw : (innermost q).2.where_ = .none) (e : EntityObj)
    (he : Matched e (innermost q).1) (hd : e.dataModel ≠ none) :
    validateRequiredColumns q = .error .requiredColumn := by
  induction q with
  | nested q b ih => exact ih hw he
  | base m b =>
    simp only [innermost] at hw he
    have one : ∀ e : EntityObj, e.dataModel ≠ none → checkEntityRequired e b.where_ = .error .requiredColumn := by
      intro e h
      unfold checkEntityRequired
      cases hd : e.dataModel with
      | none => exact absurd hd h
      | some d => rw [hw]; rfl
    have many : ∀ es : List EntityObj, e ∈ es → checkEntitiesRequired es b.where_ = .error .requiredColumn := by
      intro es
      induction es with
      | nil => intro h; simp at h
      | cons e' es ih =>
        intro h
        cases hd' : e'.dataModel with
        | some d => simp [checkEntitiesRequired, one e' (by simp [hd'])]
        | none =>
          have hne : e ≠ e' := by rintro rfl; exact hd hd'
          have h0 : checkEntityRequired e' b.where_ = .ok () := by simp [checkEntityRequired, hd']
          simp only [checkEntitiesRequired, h0, ok_bind]
          exact ih (by simpa [hne] using h)
    cases he with
    | entity => exact one e hd
    | joinL k rels r hr he' =>
      exact many _ (by simp only [joinEntities, List.mem_flatMap]; exact ⟨r, hr, by simp [he']⟩)
    | joinR k rels r hr he' =>
      exact many _ (by simp only [joinEntities, List.mem_flatMap]; exact ⟨r, hr, by simp [he']⟩)

section
variable [U : PyUnicode]

omit U in
theorem and_eq_yes {a b : Tri} : a.and b = .yes ↔ a = .yes ∧ b = .yes := by
  cases a <;> cases b <;> simp [Tri.and]

omit U in
theorem evalAll_yes {D : Type} {I : Interp D} : ∀ {xs : List Val}, I.evalAll xs = .yes → ∀ x ∈ xs, I.eval x = .yes
  | [], _ => by simp
  | x :: xs, h => by
    rw [Interp.evalAll, and_eq_yes] at h
    simp only [List.mem_cons, forall_eq_or_imp]
    exact ⟨h.1, evalAll_yes h.2⟩

theorem topLevel_yes {D : Type} {I : Interp D} {c : Val} {xs : List Val} (h : TopLevel c xs)
    (hw : ∀ x ∈ xs, WF x) (hy : I.evalAll xs = .yes) : I.eval c = .yes := by
  induction h with
  | here xs hm _ => exact evalAll_yes hy c hm
  | inAnd xs o k cs hm _ ih =>
    have hv := evalAll_yes hy _ hm
    cases hw _ hm with
    | literal _ h => cases h
    | boolCond _ _ _ _ h1 _ _ h2 =>
      have ho := h2 rfl
      subst ho
      rw [Interp.eval] at hv
      exact ih h1 hv

/-- **C28** (meaning): if the check accepts a query whose WHERE list consists of constructed conditions, then on
every row that satisfies the WHERE list, under every interpretation, each required column of a matched
entity satisfies one `=` or `IN` condition, and the time column one `>=` and one `<` condition. -/
theorem C28_rows_satisfy {D : Type} (I : Interp D) (q : Query) (k : SeqKind) (xs : List Val)
    (hw : SeqOf (innermost q).2.where_ k xs) (hb : ∀ x ∈ xs, Built x)
    (hv : validateRequiredColumns q = .ok ()) (hrow : I.evalAll xs = .yes)
    (e : EntityObj) (he : Matched e (innermost q).1) (d : DataModel) (hd : e.dataModel = some d) :
    (∀ m ∈ d.columns, m.required = true →
      ∃ c, Restricts c m.name e.alias [.eq, .in_] ∧ I.eval c = .yes) ∧
    (∃ c, Restricts c d.timeColumn.name e.alias [.gte] ∧ I.eval c = .yes) ∧
    (∃ c, Restricts c d.timeColumn.name e.alias [.lt] ∧ I.eval c = .yes) := by
  obtain ⟨_, h1, ⟨c2, t2, r2⟩, ⟨c3, t3, r3⟩⟩ := (C28_required_exact q k xs hw).1.1 hv e he d hd
  have hy := fun {c} (t : TopLevel c xs) => topLevel_yes (I := I) t (fun x hx => built_wf (hb x hx)) hrow
  refine ⟨?_, ⟨c2, r2, hy t2⟩, ⟨c3, r3, hy t3⟩⟩
  intro m hm hr
  obtain ⟨c, t, r⟩ := h1 m hm hr
  exact ⟨c, r, hy t⟩

end

/-! ### Concrete cases -/

section Examples
open Ex

/-- An entity whose model requires `project` and has the time column `t`. -/
def Ex.modelled : EntityObj := ⟨c!"events", none, none, some ⟨[⟨c!"project", true⟩, ⟨c!"t", false⟩], ⟨c!"t", true⟩⟩⟩

/-- `project = 1 AND (t >= 3 AND t < 9)`, the last two inside an `And`. -/
def Ex.covered : List Val :=
  [.cond (col c!"project") .eq (.int 1),
   .boolCond .and .and .list [.cond (col c!"t") .gte (.int 3), .cond (col c!"t") .lt (.int 9)]]

/-- C28: accepted; inside an OR or with one time bound missing it is not, even under a subquery. -/
example :
    let q (w : List Val) : Query := .base (.entity modelled) { select := .list [count], where_ := .list w }
    validateRequiredColumns (q covered) = .ok () ∧
    validateRequiredColumns (q [.boolCond .or .or .list covered]) = .error .requiredColumn ∧
    validateRequiredColumns (.nested (q (covered.take 1)) (body [count])) = .error .requiredColumn :=
  ⟨rfl, rfl, rfl⟩

/-- C28: the WHERE list of that query consists of constructed conditions, and the row where all conditions hold
satisfies it. -/
example : (∀ x ∈ covered, Built x) ∧ Interp.evalAll ⟨fun _ => (), fun _ _ => .yes, fun _ _ _ => .yes⟩ covered = .yes := by
  have hi : ∀ n o l v, mkColumn (.str n) .none = .ok (col n) → l = col n → mkCondition l (.op o) (.int v) = .ok (.cond l o (.int v)) →
      Built (.cond l o (.int v)) := by
    rintro n o _ v hc rfl h
    exact .condition _ _ _ _ (col_built n hc) (.op _) (.literal _ (.int _)) h
  refine ⟨?_, rfl⟩
  intro x hx
  simp only [covered, List.mem_cons, List.not_mem_nil, or_false] at hx
  rcases hx with rfl | rfl
  · exact hi _ _ _ _ rfl rfl rfl
  · refine .and (.list [.cond (col c!"t") .gte (.int 3), .cond (col c!"t") .lt (.int 9)]) _ (.list _ ?_) rfl
    intro x hx
    simp only [List.mem_cons, List.not_mem_nil, or_false] at hx
    rcases hx with rfl | rfl <;> exact hi _ _ _ _ rfl rfl rfl

end Examples

end Verif
