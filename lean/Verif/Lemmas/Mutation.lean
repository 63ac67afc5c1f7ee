import Verif.Spec.Mutation
import Verif.Lemmas.Str

/-!
# Lemmas on lists that are changed later
-/

namespace Verif
open Spec

variable [U : PyUnicode]

mutual
theorem Spec.Edited.of_frozen' : {v v' : Val} → Edited v v' → Frozen v' → v' = v
  | _, _, .same _, _ => rfl
  | _, _, .list _ _ _, hf => by simp [Frozen] at hf
  | _, _, .tuple _ _ h, hf => by
    simp only [Frozen] at hf
    rw [h.of_frozen' (by simp) hf]
  | _, _, .curried _ _ _ _ _ _ _ _ _ h1 h2, hf => by
    simp only [Frozen] at hf
    rw [h1.of_frozen' hf.1 hf.2.2.1, h2.of_frozen' hf.2.1 hf.2.2.2]
  | _, _, .lam _ _ _ _ _ h1 h2, hf => by
    simp only [Frozen] at hf
    rw [h2.of_frozen' hf.2, h1.resolve_left hf.1]
  | _, _, .cond _ _ _ _ _ h1 h2, hf => by
    simp only [Frozen] at hf
    rw [h1.of_frozen' hf.1, h2.of_frozen' hf.2]
  | _, _, .boolCond _ _ _ _ _ h, hf => by
    simp only [Frozen] at hf
    rw [h.of_frozen' hf.1 hf.2]
  | _, _, .orderby _ _ _ h, hf => by
    simp only [Frozen] at hf
    rw [h.of_frozen' hf]
  | _, _, .limitby _ _ _ _, hf => by simp [Frozen] at hf
  | _, _, .join _ _ _, hf => by simp [Frozen] at hf

theorem Spec.Contents.of_frozen' : {k : SeqKind} → {xs ys : List Val} → Contents k xs ys → k ≠ .list → FrozenAll ys → ys = xs
  | _, _, _, .changed _ _ _, hk, _ => absurd rfl hk
  | _, _, _, .kept _ _ _ h, _, hf => h.of_frozen' hf

theorem Spec.ItemsEdited.of_frozen' : {xs ys : List Val} → ItemsEdited xs ys → FrozenAll ys → ys = xs
  | _, _, .nil, _ => rfl
  | _, _, .cons _ _ _ _ h hs, hf => by
    simp only [FrozenAll] at hf
    rw [h.of_frozen' hf.1, hs.of_frozen' hf.2]
end

mutual
theorem Spec.Edited.of_frozen : {v v' : Val} → Edited v v' → Frozen v → v' = v
  | _, _, .same _, _ => rfl
  | _, _, .list _ _ _, hf => by simp [Frozen] at hf
  | _, _, .tuple _ _ h, hf => by
    simp only [Frozen] at hf
    rw [h.of_frozen (by simp) hf]
  | _, _, .curried _ _ _ _ _ _ _ _ _ h1 h2, hf => by
    simp only [Frozen] at hf
    rw [h1.of_frozen hf.1 hf.2.2.1, h2.of_frozen hf.2.1 hf.2.2.2]
  | _, _, .lam _ _ _ _ _ h1 h2, hf => by
    simp only [Frozen] at hf
    rw [h2.of_frozen hf.2, h1.resolve_left hf.1]
  | _, _, .cond _ _ _ _ _ h1 h2, hf => by
    simp only [Frozen] at hf
    rw [h1.of_frozen hf.1, h2.of_frozen hf.2]
  | _, _, .boolCond _ _ _ _ _ h, hf => by
    simp only [Frozen] at hf
    rw [h.of_frozen hf.1 hf.2]
  | _, _, .orderby _ _ _ h, hf => by
    simp only [Frozen] at hf
    rw [h.of_frozen hf]
  | _, _, .limitby _ _ _ _, hf => by simp [Frozen] at hf
  | _, _, .join _ _ _, hf => by simp [Frozen] at hf

theorem Spec.Contents.of_frozen : {k : SeqKind} → {xs ys : List Val} → Contents k xs ys → k ≠ .list → FrozenAll xs → ys = xs
  | _, _, _, .changed _ _ _, hk, _ => absurd rfl hk
  | _, _, _, .kept _ _ _ h, _, hf => h.of_frozen hf

theorem Spec.ItemsEdited.of_frozen : {xs ys : List Val} → ItemsEdited xs ys → FrozenAll xs → ys = xs
  | _, _, .nil, _ => rfl
  | _, _, .cons _ _ _ _ h hs, hf => by
    simp only [FrozenAll] at hf
    rw [h.of_frozen hf.1, hs.of_frozen hf.2]
end

theorem Spec.MadeFrom.mono {P Q : Val → Prop} (h : ∀ v, P v → Q v) {x : Val} (hx : MadeFrom P x) : MadeFrom Q x := by
  cases hx with
  | limit v _ h1 e => exact .limit v _ (h _ h1) e
  | offset v _ h1 e => exact .offset v _ (h _ h1) e
  | granularity v _ h1 e => exact .granularity v _ (h _ h1) e
  | totals v _ h1 e => exact .totals v _ (h _ h1) e
  | extrapolate v _ h1 e => exact .extrapolate v _ (h _ h1) e
  | column _ _ _ h1 h2 e => exact .column _ _ _ (h _ h1) (h _ h2) e
  | aliased _ _ _ h1 h2 e => exact .aliased _ _ _ (h _ h1) (h _ h2) e
  | curried _ _ _ _ _ h1 h2 h3 h4 e => exact .curried _ _ _ _ _ (h _ h1) (h _ h2) (h _ h3) (h _ h4) e
  | function _ _ _ _ h1 h2 h3 e => exact .function _ _ _ _ (h _ h1) (h _ h2) (h _ h3) e
  | identifier _ _ h1 e => exact .identifier _ _ (h _ h1) e
  | lambda _ _ _ h1 h2 e => exact .lambda _ _ _ (h _ h1) (h _ h2) e
  | condition _ _ _ _ h1 h2 h3 e => exact .condition _ _ _ _ (h _ h1) (h _ h2) (h _ h3) e
  | boolean _ _ _ h1 h2 e => exact .boolean _ _ _ (h _ h1) (h _ h2) e
  | and _ _ h1 e => exact .and _ _ (h _ h1) e
  | or _ _ h1 e => exact .or _ _ (h _ h1) e
  | orderby _ _ _ h1 h2 e => exact .orderby _ _ _ (h _ h1) (h _ h2) e
  | limitby _ _ _ h1 h2 e => exact .limitby _ _ _ (h _ h1) (h _ h2) e
  | entity _ _ _ _ _ h1 h2 h3 h4 e => exact .entity _ _ _ _ _ (h _ h1) (h _ h2) (h _ h3) (h _ h4) e
  | storage _ _ _ _ h1 h2 h3 e => exact .storage _ _ _ _ (h _ h1) (h _ h2) (h _ h3) e
  | relationship _ _ _ _ h1 h2 h3 e => exact .relationship _ _ _ _ (h _ h1) (h _ h2) (h _ h3) e
  | join _ _ h1 e => exact .join _ _ (h _ h1) e

theorem Spec.MadeFrom.built {x : Val} (hx : MadeFrom Built x) : Built x := by
  cases hx with
  | limit v _ h1 e => exact .limit v _ h1 e
  | offset v _ h1 e => exact .offset v _ h1 e
  | granularity v _ h1 e => exact .granularity v _ h1 e
  | totals v _ h1 e => exact .totals v _ h1 e
  | extrapolate v _ h1 e => exact .extrapolate v _ h1 e
  | column _ _ _ h1 h2 e => exact .column _ _ _ h1 h2 e
  | aliased _ _ _ h1 h2 e => exact .aliased _ _ _ h1 h2 e
  | curried _ _ _ _ _ h1 h2 h3 h4 e => exact .curried _ _ _ _ _ h1 h2 h3 h4 e
  | function _ _ _ _ h1 h2 h3 e => exact .function _ _ _ _ h1 h2 h3 e
  | identifier _ _ h1 e => exact .identifier _ _ h1 e
  | lambda _ _ _ h1 h2 e => exact .lambda _ _ _ h1 h2 e
  | condition _ _ _ _ h1 h2 h3 e => exact .condition _ _ _ _ h1 h2 h3 e
  | boolean _ _ _ h1 h2 e => exact .boolean _ _ _ h1 h2 e
  | and _ _ h1 e => exact .and _ _ h1 e
  | or _ _ h1 e => exact .or _ _ h1 e
  | orderby _ _ _ h1 h2 e => exact .orderby _ _ _ h1 h2 e
  | limitby _ _ _ h1 h2 e => exact .limitby _ _ _ h1 h2 e
  | entity _ _ _ _ _ h1 h2 h3 h4 e => exact .entity _ _ _ _ _ h1 h2 h3 h4 e
  | storage _ _ _ _ h1 h2 h3 e => exact .storage _ _ _ _ h1 h2 h3 e
  | relationship _ _ _ _ h1 h2 h3 e => exact .relationship _ _ _ _ h1 h2 h3 e
  | join _ _ h1 e => exact .join _ _ h1 e

theorem Spec.Built.made {x : Val} (hb : Built x) (hx : Expr x) : MadeFrom Built x := by
  cases hb with
  | literal _ h => cases h <;> cases hx
  | list _ _ => cases hx
  | tuple _ _ => cases hx
  | op _ => cases hx
  | boolOp _ => cases hx
  | direction _ => cases hx
  | dataModel _ => cases hx
  | other _ => cases hx
  | limit v _ h1 e => exact .limit v _ h1 e
  | offset v _ h1 e => exact .offset v _ h1 e
  | granularity v _ h1 e => exact .granularity v _ h1 e
  | totals v _ h1 e => exact .totals v _ h1 e
  | extrapolate v _ h1 e => exact .extrapolate v _ h1 e
  | column _ _ _ h1 h2 e => exact .column _ _ _ h1 h2 e
  | aliased _ _ _ h1 h2 e => exact .aliased _ _ _ h1 h2 e
  | curried _ _ _ _ _ h1 h2 h3 h4 e => exact .curried _ _ _ _ _ h1 h2 h3 h4 e
  | function _ _ _ _ h1 h2 h3 e => exact .function _ _ _ _ h1 h2 h3 e
  | identifier _ _ h1 e => exact .identifier _ _ h1 e
  | lambda _ _ _ h1 h2 e => exact .lambda _ _ _ h1 h2 e
  | condition _ _ _ _ h1 h2 h3 e => exact .condition _ _ _ _ h1 h2 h3 e
  | boolean _ _ _ h1 h2 e => exact .boolean _ _ _ h1 h2 e
  | and _ _ h1 e => exact .and _ _ h1 e
  | or _ _ h1 e => exact .or _ _ h1 e
  | orderby _ _ _ h1 h2 e => exact .orderby _ _ _ h1 h2 e
  | limitby _ _ _ h1 h2 e => exact .limitby _ _ _ h1 h2 e
  | entity _ _ _ _ _ h1 h2 h3 h4 e => exact .entity _ _ _ _ _ h1 h2 h3 h4 e
  | storage _ _ _ _ h1 h2 h3 e => exact .storage _ _ _ _ h1 h2 h3 e
  | relationship _ _ _ _ h1 h2 h3 e => exact .relationship _ _ _ _ h1 h2 h3 e
  | join _ _ h1 e => exact .join _ _ h1 e

omit U

/-- The class of a value, to tell the constructors apart. -/
def madeTag : Val → Nat
  | .limit _ => 1 | .offset _ => 2 | .granularity _ => 3 | .totals _ => 4 | .extrapolate _ => 5 | .column _ => 6 | .aliased .. => 7
  | .curried .. => 8 | .ident _ => 9 | .lam .. => 10 | .cond .. => 11 | .boolCond .. => 12 | .orderby .. => 13 | .limitby .. => 14
  | .entity _ => 15 | .storage _ => 16 | .rel _ => 17 | .join .. => 18 | _ => 0

theorem tag_limit {v x} (h : mkLimit v = .ok x) : madeTag x = 1 := by
  simp only [mkLimit, bind_eq_ok, Except.ok.injEq] at h; obtain ⟨_, _, rfl⟩ := h; rfl

theorem tag_offset {v x} (h : mkOffset v = .ok x) : madeTag x = 2 := by
  simp only [mkOffset, bind_eq_ok, Except.ok.injEq] at h; obtain ⟨_, _, rfl⟩ := h; rfl

theorem tag_granularity {v x} (h : mkGranularity v = .ok x) : madeTag x = 3 := by
  simp only [mkGranularity, bind_eq_ok, Except.ok.injEq] at h; obtain ⟨_, _, rfl⟩ := h; rfl

theorem tag_totals {v x} (h : mkTotals v = .ok x) : madeTag x = 4 := by
  cases v <;> simp only [mkTotals, reduceCtorEq, Except.ok.injEq] at h; subst h; rfl

theorem tag_extrapolate {v x} (h : mkExtrapolate v = .ok x) : madeTag x = 5 := by
  cases v <;> simp only [mkExtrapolate, reduceCtorEq, Except.ok.injEq] at h; subst h; rfl

theorem tag_aliased {v e x} (h : mkAliased v e = .ok x) : madeTag x = 7 := by
  simp only [mkAliased, bind_eq_ok, Except.ok.injEq] at h; obtain ⟨_, _, _, _, rfl⟩ := h; rfl

theorem tag_ident {v x} (h : mkIdentifier v = .ok x) : madeTag x = 9 := by
  simp only [mkIdentifier, bind_eq_ok, Except.ok.injEq] at h; obtain ⟨_, _, _, _, rfl⟩ := h; rfl

theorem tag_lambda {v b x} (h : mkLambda v b = .ok x) : madeTag x = 10 := by
  unfold mkLambda at h; split at h
  · cases h
  · simp only [bind_eq_ok, Except.ok.injEq] at h; obtain ⟨_, _, _, _, rfl⟩ := h; rfl

theorem tag_cond {l o r x} (h : mkCondition l o r = .ok x) : madeTag x = 11 := by
  simp only [mkCondition, bind_eq_ok, Except.ok.injEq] at h; obtain ⟨_, _, rfl⟩ := h; rfl

theorem tag_bool {c o cs x} (h : mkBool c o cs = .ok x) : madeTag x = 12 := by
  unfold mkBool at h; split at h
  · cases h
  · simp only [bind_eq_ok, Except.ok.injEq] at h; obtain ⟨_, _, rfl⟩ := h; rfl

theorem tag_boolean {o cs x} (h : mkBooleanCondition o cs = .ok x) : madeTag x = 12 := by
  unfold mkBooleanCondition at h; split at h
  · exact tag_bool h
  · cases h

theorem tag_orderby {e d x} (h : mkOrderBy e d = .ok x) : madeTag x = 13 := by
  simp only [mkOrderBy, bind_eq_ok] at h; obtain ⟨_, _, h⟩ := h
  split at h
  · cases h; rfl
  · cases h

theorem tag_limitby {c n x} (h : mkLimitBy c n = .ok x) : madeTag x = 14 := by
  unfold mkLimitBy at h; split at h
  · cases h
  · simp only [bind_eq_ok] at h; obtain ⟨_, _, _, _, h⟩ := h
    split at h
    · cases h
    · simp only [bind_eq_ok, Except.ok.injEq] at h; obtain ⟨_, _, rfl⟩ := h; rfl

theorem tag_entity {n a s d x} (h : mkEntity n a s d = .ok x) : madeTag x = 15 := by
  simp only [mkEntity, bind_eq_ok, Except.ok.injEq] at h; obtain ⟨_, _, _, _, _, _, _, _, _, _, rfl⟩ := h; rfl

theorem tag_storage {n s d x} (h : mkStorage n s d = .ok x) : madeTag x = 16 := by
  simp only [mkStorage, bind_eq_ok, Except.ok.injEq] at h; obtain ⟨_, _, _, _, _, _, _, _, rfl⟩ := h; rfl

theorem tag_rel {l n r x} (h : mkRelationship l n r = .ok x) : madeTag x = 17 := by
  simp only [mkRelationship, bind_eq_ok, Except.ok.injEq] at h; obtain ⟨_, _, _, _, _, _, _, _, rfl⟩ := h; rfl

theorem tag_join {v x} (h : mkJoin v = .ok x) : madeTag x = 18 := by
  unfold mkJoin at h; split at h
  · cases h
  · simp only [bind_eq_ok, Except.ok.injEq] at h; obtain ⟨_, _, _, _, _, _, rfl⟩ := h; rfl

variable [U : PyUnicode]

theorem tag_column {v e x} (h : mkColumn v e = .ok x) : madeTag x = 6 := by
  simp only [mkColumn, bind_eq_ok, Except.ok.injEq] at h; obtain ⟨_, _, _, _, _, _, _, _, rfl⟩ := h; rfl

theorem tag_curried {f i p a x} (h : mkCurried f i p a = .ok x) : madeTag x = 8 := by
  simp only [mkCurried, bind_eq_ok, Except.ok.injEq] at h; obtain ⟨_, _, rfl⟩ := h; rfl

theorem tag_function {f p a x} (h : mkFunction f p a = .ok x) : madeTag x = 8 := by
  simp only [mkFunction, bind_eq_ok, Except.ok.injEq] at h; obtain ⟨_, _, rfl⟩ := h; rfl

/-- The arguments a function object was made from. -/
theorem Spec.MadeFrom.curried_inv {P : Val → Prop} {f n ik is pk ps a} (h : MadeFrom P (.curried f n ik is pk ps a)) :
    ∃ fv iv pv av, P fv ∧ (f = false → P iv) ∧ P pv ∧ P av ∧ (f = true → iv = .none) ∧
      checkCurried fv iv pv av = .ok (n, (ik, is), (pk, ps), a) := by
  cases h with
  | limit _ _ _ e => simpa [madeTag] using tag_limit e
  | offset _ _ _ e => simpa [madeTag] using tag_offset e
  | granularity _ _ _ e => simpa [madeTag] using tag_granularity e
  | totals _ _ _ e => simpa [madeTag] using tag_totals e
  | extrapolate _ _ _ e => simpa [madeTag] using tag_extrapolate e
  | column _ _ _ _ _ e => simpa [madeTag] using tag_column e
  | aliased _ _ _ _ _ e => simpa [madeTag] using tag_aliased e
  | curried fv iv pv av _ h1 h2 h3 h4 e =>
    simp only [mkCurried, bind_eq_ok, Except.ok.injEq, Val.curried.injEq] at e
    obtain ⟨⟨n, ⟨ik, is⟩, ⟨pk, ps⟩, a⟩, he, rfl, rfl, rfl, rfl, rfl, rfl, rfl⟩ := e
    exact ⟨fv, iv, pv, av, h1, fun _ => h2, h3, h4, by simp, he⟩
  | function fv pv av _ h1 h2 h3 e =>
    simp only [mkFunction, bind_eq_ok, Except.ok.injEq, Val.curried.injEq] at e
    obtain ⟨⟨n, ⟨ik, is⟩, ⟨pk, ps⟩, a⟩, he, rfl, rfl, rfl, rfl, rfl, rfl, rfl⟩ := e
    exact ⟨fv, .none, pv, av, h1, by simp, h2, h3, by simp, he⟩
  | identifier _ _ _ e => simpa [madeTag] using tag_ident e
  | lambda _ _ _ _ _ e => simpa [madeTag] using tag_lambda e
  | condition _ _ _ _ _ _ _ e => simpa [madeTag] using tag_cond e
  | boolean _ _ _ _ _ e => simpa [madeTag] using tag_boolean e
  | and _ _ _ e => simpa [madeTag] using tag_bool e
  | or _ _ _ e => simpa [madeTag] using tag_bool e
  | orderby _ _ _ _ _ e => simpa [madeTag] using tag_orderby e
  | limitby _ _ _ _ _ e => simpa [madeTag] using tag_limitby e
  | entity _ _ _ _ _ _ _ _ _ e => simpa [madeTag] using tag_entity e
  | storage _ _ _ _ _ _ _ e => simpa [madeTag] using tag_storage e
  | relationship _ _ _ _ _ _ _ e => simpa [madeTag] using tag_rel e
  | join _ _ _ e => simpa [madeTag] using tag_join e

/-- The arguments a lambda was made from. -/
theorem Spec.MadeFrom.lam_inv {P : Val → Prop} {k ids b} (h : MadeFrom P (.lam k ids b)) :
    ∃ is xs, P is ∧ P b ∧ is.listOrTuple? = some (k, xs) ∧ checkIdentifiers xs = .ok ids := by
  cases h with
  | limit _ _ _ e => simpa [madeTag] using tag_limit e
  | offset _ _ _ e => simpa [madeTag] using tag_offset e
  | granularity _ _ _ e => simpa [madeTag] using tag_granularity e
  | totals _ _ _ e => simpa [madeTag] using tag_totals e
  | extrapolate _ _ _ e => simpa [madeTag] using tag_extrapolate e
  | column _ _ _ _ _ e => simpa [madeTag] using tag_column e
  | aliased _ _ _ _ _ e => simpa [madeTag] using tag_aliased e
  | curried _ _ _ _ _ _ _ _ _ e => simpa [madeTag] using tag_curried e
  | function _ _ _ _ _ _ _ e => simpa [madeTag] using tag_function e
  | identifier _ _ _ e => simpa [madeTag] using tag_ident e
  | lambda is b' _ h1 h2 e =>
    unfold mkLambda at e
    split at e
    · cases e
    · rename_i k' xs hk
      simp only [bind_eq_ok, Except.ok.injEq, Val.lam.injEq] at e
      obtain ⟨ids', hi, _, _, rfl, rfl, rfl⟩ := e
      exact ⟨is, xs, h1, h2, hk, hi⟩
  | condition _ _ _ _ _ _ _ e => simpa [madeTag] using tag_cond e
  | boolean _ _ _ _ _ e => simpa [madeTag] using tag_boolean e
  | and _ _ _ e => simpa [madeTag] using tag_bool e
  | or _ _ _ e => simpa [madeTag] using tag_bool e
  | orderby _ _ _ _ _ e => simpa [madeTag] using tag_orderby e
  | limitby _ _ _ _ _ e => simpa [madeTag] using tag_limitby e
  | entity _ _ _ _ _ _ _ _ _ e => simpa [madeTag] using tag_entity e
  | storage _ _ _ _ _ _ _ e => simpa [madeTag] using tag_storage e
  | relationship _ _ _ _ _ _ _ e => simpa [madeTag] using tag_rel e
  | join _ _ _ e => simpa [madeTag] using tag_join e

/-- The arguments a condition was made from. -/
theorem Spec.MadeFrom.cond_inv {P : Val → Prop} {l o r} (h : MadeFrom P (.cond l o r)) : P l ∧ P r := by
  cases h with
  | limit _ _ _ e => simpa [madeTag] using tag_limit e
  | offset _ _ _ e => simpa [madeTag] using tag_offset e
  | granularity _ _ _ e => simpa [madeTag] using tag_granularity e
  | totals _ _ _ e => simpa [madeTag] using tag_totals e
  | extrapolate _ _ _ e => simpa [madeTag] using tag_extrapolate e
  | column _ _ _ _ _ e => simpa [madeTag] using tag_column e
  | aliased _ _ _ _ _ e => simpa [madeTag] using tag_aliased e
  | curried _ _ _ _ _ _ _ _ _ e => simpa [madeTag] using tag_curried e
  | function _ _ _ _ _ _ _ e => simpa [madeTag] using tag_function e
  | identifier _ _ _ e => simpa [madeTag] using tag_ident e
  | lambda _ _ _ _ _ e => simpa [madeTag] using tag_lambda e
  | condition _ _ _ _ h1 _ h3 e =>
    simp only [mkCondition, bind_eq_ok, Except.ok.injEq, Val.cond.injEq] at e
    obtain ⟨_, _, rfl, rfl, rfl⟩ := e
    exact ⟨h1, h3⟩
  | boolean _ _ _ _ _ e => simpa [madeTag] using tag_boolean e
  | and _ _ _ e => simpa [madeTag] using tag_bool e
  | or _ _ _ e => simpa [madeTag] using tag_bool e
  | orderby _ _ _ _ _ e => simpa [madeTag] using tag_orderby e
  | limitby _ _ _ _ _ e => simpa [madeTag] using tag_limitby e
  | entity _ _ _ _ _ _ _ _ _ e => simpa [madeTag] using tag_entity e
  | storage _ _ _ _ _ _ _ e => simpa [madeTag] using tag_storage e
  | relationship _ _ _ _ _ _ _ e => simpa [madeTag] using tag_rel e
  | join _ _ _ e => simpa [madeTag] using tag_join e

theorem mkBool_inv {c o cs c' o' k xs} (h : mkBool c o cs = .ok (.boolCond c' o' k xs)) :
    c' = c ∧ o' = o ∧ cs.listOrTuple? = some (k, xs) ∧ checkConditionItems xs = .ok () := by
  unfold mkBool at h
  split at h
  · cases h
  · simp only [bind_eq_ok, Except.ok.injEq, Val.boolCond.injEq] at h
    obtain ⟨_, hc, rfl, rfl, rfl, rfl⟩ := h
    exact ⟨rfl, rfl, by assumption, hc⟩

/-- The arguments a boolean condition was made from. -/
theorem Spec.MadeFrom.bool_inv {P : Val → Prop} {c o k xs} (h : MadeFrom P (.boolCond c o k xs)) :
    (c = .and → o = .and) ∧ (c = .or → o = .or) ∧ ∃ cs, P cs ∧ cs.listOrTuple? = some (k, xs) ∧ checkConditionItems xs = .ok () := by
  cases h with
  | limit _ _ _ e => simpa [madeTag] using tag_limit e
  | offset _ _ _ e => simpa [madeTag] using tag_offset e
  | granularity _ _ _ e => simpa [madeTag] using tag_granularity e
  | totals _ _ _ e => simpa [madeTag] using tag_totals e
  | extrapolate _ _ _ e => simpa [madeTag] using tag_extrapolate e
  | column _ _ _ _ _ e => simpa [madeTag] using tag_column e
  | aliased _ _ _ _ _ e => simpa [madeTag] using tag_aliased e
  | curried _ _ _ _ _ _ _ _ _ e => simpa [madeTag] using tag_curried e
  | function _ _ _ _ _ _ _ e => simpa [madeTag] using tag_function e
  | identifier _ _ _ e => simpa [madeTag] using tag_ident e
  | lambda _ _ _ _ _ e => simpa [madeTag] using tag_lambda e
  | condition _ _ _ _ _ _ _ e => simpa [madeTag] using tag_cond e
  | boolean ov cs _ h1 h2 e =>
    unfold mkBooleanCondition at e
    split at e
    · obtain ⟨rfl, rfl, hk⟩ := mkBool_inv e
      exact ⟨by simp, by simp, cs, h2, hk⟩
    · cases e
  | and cs _ h1 e =>
    obtain ⟨rfl, rfl, hk⟩ := mkBool_inv e
    exact ⟨by simp, by simp, cs, h1, hk⟩
  | or cs _ h1 e =>
    obtain ⟨rfl, rfl, hk⟩ := mkBool_inv e
    exact ⟨by simp, by simp, cs, h1, hk⟩
  | orderby _ _ _ _ _ e => simpa [madeTag] using tag_orderby e
  | limitby _ _ _ _ _ e => simpa [madeTag] using tag_limitby e
  | entity _ _ _ _ _ _ _ _ _ e => simpa [madeTag] using tag_entity e
  | storage _ _ _ _ _ _ _ e => simpa [madeTag] using tag_storage e
  | relationship _ _ _ _ _ _ _ e => simpa [madeTag] using tag_rel e
  | join _ _ _ e => simpa [madeTag] using tag_join e

/-- The arguments an ordering was made from. -/
theorem Spec.MadeFrom.orderby_inv {P : Val → Prop} {x d} (h : MadeFrom P (.orderby x d)) : P x := by
  cases h with
  | limit _ _ _ e => simpa [madeTag] using tag_limit e
  | offset _ _ _ e => simpa [madeTag] using tag_offset e
  | granularity _ _ _ e => simpa [madeTag] using tag_granularity e
  | totals _ _ _ e => simpa [madeTag] using tag_totals e
  | extrapolate _ _ _ e => simpa [madeTag] using tag_extrapolate e
  | column _ _ _ _ _ e => simpa [madeTag] using tag_column e
  | aliased _ _ _ _ _ e => simpa [madeTag] using tag_aliased e
  | curried _ _ _ _ _ _ _ _ _ e => simpa [madeTag] using tag_curried e
  | function _ _ _ _ _ _ _ e => simpa [madeTag] using tag_function e
  | identifier _ _ _ e => simpa [madeTag] using tag_ident e
  | lambda _ _ _ _ _ e => simpa [madeTag] using tag_lambda e
  | condition _ _ _ _ _ _ _ e => simpa [madeTag] using tag_cond e
  | boolean _ _ _ _ _ e => simpa [madeTag] using tag_boolean e
  | and _ _ _ e => simpa [madeTag] using tag_bool e
  | or _ _ _ e => simpa [madeTag] using tag_bool e
  | orderby _ _ _ h1 _ e =>
    simp only [mkOrderBy, bind_eq_ok] at e
    obtain ⟨_, _, e⟩ := e
    split at e
    · simp only [Except.ok.injEq, Val.orderby.injEq] at e
      obtain ⟨rfl, rfl⟩ := e
      exact h1
    · cases e
  | limitby _ _ _ _ _ e => simpa [madeTag] using tag_limitby e
  | entity _ _ _ _ _ _ _ _ _ e => simpa [madeTag] using tag_entity e
  | storage _ _ _ _ _ _ _ e => simpa [madeTag] using tag_storage e
  | relationship _ _ _ _ _ _ _ e => simpa [madeTag] using tag_rel e
  | join _ _ _ e => simpa [madeTag] using tag_join e

theorem Spec.Built.list_items {xs : List Val} (h : Built (.list xs)) : ∀ x ∈ xs, Built x := by
  cases h with
  | literal _ e => cases e
  | list _ h => exact h
  | limit _ _ _ e => simpa [madeTag] using tag_limit e
  | offset _ _ _ e => simpa [madeTag] using tag_offset e
  | granularity _ _ _ e => simpa [madeTag] using tag_granularity e
  | totals _ _ _ e => simpa [madeTag] using tag_totals e
  | extrapolate _ _ _ e => simpa [madeTag] using tag_extrapolate e
  | column _ _ _ _ _ e => simpa [madeTag] using tag_column e
  | aliased _ _ _ _ _ e => simpa [madeTag] using tag_aliased e
  | curried _ _ _ _ _ _ _ _ _ e => simpa [madeTag] using tag_curried e
  | function _ _ _ _ _ _ _ e => simpa [madeTag] using tag_function e
  | identifier _ _ _ e => simpa [madeTag] using tag_ident e
  | lambda _ _ _ _ _ e => simpa [madeTag] using tag_lambda e
  | condition _ _ _ _ _ _ _ e => simpa [madeTag] using tag_cond e
  | boolean _ _ _ _ _ e => simpa [madeTag] using tag_boolean e
  | and _ _ _ e => simpa [madeTag] using tag_bool e
  | or _ _ _ e => simpa [madeTag] using tag_bool e
  | orderby _ _ _ _ _ e => simpa [madeTag] using tag_orderby e
  | limitby _ _ _ _ _ e => simpa [madeTag] using tag_limitby e
  | entity _ _ _ _ _ _ _ _ _ e => simpa [madeTag] using tag_entity e
  | storage _ _ _ _ _ _ _ e => simpa [madeTag] using tag_storage e
  | relationship _ _ _ _ _ _ _ e => simpa [madeTag] using tag_rel e
  | join _ _ _ e => simpa [madeTag] using tag_join e

theorem Spec.Built.tuple_items {xs : List Val} (h : Built (.tuple xs)) : ∀ x ∈ xs, Built x := by
  cases h with
  | literal _ e => cases e
  | tuple _ h => exact h
  | limit _ _ _ e => simpa [madeTag] using tag_limit e
  | offset _ _ _ e => simpa [madeTag] using tag_offset e
  | granularity _ _ _ e => simpa [madeTag] using tag_granularity e
  | totals _ _ _ e => simpa [madeTag] using tag_totals e
  | extrapolate _ _ _ e => simpa [madeTag] using tag_extrapolate e
  | column _ _ _ _ _ e => simpa [madeTag] using tag_column e
  | aliased _ _ _ _ _ e => simpa [madeTag] using tag_aliased e
  | curried _ _ _ _ _ _ _ _ _ e => simpa [madeTag] using tag_curried e
  | function _ _ _ _ _ _ _ e => simpa [madeTag] using tag_function e
  | identifier _ _ _ e => simpa [madeTag] using tag_ident e
  | lambda _ _ _ _ _ e => simpa [madeTag] using tag_lambda e
  | condition _ _ _ _ _ _ _ e => simpa [madeTag] using tag_cond e
  | boolean _ _ _ _ _ e => simpa [madeTag] using tag_boolean e
  | and _ _ _ e => simpa [madeTag] using tag_bool e
  | or _ _ _ e => simpa [madeTag] using tag_bool e
  | orderby _ _ _ _ _ e => simpa [madeTag] using tag_orderby e
  | limitby _ _ _ _ _ e => simpa [madeTag] using tag_limitby e
  | entity _ _ _ _ _ _ _ _ _ e => simpa [madeTag] using tag_entity e
  | storage _ _ _ _ _ _ _ e => simpa [madeTag] using tag_storage e
  | relationship _ _ _ _ _ _ _ e => simpa [madeTag] using tag_rel e
  | join _ _ _ e => simpa [madeTag] using tag_join e

theorem Spec.Built.seq_items {v : Val} {k xs} (h : Built v) (hs : v.seq? = some (k, xs)) : ∀ x ∈ xs, Built x := by
  cases v <;> simp only [Val.seq?, Option.some.injEq, Prod.mk.injEq, reduceCtorEq] at hs
  · obtain ⟨rfl, rfl⟩ := hs
    intro x hx
    simp only [List.mem_map] at hx
    obtain ⟨c, _, rfl⟩ := hx
    exact .literal _ (.str _)
  · obtain ⟨rfl, rfl⟩ := hs
    intro x hx
    simp only [List.mem_map] at hx
    obtain ⟨c, _, rfl⟩ := hx
    exact .literal _ (.int _)
  · obtain ⟨rfl, rfl⟩ := hs
    exact h.list_items
  · obtain ⟨rfl, rfl⟩ := hs
    exact h.tuple_items

theorem Spec.ItemsEdited.given {xs ys : List Val} (h : ItemsEdited xs ys) (hb : ∀ x ∈ xs, Built x) :
    ∀ y ∈ ys, ∃ v, Built v ∧ Edited v y := by
  induction ys generalizing xs with
  | nil => simp
  | cons y ys ih =>
    cases h with
    | cons x _ xs _ h1 h2 =>
      simp only [List.mem_cons, forall_eq_or_imp] at hb ⊢
      exact ⟨⟨x, hb.1, h1⟩, ih h2 hb.2⟩

theorem Spec.Given.given {ys : List Val} (h : Given ys) : ∀ y ∈ ys, ∃ v, Built v ∧ Edited v y := by
  induction ys with
  | nil => simp
  | cons y ys ih =>
    cases h with
    | cons v _ _ h1 h2 h3 =>
      simp only [List.mem_cons, forall_eq_or_imp]
      exact ⟨⟨v, h1, h2⟩, ih h3⟩

theorem Spec.Contents.given {k} {xs ys : List Val} (h : Contents k xs ys) (hb : ∀ x ∈ xs, Built x) :
    ∀ y ∈ ys, ∃ v, Built v ∧ Edited v y := by
  cases h with
  | changed _ _ h => exact h.given
  | kept _ _ _ h => exact h.given hb

omit U in
theorem frozen_chars (s : List Val) (h : ∀ x ∈ s, (∃ c, x = .str c) ∨ ∃ i, x = .int i) : FrozenAll s := by
  induction s with
  | nil => trivial
  | cons x xs ih =>
    simp only [List.mem_cons, forall_eq_or_imp] at h
    refine ⟨?_, ih h.2⟩
    rcases h.1 with ⟨c, rfl⟩ | ⟨i, rfl⟩ <;> trivial

theorem optSeq_edit {check : List Val → Except Err Unit} {v : Val} {k xs ys} (h : checkOptSeq check v = .ok (k, xs))
    (he : Contents k xs ys) (hc : check ys = .ok ()) :
    ∃ v', checkOptSeq check v' = .ok (k, ys) ∧ (v' = v ∨ v' = .list ys ∨ v' = .tuple ys) := by
  cases v <;> simp only [checkOptSeq, Val.seq?, bind_eq_ok, reduceCtorEq, Except.ok.injEq, Prod.mk.injEq] at h
  case none =>
    obtain ⟨rfl, rfl⟩ := h
    have := he.of_frozen (by simp) trivial
    subst this
    exact ⟨.none, rfl, .inl rfl⟩
  case str s =>
    obtain ⟨_, h1, rfl, rfl⟩ := h
    have := he.of_frozen (by simp) (frozen_chars _ (by simp))
    subst this
    exact ⟨.str s, by simp [checkOptSeq, Val.seq?, hc], .inl rfl⟩
  case bytes s =>
    obtain ⟨_, h1, rfl, rfl⟩ := h
    have := he.of_frozen (by simp) (frozen_chars _ (by simp))
    subst this
    exact ⟨.bytes s, by simp [checkOptSeq, Val.seq?, hc], .inl rfl⟩
  case list l =>
    obtain ⟨_, h1, rfl, rfl⟩ := h
    exact ⟨.list ys, by simp [checkOptSeq, Val.seq?, hc], .inr (.inl rfl)⟩
  case tuple l =>
    obtain ⟨_, h1, rfl, rfl⟩ := h
    exact ⟨.tuple ys, by simp [checkOptSeq, Val.seq?, hc], .inr (.inr rfl)⟩

/-- What an expression holds satisfies `P`. -/
def HoldsOnly (P : Val → Prop) : Val → Prop
  | .curried _ _ _ is _ ps _ => (∀ x ∈ is, P x) ∧ ∀ x ∈ ps, P x
  | .lam _ _ b => P b
  | .cond l _ r => P l ∧ P r
  | .boolCond _ _ _ cs => ∀ c ∈ cs, P c
  | .orderby e _ => P e
  | _ => True

omit U in
theorem identifiers_ok : (ids : List Str) → (∀ i ∈ ids, identifierRe.matches i = true) → checkIdentifiers (ids.map .str) = .ok ids
  | [], _ => rfl
  | i :: ids, h => by
    simp only [List.mem_cons, forall_eq_or_imp] at h
    simp [checkIdentifiers, asStr, ensure, h.1, identifiers_ok ids h.2]

omit U in
theorem allColumns_ok : (cs : List ColumnObj) → allColumns (cs.map .column) = .ok cs
  | [] => rfl
  | c :: cs => by simp [allColumns, allColumns_ok cs]

omit U in
theorem allRels_ok : (rs : List RelObj) → allRels (rs.map .rel) = .ok rs
  | [] => rfl
  | c :: cs => by simp [allRels, allRels_ok cs]

/-- The integer argument of an object that holds an integer. -/
def PyInt.toVal : PyInt → Val
  | .int i => .int i
  | .bool b => .bool b

/-- Validation accepts an object whose lists were changed only if its constructor would accept what it holds. -/
theorem remake {P : Val → Prop} (hB : ∀ v, Built v → P v) (hl : ∀ xs, (∀ x ∈ xs, P x) → P (.list xs))
    (ht : ∀ xs, (∀ x ∈ xs, P x) → P (.tuple xs)) {v v' : Val} (hb : Built v) (he : Edited v v') (hx : Expr v')
    (hv : v'.validate = .ok ()) (hc : HoldsOnly P v') : MadeFrom P v' := by
  cases he with
  | same => exact (hb.made hx).mono hB
  | list => cases hx
  | tuple => cases hx
  | curried f n ik is is' pk ps ps' a h1 h2 =>
    obtain ⟨fv, iv, pv, av, b1, b2, b3, b4, hf, e⟩ := (hb.made (.curried ..)).curried_inv
    simp only [checkCurried, bind_eq_ok, Except.ok.injEq, Prod.mk.injEq] at e
    obtain ⟨n', e1, _, e2, ⟨_, _⟩, e3, a', e4, ⟨_, _⟩, e5, rfl, ⟨rfl, rfl⟩, ⟨rfl, rfl⟩, rfl⟩ := e
    simp only [Val.validate, bind_eq_ok] at hv
    obtain ⟨_, _, _, hv2, _, _, hv4⟩ := hv
    obtain ⟨iv', i1, i2⟩ := optSeq_edit e3 h1 hv2
    obtain ⟨pv', p1, p2⟩ := optSeq_edit e5 h2 hv4
    have pp : P pv' := by
      rcases p2 with rfl | rfl | rfl
      · exact hB _ b3
      · exact hl _ hc.2
      · exact ht _ hc.2
    cases f with
    | false =>
      have pi : P iv' := by
        rcases i2 with rfl | rfl | rfl
        · exact hB _ (b2 rfl)
        · exact hl _ hc.1
        · exact ht _ hc.1
      refine .curried fv iv' pv' av _ (hB _ b1) pi pp (hB _ b4) ?_
      simp [mkCurried, checkCurried, e1, e2, i1, e4, p1]
    | true =>
      have hn := hf rfl
      subst hn
      have hk : is' = [] ∧ ik = .absent := by
        simp only [checkOptSeq, Except.ok.injEq, Prod.mk.injEq] at e3
        obtain ⟨rfl, rfl⟩ := e3
        exact ⟨h1.of_frozen (by simp) trivial, rfl⟩
      obtain ⟨rfl, rfl⟩ := hk
      refine .function fv pv' av _ (hB _ b1) pp (hB _ b4) ?_
      have hz : checkOptSeq checkInits .none = .ok (.absent, []) := rfl
      simp [mkFunction, checkCurried, e1, e2, e4, p1, hz]
  | lam k ids ids' b b' h1 h2 =>
    obtain ⟨is, xs, b1, b2, hk, hi⟩ := (hb.made (.lam ..)).lam_inv
    simp only [Val.validate, bind_eq_ok, ensure_eq_ok, List.all_eq_true] at hv
    obtain ⟨_, hv1, hv2⟩ := hv
    rcases h1 with rfl | rfl
    · refine .lambda (.list (ids'.map .str)) b' _ (hl _ ?_) hc ?_
      · intro x hx
        simp only [List.mem_map] at hx
        obtain ⟨i, _, rfl⟩ := hx
        exact hB _ (.literal _ (.str _))
      · simp [mkLambda, Val.listOrTuple?, identifiers_ok _ hv1, ensure, hv2]
    · refine .lambda is b' _ (hB _ b1) hc ?_
      simp [mkLambda, hk, hi, ensure, hv2]
  | cond l l' o r r' h1 h2 =>
    simp only [Val.validate, bind_eq_ok] at hv
    obtain ⟨o', hv, _⟩ := hv
    refine .condition l' (.op o) r' _ hc.1 (hB _ (.op o)) hc.2 ?_
    have : o' = o := by
      simp only [checkCondition, asOp, bind_eq_ok, Except.ok.injEq] at hv
      obtain ⟨_, _, _, rfl, _, _, _, _, rfl⟩ := hv
      rfl
    simp [mkCondition, hv, this]
  | boolCond c o k cs cs' h =>
    obtain ⟨ha, ho, cv, b1, hk, _⟩ := (hb.made (.boolCond ..)).bool_inv
    simp only [Val.validate] at hv
    have hk' : ∃ w, w.listOrTuple? = some (k, cs') ∧ P w := by
      cases cv <;> simp only [Val.listOrTuple?, reduceCtorEq, Option.some.injEq, Prod.mk.injEq] at hk
      · obtain ⟨rfl, _⟩ := hk
        exact ⟨.list cs', rfl, hl _ hc⟩
      · obtain ⟨rfl, _⟩ := hk
        exact ⟨.tuple cs', rfl, ht _ hc⟩
    obtain ⟨w, hw, pw⟩ := hk'
    have hm : ∀ c o, mkBool c o w = .ok (.boolCond c o k cs') := by
      intro c o
      simp [mkBool, hw, hv]
    cases c with
    | base => exact .boolean (.boolOp o) w _ (hB _ (.boolOp o)) pw (hm _ _)
    | and =>
      have := ha rfl
      subst this
      exact .and w _ pw (hm _ _)
    | or =>
      have := ho rfl
      subst this
      exact .or w _ pw (hm _ _)
  | orderby e e' d h =>
    simp only [Val.validate, ensure_eq_ok] at hv
    exact .orderby e' (.direction d) _ hc (hB _ (.direction d)) (by simp [mkOrderBy, ensure, hv])
  | limitby cs cs' n h =>
    simp only [Val.validate, bind_eq_ok, ensure_eq_ok] at hv
    obtain ⟨_, h1, h2⟩ := hv
    refine .limitby (.list (cs'.map .column)) n.toVal _ (hl _ ?_) (hB _ (.literal _ ?_)) ?_
    · intro x hx
      simp only [List.mem_map] at hx
      obtain ⟨c, hc, rfl⟩ := hx
      exact hB _ (h c hc)
    · cases n <;> constructor
    · have hn : n.toVal.asInt? = some n := by cases n <;> rfl
      simp only [mkLimitBy, Val.seq?, List.length_map, ensure, h1, if_true, ok_bind, allColumns_ok, hn, h2]
  | join rs rs' h =>
    simp only [Val.validate] at hv
    refine .join (.list (rs'.map .rel)) _ (hl _ ?_) ?_
    · intro x hx
      simp only [List.mem_map] at hx
      obtain ⟨c, hc, rfl⟩ := hx
      exact hB _ (h c hc)
    · have hv' := hv
      simp only [checkJoin, bind_eq_ok, ensure_eq_ok] at hv'
      obtain ⟨_, h1, _⟩ := hv'
      have h2 : rs' ≠ [] := by simpa using h1
      simp [mkJoin, Val.listOrTuple?, ensure, allRels_ok, hv, h2]

mutual
theorem Spec.Edited.outside : {v y : Val} → Edited v y → Built v → ListsOutside y → Built y
  | _, _, .same _, hb, _ => hb
  | _, _, .list _ _ h, hb, hf => .list _ (h.outside hb.list_items (by simpa only [ListsOutside] using hf))
  | _, _, .tuple _ _ h, hb, hf => .tuple _ (h.outside hb.tuple_items (by simpa only [ListsOutside] using hf))
  | _, _, .curried f n ik is is' pk ps ps' a h1 h2, hb, hf => by
    rw [(Edited.curried f n ik is is' pk ps ps' a h1 h2).of_frozen' hf]; exact hb
  | _, _, .lam k ids ids' b b' h1 h2, hb, hf => by
    rw [(Edited.lam k ids ids' b b' h1 h2).of_frozen' hf]; exact hb
  | _, _, .cond l l' o r r' h1 h2, hb, hf => by
    rw [(Edited.cond l l' o r r' h1 h2).of_frozen' hf]; exact hb
  | _, _, .boolCond c o k cs cs' h, hb, hf => by
    rw [(Edited.boolCond c o k cs cs' h).of_frozen' hf]; exact hb
  | _, _, .orderby e e' d h, hb, hf => by
    rw [(Edited.orderby e e' d h).of_frozen' hf]; exact hb
  | _, _, .limitby cs cs' n h, hb, hf => by
    rw [(Edited.limitby cs cs' n h).of_frozen' hf]; exact hb
  | _, _, .join rs rs' h, hb, hf => by
    rw [(Edited.join rs rs' h).of_frozen' hf]; exact hb

theorem Spec.Contents.outside : {k : SeqKind} → {xs ys : List Val} → Contents k xs ys → (∀ x ∈ xs, Built x) →
    ListsOutsideAll ys → ∀ y ∈ ys, Built y
  | _, _, _, .changed _ _ h, _, hf => h.outside hf
  | _, _, _, .kept _ _ _ h, hb, hf => h.outside hb hf

theorem Spec.Given.outside : {ys : List Val} → Given ys → ListsOutsideAll ys → ∀ y ∈ ys, Built y
  | _, .nil, _ => by simp
  | _, .cons _ _ _ hb h hs, hf => by
    simp only [ListsOutsideAll] at hf
    simp only [List.mem_cons, forall_eq_or_imp]
    exact ⟨h.outside hb hf.1, hs.outside hf.2⟩

theorem Spec.ItemsEdited.outside : {xs ys : List Val} → ItemsEdited xs ys → (∀ x ∈ xs, Built x) →
    ListsOutsideAll ys → ∀ y ∈ ys, Built y
  | _, _, .nil, _, _ => by simp
  | _, _, .cons _ _ _ _ h hs, hb, hf => by
    simp only [ListsOutsideAll] at hf
    simp only [List.mem_cons, forall_eq_or_imp] at hb ⊢
    exact ⟨h.outside hb.1 hf.1, hs.outside hb.2 hf.2⟩
end

theorem optSeq_items {check : List Val → Except Err Unit} {v : Val} {k xs} (hb : Built v) (h : checkOptSeq check v = .ok (k, xs)) :
    ∀ x ∈ xs, Built x := by
  cases v <;> simp only [checkOptSeq, Val.seq?, bind_eq_ok, reduceCtorEq, Except.ok.injEq, Prod.mk.injEq] at h
  case none => simp [← h.2]
  all_goals
    obtain ⟨_, _, _, rfl⟩ := h
    exact hb.seq_items rfl

theorem listOrTuple_items {v : Val} {k xs} (hb : Built v) (h : v.listOrTuple? = some (k, xs)) : ∀ x ∈ xs, Built x := by
  cases v <;> simp only [Val.listOrTuple?, reduceCtorEq, Option.some.injEq, Prod.mk.injEq] at h
  · obtain ⟨_, rfl⟩ := h
    exact hb.list_items
  · obtain ⟨_, rfl⟩ := h
    exact hb.tuple_items

/-- If only its own lists can have changed, an expression that validates is one that can be built. -/
theorem own_built {v v' : Val} (hb : Built v) (he : Edited v v') (hx : Expr v') (hv : v'.validate = .ok ())
    (ho : OwnLists v') : Built v' := by
  refine (remake (fun _ h => h) (fun _ => .list _) (fun _ => .tuple _) hb he hx hv ?_).built
  cases he with
  | same =>
    cases hx with
    | curried f _ _ _ _ _ _ =>
      obtain ⟨fv, iv, pv, av, b1, b2, b3, b4, hf, e⟩ := (hb.made (.curried ..)).curried_inv
      simp only [checkCurried, bind_eq_ok, Except.ok.injEq, Prod.mk.injEq] at e
      obtain ⟨n', e1, _, e2, ⟨_, _⟩, e3, a', e4, ⟨_, _⟩, e5, rfl, ⟨rfl, rfl⟩, ⟨rfl, rfl⟩, rfl⟩ := e
      refine ⟨?_, optSeq_items b3 e5⟩
      cases f with
      | false => exact optSeq_items (b2 rfl) e3
      | true => exact optSeq_items (hf rfl ▸ .literal _ .none) e3
    | lam => exact (hb.made (.lam ..)).lam_inv.choose_spec.choose_spec.2.1
    | cond => exact (hb.made (.cond ..)).cond_inv
    | boolCond =>
      obtain ⟨_, _, cv, b1, hk, _⟩ := (hb.made (.boolCond ..)).bool_inv
      exact listOrTuple_items b1 hk
    | orderby => exact (hb.made (.orderby ..)).orderby_inv
    | _ => trivial
  | list => cases hx
  | tuple => cases hx
  | curried f n ik is is' pk ps ps' a h1 h2 =>
    obtain ⟨fv, iv, pv, av, b1, b2, b3, b4, hf, e⟩ := (hb.made (.curried ..)).curried_inv
    simp only [checkCurried, bind_eq_ok, Except.ok.injEq, Prod.mk.injEq] at e
    obtain ⟨n', e1, _, e2, ⟨_, _⟩, e3, a', e4, ⟨_, _⟩, e5, rfl, ⟨rfl, rfl⟩, ⟨rfl, rfl⟩, rfl⟩ := e
    simp only [OwnLists] at ho
    refine ⟨h1.outside ?_ ho.1, h2.outside (optSeq_items b3 e5) ho.2⟩
    cases f with
    | false => exact optSeq_items (b2 rfl) e3
    | true => exact optSeq_items (hf rfl ▸ .literal _ .none) e3
  | lam k ids ids' b b' h1 h2 =>
    obtain ⟨is, xs, b1, b2, hk, hi⟩ := (hb.made (.lam ..)).lam_inv
    simp only [OwnLists] at ho
    rw [h2.of_frozen' ho]; exact b2
  | cond l l' o r r' h1 h2 =>
    obtain ⟨b1, b2⟩ := (hb.made (.cond ..)).cond_inv
    simp only [OwnLists] at ho
    exact ⟨by rw [h1.of_frozen' ho.1]; exact b1, h2.outside b2 ho.2⟩
  | boolCond c o k cs cs' h =>
    obtain ⟨_, _, cv, b1, hk, _⟩ := (hb.made (.boolCond ..)).bool_inv
    simp only [OwnLists] at ho
    exact h.outside (listOrTuple_items b1 hk) ho
  | orderby e e' d h =>
    have b1 := (hb.made (.orderby ..)).orderby_inv
    simp only [OwnLists] at ho
    rw [h.of_frozen' ho]; exact b1
  | limitby => trivial
  | join => trivial

theorem validate_expr {v : Val} (h : v.validate = .ok ()) : Expr v := by
  cases v <;> first | (simp only [Val.validate, reduceCtorEq] at h; done) | constructor

/-- The items of a sequence whose lists were changed. -/
theorem edited_items {v w : Val} {k xs} (hb : Built v) (he : Edited v w) (hw : w.seq? = some (k, xs)) :
    ∀ x ∈ xs, ∃ v, Built v ∧ Edited v x := by
  cases he with
  | same => exact fun x hx => ⟨x, hb.seq_items hw x hx, .same x⟩
  | list _ _ h =>
    simp only [Val.seq?, Option.some.injEq, Prod.mk.injEq] at hw
    obtain ⟨_, rfl⟩ := hw
    exact h.given hb.list_items
  | tuple _ _ h =>
    simp only [Val.seq?, Option.some.injEq, Prod.mk.injEq] at hw
    obtain ⟨_, rfl⟩ := hw
    exact h.given hb.tuple_items
  | _ => simp [Val.seq?] at hw

theorem validateAll_items {xs : List Val} (h : validateAll xs = .ok ()) : ∀ x ∈ xs, x.validate = .ok () := by
  induction xs with
  | nil => simp
  | cons x xs ih =>
    simp only [validateAll, bind_eq_ok] at h
    obtain ⟨_, h1, h2⟩ := h
    simp only [List.mem_cons, forall_eq_or_imp]
    exact ⟨h1, ih h2⟩

/-- What validation says about a list clause. -/
theorem listValidate_items {v : Val} (h : listValidate v = .ok ()) :
    v = .none ∨ ∃ k xs, v.seq? = some (k, xs) ∧ ∀ x ∈ xs, x.validate = .ok () := by
  cases v with
  | none => exact .inl rfl
  | str | bytes | list | tuple =>
    simp only [listValidate, Val.iter, Val.seq?, bind_eq_ok, Except.ok.injEq, exists_eq_left'] at h
    exact .inr ⟨_, _, rfl, validateAll_items h⟩
  | _ => simp [listValidate, Val.iter, Val.seq?] at h

/-- Whether a clause is a list of expressions. -/
def Spec.Field.isList : Field → Bool
  | .select | .groupby | .arrayJoin | .where_ | .having | .orderby => true
  | _ => false

theorem clauses_fields {b : Body} (h : validateClauses b = .ok ()) (f : Field) :
    if f.isList then listValidate (f.get b) = .ok () else optValidate (f.get b) = .ok () := by
  simp only [validateClauses, bind_eq_ok] at h
  obtain ⟨_, h1, _, h2, _, h3, _, h4, _, h5, _, h6, _, h7, _, h8, _, h9, _, h10, h11⟩ := h
  cases f <;> simp only [Spec.Field.isList, Spec.Field.get, if_true, if_false, Bool.false_eq_true] <;> assumption

end Verif
