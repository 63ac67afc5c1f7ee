import Verif.Spec.Errors
import Verif.Props.Formula
import Verif.Props.Names
import Verif.Lemmas.ValInd

/-!
# Lemmas: which exceptions the checks raise
-/

namespace Verif
open Spec

section
variable [U : PyUnicode]

omit U in
theorem asStr_error {v : Val} {e e' : Err} (h : asStr v e = .error e') : e' = e := by
  cases v <;> simp_all [asStr]

omit U in
theorem checkAlias_error {v : Val} {e e' : Err} (h : checkAlias v e = .error e') : e' = e := by
  unfold checkAlias at h
  split at h
  · cases h
  · split at h
    · cases h; rfl
    · split at h <;> cases h
      rfl
  · cases h; rfl

omit U in
theorem checkInits_error {xs : List Val} {e : Err} (h : checkInits xs = .error e) : e = .invalidFunction := by
  exact (ensure_eq_error.1 h).2.symm

theorem checkFunctionName_error {n : Str} {e : Err} (h : checkFunctionName n = .error e) : e = .invalidFunction := by
  simp only [checkFunctionName, bind_eq_error, ensure_eq_error] at h
  rcases h with ⟨_, h⟩ | ⟨_, _, _, h⟩ <;> exact h.symm

omit U in
theorem isScalar_error_iff {v : Val} {e : Err} : isScalar v = .error e ↔ e = .invalidExpression ∧ BadSeq v := by
  constructor
  · intro h
    refine ⟨isScalar_error h, ?_⟩
    have hs : IsSeq v := by
      cases v <;> first | exact .list _ | exact .tuple _ | simp [isScalar] at h
    refine ⟨hs, fun hg => ?_⟩
    have := isScalar_true_iff.2 (.inr hg)
    rw [this] at h; cases h
  · rintro ⟨rfl, hs, hg⟩
    have := isScalar_seq hs
    cases hv : isScalar v with
    | error e => rw [isScalar_error hv]
    | ok b =>
      exfalso
      cases b with
      | true =>
        rcases isScalar_true_iff.1 hv with h | h
        · cases hs <;> cases h
        · exact hg h
      | false =>
        cases hs with
        | list xs => simp only [isScalar] at hv; cases allScalar_ok hv
        | tuple xs => simp only [isScalar] at hv; cases allScalar_ok hv

omit U in
theorem checkParams_error_iff {ps : List Val} : checkParams ps = .error .invalidExpression ↔
    ∃ pre x post, ps = pre ++ x :: post ∧ (∀ y ∈ pre, Param y ∨ Scalar y) ∧ BadSeq x := by
  induction ps with
  | nil => simp [checkParams]
  | cons p ps ih =>
    have hbad : BadSeq p → p.isParamExpr = false := by
      rintro ⟨h, _⟩; cases h <;> rfl
    have hcons : (∃ pre x post, p :: ps = pre ++ x :: post ∧ (∀ y ∈ pre, Param y ∨ Scalar y) ∧ BadSeq x) ↔
        BadSeq p ∨ (Param p ∨ Scalar p) ∧ ∃ pre x post, ps = pre ++ x :: post ∧ (∀ y ∈ pre, Param y ∨ Scalar y) ∧ BadSeq x := by
      constructor
      · rintro ⟨pre, x, post, h1, h2, h3⟩
        cases pre with
        | nil => simp only [List.nil_append, List.cons.injEq] at h1; obtain ⟨rfl, _⟩ := h1; exact .inl h3
        | cons q pre =>
          simp only [List.cons_append, List.cons.injEq] at h1
          obtain ⟨rfl, h1⟩ := h1
          exact .inr ⟨h2 p (by simp), pre, x, post, h1, fun y hy => h2 y (by simp [hy]), h3⟩
      · rintro (h | ⟨h, pre, x, post, h1, h2, h3⟩)
        · exact ⟨[], p, ps, rfl, by simp, h⟩
        · exact ⟨p :: pre, x, post, by rw [h1]; rfl, by simpa using ⟨h, h2⟩, h3⟩
    rw [hcons, ← ih, checkParams]
    cases hp : p.isParamExpr with
    | true =>
      simp only [if_true]
      constructor
      · intro h; exact .inr ⟨.inl (isParamExpr_iff.1 hp), h⟩
      · rintro (h | h)
        · rw [hbad h] at hp; cases hp
        · exact h.2
    | false =>
      simp only [Bool.false_eq_true, if_false]
      cases hs : isScalar p with
      | error e =>
        obtain ⟨rfl, hb⟩ := isScalar_error_iff.1 hs
        simp [error_bind, hb]
      | ok b =>
        have hnb : ¬ BadSeq p := fun hb => by rw [isScalar_error_iff.2 ⟨rfl, hb⟩] at hs; cases hs
        cases b with
        | true =>
          have := isScalar_true_iff.1 hs
          simp [ok_bind, hnb, this]
        | false =>
          have h1 : ¬ Param p := fun h => by rw [isParamExpr_iff.2 h] at hp; cases hp
          have h2 : ¬ Scalar p := fun h => by rw [isScalar_true_iff.2 h] at hs; cases hs
          simp [ok_bind, hnb, h1, h2]

omit U in
theorem checkParams_error' : ∀ {ps : List Val} {e : Err}, checkParams ps = .error e → e = .invalidFunction ∨ e = .invalidExpression
  | [], e, h => by cases h
  | p :: ps, e, h => by
    rw [checkParams] at h
    split at h
    · exact checkParams_error' h
    · rcases bind_eq_error.1 h with h | ⟨b, _, h⟩
      · exact .inr (isScalar_error h)
      · split at h
        · exact checkParams_error' h
        · cases h; exact .inl rfl

omit U in
theorem checkOptSeq_error {f : List Val → Except Err Unit} {v : Val} {e : Err} (h : checkOptSeq f v = .error e) :
    e = .invalidFunction ∨ ∃ k xs, v.seq? = some (k, xs) ∧ f xs = .error e := by
  unfold checkOptSeq at h
  split at h
  · cases h
  · split at h
    · cases h; exact .inl rfl
    · rename_i k xs hs
      rcases bind_eq_error.1 h with h | ⟨_, _, h⟩
      · exact .inr ⟨k, xs, hs, h⟩
      · cases h

theorem checkCurried_error {f i p a : Val} {e : Err} (h : checkCurried f i p a = .error e) :
    e = .invalidFunction ∨ e = .invalidExpression := by
  unfold checkCurried at h
  simp only [bind_eq_error] at h
  rcases h with h | ⟨_, _, h | ⟨_, _, h | ⟨_, _, h | ⟨_, _, h | ⟨_, _, h⟩⟩⟩⟩⟩
  · exact .inl (asStr_error h)
  · exact .inl (checkFunctionName_error h)
  · rcases checkOptSeq_error h with h | ⟨_, _, _, h⟩
    · exact .inl h
    · exact .inl (checkInits_error h)
  · exact .inl (checkAlias_error h)
  · rcases checkOptSeq_error h with h | ⟨_, _, _, h⟩
    · exact .inl h
    · exact checkParams_error' h
  · cases h

omit U in
theorem text_params {ps : List Val} (h : ∀ p ∈ ps, Literal p) : checkParams ps ≠ .error .invalidExpression := by
  intro hc
  obtain ⟨pre, x, post, rfl, _, hb⟩ := checkParams_error_iff.1 hc
  have := h x (by simp)
  obtain ⟨hs, _⟩ := hb
  cases hs <;> cases this

theorem checkCurried_error_iff {f i p a : Val} : checkCurried f i p a = .error .invalidExpression ↔
    (∃ r, checkCurried f i .none a = .ok r) ∧
    ∃ k pre x post, SeqOf p k (pre ++ x :: post) ∧ (∀ y ∈ pre, Param y ∨ Scalar y) ∧ BadSeq x := by
  have hseq : (checkOptSeq checkParams p = .error .invalidExpression) ↔
      ∃ k pre x post, SeqOf p k (pre ++ x :: post) ∧ (∀ y ∈ pre, Param y ∨ Scalar y) ∧ BadSeq x := by
    constructor
    · intro h
      rcases checkOptSeq_error h with h | ⟨k, xs, hs, h⟩
      · cases h
      · cases p <;> simp only [Val.seq?, Option.some.injEq, Prod.mk.injEq, reduceCtorEq] at hs
        case str s => obtain ⟨rfl, rfl⟩ := hs; exact absurd h (text_params (by simp; intros; constructor))
        case bytes s => obtain ⟨rfl, rfl⟩ := hs; exact absurd h (text_params (by simp; intros; constructor))
        case list xs =>
          obtain ⟨rfl, rfl⟩ := hs
          obtain ⟨pre, x, post, rfl, h1, h2⟩ := checkParams_error_iff.1 h
          exact ⟨_, pre, x, post, .list _, h1, h2⟩
        case tuple xs =>
          obtain ⟨rfl, rfl⟩ := hs
          obtain ⟨pre, x, post, rfl, h1, h2⟩ := checkParams_error_iff.1 h
          exact ⟨_, pre, x, post, .tuple _, h1, h2⟩
    · rintro ⟨k, pre, x, post, hs, h1, h2⟩
      have := checkParams_error_iff.2 ⟨pre, x, post, rfl, h1, h2⟩
      cases hs <;> simp [checkOptSeq, Val.seq?, this, error_bind]
  rw [← hseq]
  unfold checkCurried
  cases h1 : asStr f .invalidFunction with
  | error e => cases asStr_error h1; simp [error_bind]
  | ok n =>
    simp only [ok_bind]
    cases h2 : checkFunctionName n with
    | error e => cases checkFunctionName_error h2; simp [error_bind]
    | ok u =>
      simp only [ok_bind]
      cases h3 : checkOptSeq checkInits i with
      | error e =>
        rcases checkOptSeq_error h3 with rfl | ⟨_, _, _, h⟩
        · simp [error_bind]
        · cases checkInits_error h; simp [error_bind]
      | ok is =>
        simp only [ok_bind]
        cases h4 : checkAlias a .invalidFunction with
        | error e => cases checkAlias_error h4; simp [error_bind]
        | ok al =>
          simp only [ok_bind]
          have hn : checkOptSeq checkParams .none = .ok (.absent, []) := rfl
          rw [hn]
          cases h5 : checkOptSeq checkParams p with
          | error e => simp [error_bind, ok_bind]
          | ok q => simp [ok_bind]

end

/-! ### Hashing and the walk through a formula -/

theorem allHashable_iff {xs : List Val} (ih : ∀ x ∈ xs, hashable x = false ↔ Unhashable x) :
    allHashable xs = false ↔ ∃ x ∈ xs, Unhashable x := by
  induction xs with
  | nil => simp [allHashable]
  | cons x xs ih2 =>
    simp only [List.mem_cons, forall_eq_or_imp] at ih
    simp only [allHashable, Bool.and_eq_false_iff, ih.1, ih2 ih.2, List.mem_cons, exists_eq_or_imp]

theorem hashable_iff : ∀ v, hashable v = false ↔ Unhashable v := by
  refine Val.childInd fun v ih => ?_
  cases v
  case list xs => simp only [hashable, true_iff]; exact .list _
  case dataModel d => simp only [hashable, true_iff]; exact .dataModel _
  case tuple xs =>
    simp only [hashable, allHashable_iff (xs := xs) ih]
    exact ⟨fun ⟨x, h1, h2⟩ => .tuple _ x h1 h2, fun h => by cases h with | tuple _ x h1 h2 => exact ⟨x, h1, h2⟩⟩
  case curried f n ik is pk ps a =>
    have h1 := allHashable_iff (xs := is) fun x hx => ih x (by simp [Val.children, hx])
    have h2 := allHashable_iff (xs := ps) fun x hx => ih x (by simp [Val.children, hx])
    simp only [hashable, Bool.and_eq_false_iff, h1, h2, bne_eq_false_iff_eq]
    constructor
    · rintro (((rfl | ⟨x, h, h'⟩) | rfl) | ⟨x, h, h'⟩)
      · exact .initializerList ..
      · exact .initializer _ _ _ _ _ _ _ x h h'
      · exact .parameterList ..
      · exact .parameter _ _ _ _ _ _ _ x h h'
    · intro h
      cases h with
      | initializerList => exact .inl (.inl (.inl rfl))
      | parameterList => exact .inl (.inr rfl)
      | initializer _ _ _ _ _ _ _ x h h' => exact .inl (.inl (.inr ⟨x, h, h'⟩))
      | parameter _ _ _ _ _ _ _ x h h' => exact .inr ⟨x, h, h'⟩
  case lam k is b =>
    simp only [hashable, Bool.and_eq_false_iff, bne_eq_false_iff_eq, ih b (by simp [Val.children])]
    constructor
    · rintro (rfl | h)
      · exact .identifierList ..
      · exact .lambdaBody _ _ _ h
    · intro h; cases h with
      | identifierList => exact .inl rfl
      | lambdaBody _ _ _ h => exact .inr h
  case cond l o r =>
    simp only [hashable, Bool.and_eq_false_iff, ih l (by simp [Val.children]), ih r (by simp [Val.children])]
    constructor
    · rintro (h | h)
      · exact .left _ _ _ h
      · exact .right _ _ _ h
    · intro h; cases h with
      | left _ _ _ h => exact .inl h
      | right _ _ _ h => exact .inr h
  case boolCond c o k cs =>
    simp only [hashable, Bool.and_eq_false_iff, bne_eq_false_iff_eq, allHashable_iff (xs := cs) ih]
    constructor
    · rintro (rfl | ⟨x, h, h'⟩)
      · exact .conditionList ..
      · exact .condition _ _ _ _ x h h'
    · intro h; cases h with
      | conditionList => exact .inl rfl
      | condition _ _ _ _ x h h' => exact .inr ⟨x, h, h'⟩
  case orderby x d =>
    simp only [hashable, ih x (by simp [Val.children])]
    exact ⟨fun h => .ordered _ _ h, fun h => by cases h with | ordered _ _ h => exact h⟩
  case limitby k cs n =>
    simp only [hashable, bne_eq_false_iff_eq]
    exact ⟨fun h => by subst h; exact .columnList .., fun h => by cases h; rfl⟩
  case join k rs =>
    simp only [hashable, bne_eq_false_iff_eq]
    exact ⟨fun h => by subst h; exact .relationshipList .., fun h => by cases h; rfl⟩
  all_goals
    simp only [hashable, Bool.true_eq_false, false_iff]
    intro h; cases h

theorem allHashable_true {xs : List Val} : allHashable xs = true ↔ ∀ x ∈ xs, ¬ Unhashable x := by
  rw [← Bool.not_eq_false, allHashable_iff fun x _ => hashable_iff x]
  simp

theorem optGroupKey_ok_iff {g : Val} : (∃ r, optGroupKey g = .ok r) ↔ Groupable g := by
  unfold optGroupKey groupKey
  cases g
  case none => exact ⟨fun _ => .none, fun _ => ⟨_, rfl⟩⟩
  case str s =>
    refine ⟨fun _ => .str s, fun _ => ?_⟩
    have : allHashable (s.map fun c => Val.str [c]) = true := allHashable_true.2 (by simp; intro c _ h; cases h)
    simp [Val.given, Val.seq?, this, ok_bind]
  case bytes s =>
    refine ⟨fun _ => .bytes s, fun _ => ?_⟩
    have : allHashable (s.map fun b => Val.int b.toNat) = true := allHashable_true.2 (by simp; intro c _ h; cases h)
    simp [Val.given, Val.seq?, this, ok_bind]
  case list xs =>
    simp only [Val.given, Val.seq?, if_true]
    constructor
    · intro h
      split at h
      · rename_i hh; exact .items _ _ _ (.list xs) (allHashable_true.1 hh)
      · simp [error_bind] at h
    · intro h
      cases h with
      | items _ k ys hs hh => cases hs; simp [allHashable_true.2 hh, ok_bind]
  case tuple xs =>
    simp only [Val.given, Val.seq?, if_true]
    constructor
    · intro h
      split at h
      · rename_i hh; exact .items _ _ _ (.tuple xs) (allHashable_true.1 hh)
      · simp [error_bind] at h
    · intro h
      cases h with
      | items _ k ys hs hh => cases hs; simp [allHashable_true.2 hh, ok_bind]
  all_goals
    simp only [Val.given, Val.seq?, if_true, error_bind, reduceCtorEq, exists_false, false_iff]
    intro h
    cases h with | items _ k ys hs _ => cases hs

theorem optGroupKey_error_iff {g : Val} {e : Err} : optGroupKey g = .error e ↔ e = .typeError ∧ ¬ Groupable g := by
  rw [← optGroupKey_ok_iff]
  constructor
  · intro h
    refine ⟨?_, by rw [h]; simp⟩
    unfold optGroupKey groupKey at h
    split at h
    · rcases bind_eq_error.1 h with h | ⟨_, _, h⟩
      · split at h
        · cases h; rfl
        · split at h <;> cases h
          rfl
      · cases h
    · cases h
  · rintro ⟨rfl, h⟩
    cases hg : optGroupKey g with
    | ok r => exact absurd ⟨r, hg⟩ h
    | error e =>
      unfold optGroupKey groupKey at hg
      split at hg
      · rcases bind_eq_error.1 hg with h | ⟨_, _, h⟩
        · split at h
          · cases h; rfl
          · split at h <;> cases h
            rfl
        · cases h
      · cases hg

theorem scanAll_error {xs : List MVal} {e : Err} (ih : ∀ x ∈ xs, ∀ e, scanFormula x = .error e ↔ e = .typeError ∧ ∃ y, InFormula x y ∧ Stops y) :
    scanAll xs = .error e ↔ e = .typeError ∧ ∃ x ∈ xs, ∃ y, InFormula x y ∧ Stops y := by
  induction xs with
  | nil => simp [scanAll]
  | cons x xs ih2 =>
    simp only [List.mem_cons, forall_eq_or_imp] at ih
    have h1 := ih.1 e
    have h2 := ih2 ih.2
    simp only [scanAll, bind_eq_error, h1, h2, List.mem_cons, exists_eq_or_imp]
    constructor
    · rintro (⟨rfl, h⟩ | ⟨_, _, ⟨rfl, h⟩ | ⟨_, _, h⟩⟩)
      · exact ⟨rfl, .inl h⟩
      · exact ⟨rfl, .inr h⟩
      · cases h
    · rintro ⟨rfl, h | h⟩
      · exact .inl ⟨rfl, h⟩
      · cases hx : scanFormula x with
        | error e => exact .inl ⟨rfl, ((ih.1 e).1 hx).2⟩
        | ok r => exact .inr ⟨r, rfl, .inl ⟨rfl, h⟩⟩

theorem scanParams_error {ps : MVal} {e : Err}
    (ih : ∀ x ∈ ps.items, ∀ e, scanFormula x = .error e ↔ e = .typeError ∧ ∃ y, InFormula x y ∧ Stops y) :
    scanParams ps = .error e ↔ e = .typeError ∧ (¬ Walkable ps ∨ ∃ x ∈ ps.items, ∃ y, InFormula x y ∧ Stops y) := by
  cases ps
  case list xs =>
    rw [scanParams, scanAll_error (xs := xs) ih]
    have : Walkable (.list xs) := .items _ xs (.list _)
    simp [this, MVal.items]
  case tuple xs =>
    rw [scanParams, scanAll_error (xs := xs) ih]
    have : Walkable (.tuple xs) := .items _ xs (.tuple _)
    simp [this, MVal.items]
  case val v =>
    simp only [scanParams, MVal.items, List.not_mem_nil, false_and, exists_false, or_false]
    have hw : (v.truthy && v.seq?.isNone) = true ↔ ¬ Walkable (.val v) := by
      rw [Bool.and_eq_true]
      constructor
      · rintro ⟨h1, h2⟩ h
        cases h with
        | items _ xs h => cases h
        | values _ k xs h => cases h <;> cases h2
        | none => cases h1
        | str => cases h2
        | bytes => cases h2
        | zero _ h => rw [zero_not_truthy h] at h1; cases h1
      · intro h
        refine ⟨?_, ?_⟩
        · cases ht : v.truthy with
          | true => rfl
          | false =>
            exfalso
            rcases not_truthy ht with rfl | h0 | h0
            · exact h .none
            · cases h0 with
              | str => exact h (.str _)
              | bytes => exact h (.bytes _)
              | list => exact h (.values _ _ _ (.list _))
              | tuple => exact h (.values _ _ _ (.tuple _))
            · exact h (.zero _ h0)
        · cases v <;> first
            | rfl
            | exact (h (.str _)).elim
            | exact (h (.bytes _)).elim
            | exact (h (.values _ _ _ (.list _))).elim
            | exact (h (.values _ _ _ (.tuple _))).elim
    split
    · rename_i h
      simp [hw.1 h, eq_comm]
    · rename_i h
      have : ¬ ¬ Walkable (.val v) := fun h' => h (hw.2 h')
      simp [this]
  all_goals
    simp only [scanParams, MVal.items, List.not_mem_nil, false_and, exists_false, or_false, Except.error.injEq]
    constructor
    · rintro rfl
      refine ⟨rfl, fun h => ?_⟩
      cases h with | items _ xs h => cases h
    · rintro ⟨rfl, _⟩; rfl

/-- The walk through a formula raises `TypeError` exactly if it meets something that stops it. -/
theorem scanFormula_error : ∀ (x : MVal) (e : Err), scanFormula x = .error e ↔ e = .typeError ∧ ∃ y, InFormula x y ∧ Stops y := by
  refine MVal.ind fun x ih e => ?_
  cases x
  case formula n ps a f g =>
    have ih := ih n ps a f g rfl
    have hin : (∃ y, InFormula (.formula n ps a f g) y ∧ Stops y) ↔
        ¬ Groupable g ∨ ¬ Walkable ps ∨ ∃ x ∈ ps.items, ∃ y, InFormula x y ∧ Stops y := by
      constructor
      · rintro ⟨y, hy, hs⟩
        have : y = .formula n ps a f g ∨ ∃ p ∈ ps.items, InFormula p y := by
          clear hs ih
          induction hy with
          | self => exact .inl rfl
          | param h hs' hp ih =>
            rcases ih with ih | ⟨q, hq, ih⟩
            · cases ih
              right
              cases hs' <;> exact ⟨_, hp, .self⟩
            · exact .inr ⟨q, hq, .param ih hs' hp⟩
        rcases this with rfl | ⟨p, hp, h⟩
        · cases hs with
          | groupby _ _ _ _ _ h => exact .inl h
          | params _ _ _ _ _ h => exact .inr (.inl h)
        · exact .inr (.inr ⟨p, hp, y, h, hs⟩)
      · rintro (h | h | ⟨x, hx, y, hy, hs⟩)
        · exact ⟨_, .self, .groupby _ _ _ _ _ h⟩
        · exact ⟨_, .self, .params _ _ _ _ _ h⟩
        · refine ⟨y, ?_, hs⟩
          cases ps <;> simp only [MVal.items, List.not_mem_nil] at hx
          · exact inFormula_trans (.param .self (.list _) hx) hy
          · exact inFormula_trans (.param .self (.tuple _) hx) hy
    rw [hin]
    simp only [scanFormula, bind_eq_error, optGroupKey_error_iff, scanParams_error ih]
    constructor
    · rintro (⟨rfl, h⟩ | ⟨_, _, ⟨rfl, h⟩ | ⟨_, _, h⟩⟩)
      · exact ⟨rfl, .inl h⟩
      · exact ⟨rfl, .inr h⟩
      · cases h
    · rintro ⟨rfl, h | h⟩
      · exact .inl ⟨rfl, h⟩
      · cases hg : optGroupKey g with
        | error e => exact .inl ⟨rfl, (optGroupKey_error_iff.1 hg).2⟩
        | ok r => exact .inr ⟨r, rfl, .inl ⟨rfl, h⟩⟩
  case ts t =>
    have hin : (∃ y, InFormula (.ts t) y ∧ Stops y) ↔ ¬ Groupable t.groupby := by
      constructor
      · rintro ⟨y, hy, hs⟩
        rw [inFormula_leaf (by simp)] at hy
        subst hy
        cases hs with | ts _ h => exact h
      · intro h; exact ⟨_, .self, .ts _ h⟩
    rw [hin]
    simp only [scanFormula, bind_eq_error, optGroupKey_error_iff]
    constructor
    · rintro (h | ⟨_, _, h⟩)
      · exact h
      · cases h
    · exact .inl
  all_goals
    simp only [scanFormula, reduceCtorEq, false_iff]
    rintro ⟨_, y, hy, hs⟩
    rw [inFormula_leaf (by simp)] at hy
    subst hy
    cases hs

end Verif
