import Verif.Lemmas.Str
import Verif.Spec.Construct
import Verif.Model.Conditions
import Verif.Model.Relationships
import Verif.Model.OrderBy
import Verif.Model.Function

namespace Verif
open Spec

theorem asInt?_iff {v : Val} {n : PyInt} : v.asInt? = some n ↔ IntLike v n := by
  constructor
  · intro h; cases v <;> simp [Val.asInt?] at h
    · subst h; exact .bool _
    · subst h; exact .int _
  · rintro (_ | _) <;> rfl

theorem asInt?_none {v : Val} : v.asInt? = none ↔ ∀ n, ¬ IntLike v n := by
  rw [← Option.not_isSome_iff_eq_none, Option.isSome_iff_exists, not_exists]
  simp only [asInt?_iff]

theorem isExpression_iff {v : Val} : v.isExpression = true ↔ Expr v := by
  constructor
  · intro h; cases v <;> first | (simp [Val.isExpression] at h; done) | constructor
  · rintro (_ | _) <;> rfl

theorem isLiteral_iff {v : Val} : isLiteral v = true ↔ Literal v := by
  constructor
  · intro h; cases v <;> first | (simp [isLiteral] at h; done) | constructor
  · rintro (_ | _) <;> rfl

theorem isColOrFn_iff {v : Val} : v.isColOrFn = true ↔ ColOrFn v := by
  constructor
  · intro h; cases v <;> first | (simp [Val.isColOrFn, Val.isColumn, Val.isCurried] at h; done) | constructor
  · rintro (_ | _) <;> rfl

theorem isCondition_iff {v : Val} : v.isCondition = true ↔ Cond v := by
  constructor
  · intro h; cases v <;> first | (simp [Val.isCondition] at h; done) | constructor
  · rintro (_ | _) <;> rfl

theorem listOrTuple?_iff {v : Val} {k : SeqKind} {xs : List Val} :
    v.listOrTuple? = some (k, xs) ↔ SeqOf v k xs := by
  constructor
  · intro h; cases v <;> simp [Val.listOrTuple?] at h
    · obtain ⟨rfl, rfl⟩ := h; exact .list _
    · obtain ⟨rfl, rfl⟩ := h; exact .tuple _
  · rintro (_ | _) <;> rfl

theorem listOrTuple?_none {v : Val} : v.listOrTuple? = none ↔ ∀ k xs, ¬ SeqOf v k xs := by
  constructor
  · intro h k xs hs; rw [listOrTuple?_iff.2 hs] at h; cases h
  · intro h
    cases hv : v.listOrTuple? with
    | none => rfl
    | some p => exact absurd (listOrTuple?_iff.1 hv) (h _ _)

theorem allScalar_ok {xs : List Val} {b : Bool} (h : allScalar xs = .ok b) : b = true := by
  induction xs with
  | nil => simp [allScalar] at h; exact h
  | cons x xs ih =>
    simp only [allScalar, bind_eq_ok] at h
    obtain ⟨c, _, h⟩ := h
    split at h
    · exact ih h
    · simp at h

theorem allScalar_error {xs : List Val} {e : Err} : allScalar xs = .error e → e = .invalidExpression := by
  suffices H : ∀ n, ∀ (xs : List Val), sizeOf xs ≤ n → ∀ e, allScalar xs = .error e → e = .invalidExpression by
    exact H _ xs (Nat.le_refl _) e
  intro n
  induction n with
  | zero => intro xs hn; cases xs <;> simp at hn
  | succ n ih =>
    intro xs hn e h
    cases xs with
    | nil => simp [allScalar] at h
    | cons x xs =>
      simp only [List.cons.sizeOf_spec] at hn
      simp only [allScalar, bind_eq_error] at h
      rcases h with h | ⟨b, hb, h⟩
      · cases x <;> simp only [isScalar, isLiteral] at h <;> try (cases h; done)
        · rename_i ys; exact ih ys (by simp at hn; omega) e h
        · rename_i ys; exact ih ys (by simp at hn; omega) e h
      · split at h
        · exact ih xs (by omega) e h
        · cases h; rfl

theorem isScalar_error {v : Val} {e : Err} (h : isScalar v = .error e) : e = .invalidExpression := by
  cases v <;> simp only [isScalar] at h <;> first | exact allScalar_error h | (cases h; done)

/-- `allScalar` succeeds exactly on lists of allowed elements. -/
theorem allScalar_iff_aux : ∀ n, ∀ (xs : List Val), sizeOf xs ≤ n →
    (allScalar xs = .ok true ↔ ∀ x ∈ xs, Element x) := by
  intro n
  induction n with
  | zero => intro xs hn; cases xs <;> simp at hn
  | succ n ih =>
    intro xs hn
    cases xs with
    | nil => simp [allScalar]
    | cons x xs =>
      simp only [List.cons.sizeOf_spec] at hn
      have ihxs := ih xs (by omega)
      have key : (∃ b, isScalar x = .ok b ∧ (b || x.isExpression) = true) ↔ Element x := by
        constructor
        · rintro ⟨b, hb, h⟩
          cases x <;> simp only [isScalar, Except.ok.injEq, isLiteral] at hb
          case list ys =>
            have := allScalar_ok hb; subst this
            exact .list _ ((ih ys (by simp at hn; omega)).1 hb)
          case tuple ys =>
            have := allScalar_ok hb; subst this
            exact .tuple _ ((ih ys (by simp at hn; omega)).1 hb)
          all_goals
            subst hb
            first
            | exact .literal _ (isLiteral_iff.1 rfl)
            | exact .expr _ (isExpression_iff.1 (by simpa using h))
        · intro hx
          cases hx with
          | literal _ h => cases h <;> exact ⟨true, rfl, rfl⟩
          | expr _ h => cases h <;> exact ⟨false, rfl, rfl⟩
          | list ys h => exact ⟨true, by rw [isScalar]; exact (ih ys (by simp at hn; omega)).2 h, rfl⟩
          | tuple ys h => exact ⟨true, by rw [isScalar]; exact (ih ys (by simp at hn; omega)).2 h, rfl⟩
      simp only [allScalar, bind_eq_ok, List.mem_cons, forall_eq_or_imp, ← key, ← ihxs]
      constructor
      · rintro ⟨b, hb, h⟩
        split at h
        · exact ⟨⟨b, hb, by assumption⟩, h⟩
        · cases h
      · rintro ⟨⟨b, hb, h⟩, hxs⟩
        exact ⟨b, hb, by rw [if_pos h]; exact hxs⟩

theorem allScalar_iff {xs : List Val} : allScalar xs = .ok true ↔ ∀ x ∈ xs, Element x :=
  allScalar_iff_aux _ xs (Nat.le_refl _)

theorem isScalar_true_iff {v : Val} : isScalar v = .ok true ↔ Scalar v := by
  constructor
  · intro h
    cases v <;> simp only [isScalar, isLiteral, Except.ok.injEq, Bool.false_eq_true] at h
    case list xs => exact .inr (.list _ (allScalar_iff.1 h))
    case tuple xs => exact .inr (.tuple _ (allScalar_iff.1 h))
    all_goals exact .inl (isLiteral_iff.1 rfl)
  · rintro (h | h)
    · cases h <;> rfl
    · cases h <;> (rw [isScalar]; exact allScalar_iff.2 ‹_›)

/-- On a list or tuple `is_scalar` is `True` or raises. -/
theorem isScalar_seq {v : Val} (hv : IsSeq v) :
    (isScalar v = .ok true ∧ GoodSeq v) ∨ (isScalar v = .error .invalidExpression ∧ ¬ GoodSeq v) := by
  have : ∀ b, isScalar v = .ok b → b = true := by
    intro b hb; cases hv <;> (rw [isScalar] at hb; exact allScalar_ok hb)
  cases h : isScalar v with
  | ok b =>
    have := this b h; subst this
    rcases isScalar_true_iff.1 h with h' | h'
    · cases hv <;> cases h'
    · exact .inl ⟨rfl, h'⟩
  | error e =>
    rw [isScalar_error h]
    refine .inr ⟨rfl, fun hg => ?_⟩
    rw [isScalar_true_iff.2 (.inr hg)] at h; cases h

theorem allColumns_iff : ∀ {xs : List Val} {cs : List ColumnObj},
    allColumns xs = .ok cs ↔ xs = cs.map .column
  | [], cs => by cases cs <;> simp [allColumns]
  | x :: xs, cs => by
    cases x <;> try (simp only [allColumns, reduceCtorEq, false_iff]; intro h; cases cs <;> simp at h; done)
    rename_i c
    simp only [allColumns, bind_eq_ok, allColumns_iff (xs := xs)]
    constructor
    · rintro ⟨cs', rfl, h⟩; cases h; rfl
    · intro h
      cases cs with
      | nil => simp at h
      | cons d ds => simp at h; exact ⟨ds, h.2, by rw [h.1]⟩

theorem allColumns_error : ∀ {xs : List Val} {e : Err}, allColumns xs = .error e → e = .invalidExpression
  | [], e, h => by simp [allColumns] at h
  | x :: xs, e, h => by
    cases x <;> simp only [allColumns] at h <;> try (cases h; rfl)
    rcases bind_eq_error.1 h with h | ⟨a, _, h⟩
    · exact allColumns_error h
    · cases h

theorem asOp_ok {v : Val} {o : Op} : asOp v = .ok o ↔ v = .op o := by
  cases v <;> simp [asOp]

theorem asOp_error {v : Val} {e : Err} (h : asOp v = .error e) : e = .invalidCondition := by
  cases v <;> simp [asOp] at h <;> exact h.symm

theorem checkUnary_ok {o : Op} {r : Val} {u : Unit} :
    checkUnary o r = .ok u ↔ (o = .isNull ∨ o = .isNotNull → r = .none) := by
  cases o <;> simp [checkUnary, isUnary] <;> (cases r <;> simp)

theorem checkUnary_error {o : Op} {r : Val} {e : Err} (h : checkUnary o r = .error e) :
    e = .invalidCondition := by
  unfold checkUnary at h
  split at h
  · split at h <;> cases h; rfl
  · cases h

theorem checkRhs_ok {r : Val} {u : Unit} : checkRhs r = .ok u ↔ ColOrFn r ∨ Scalar r := by
  unfold checkRhs
  split
  · rename_i h; simp [isColOrFn_iff.1 h]
  · rename_i h
    rw [isColOrFn_iff] at h
    cases hs : isScalar r with
    | error e =>
      simp only [error_bind, reduceCtorEq, h, false_or, false_iff]
      intro h'; rw [isScalar_true_iff.2 h'] at hs; cases hs
    | ok b =>
      cases b
      · simp only [ok_bind, Bool.false_eq_true, if_false, reduceCtorEq, h, false_or, false_iff]
        intro h'; rw [isScalar_true_iff.2 h'] at hs; cases hs
      · simp [isScalar_true_iff.1 hs]

theorem checkRhs_error {r : Val} {e : Err} (h : checkRhs r = .error e) :
    e.isInvalidExpression = true := by
  unfold checkRhs at h
  split at h
  · cases h
  · rcases bind_eq_error.1 h with h | ⟨b, _, h⟩
    · rw [isScalar_error h]; rfl
    · split at h
      · cases h
      · cases h; rfl

theorem mkBool_ok_iff (cls : BoolCls) (o : BooleanOp) (cs x : Val) :
    mkBool cls o cs = .ok x ↔ ∃ k xs, SeqOf cs k xs ∧ 2 ≤ xs.length ∧ (∀ c ∈ xs, Cond c) ∧
      x = .boolCond cls o k xs := by
  unfold mkBool
  cases h : cs.listOrTuple? with
  | none =>
    simp only [reduceCtorEq, false_iff]
    rintro ⟨k, xs, hs, _⟩; exact listOrTuple?_none.1 h _ _ hs
  | some p =>
    obtain ⟨k, xs⟩ := p
    have hs := listOrTuple?_iff.1 h
    simp only [checkConditionItems, bind_eq_ok, ensure_eq_ok, decide_eq_true_eq, List.all_eq_true,
      isCondition_iff]
    constructor
    · rintro ⟨_, ⟨_, h1, h2⟩, hx⟩; cases hx; exact ⟨k, xs, hs, h1, h2, rfl⟩
    · rintro ⟨k', xs', hs', h1, h2, rfl⟩
      rw [← listOrTuple?_iff, h] at hs'; cases hs'
      exact ⟨(), ⟨(), h1, h2⟩, rfl⟩

theorem isParamExpr_iff {v : Val} : v.isParamExpr = true ↔ Param v := by
  constructor
  · intro h; cases v <;> first | (simp [Val.isParamExpr] at h; done) | constructor
  · rintro (_ | _) <;> rfl

theorem checkParams_iff : ∀ {ps : List Val},
    checkParams ps = .ok () ↔ ∀ p ∈ ps, Param p ∨ Scalar p
  | [] => by simp [checkParams]
  | p :: ps => by
    have ih := checkParams_iff (ps := ps)
    simp only [checkParams, List.mem_cons, forall_eq_or_imp]
    split
    · rename_i hp; simp [isParamExpr_iff.1 hp, ih]
    · rename_i hp
      rw [isParamExpr_iff] at hp
      simp only [hp, false_or]
      cases h : isScalar p with
      | error e =>
        simp only [error_bind, reduceCtorEq, false_iff, not_and]
        intro hs; rw [isScalar_true_iff.2 hs] at h; cases h
      | ok b =>
        cases b
        · simp only [ok_bind, Bool.false_eq_true, if_false, reduceCtorEq, false_iff, not_and]
          intro hs; rw [isScalar_true_iff.2 hs] at h; cases h
        · simp [isScalar_true_iff.1 h, ih]

theorem checkParams_error : ∀ {ps : List Val} {e : Err}, checkParams ps = .error e →
    e.isInvalidExpression = true
  | [], e, h => by simp [checkParams] at h
  | p :: ps, e, h => by
    simp only [checkParams] at h
    split at h
    · exact checkParams_error h
    · rcases bind_eq_error.1 h with h | ⟨b, _, h⟩
      · rw [isScalar_error h]; rfl
      · split at h
        · exact checkParams_error h
        · cases h; rfl

theorem mem_aliasMappings {rels : List RelObj} {a n : Str} :
    (a, n) ∈ aliasMappings rels ↔ Spec.Uses rels a n := by
  have hm : ∀ e : EntityObj, (a, n) ∈ e.mapping ↔ e.alias = some a ∧ e.name = n := by
    intro e; unfold EntityObj.mapping
    cases e.alias <;> simp [eq_comm]
  simp [aliasMappings, Spec.Uses, hm]

theorem lookup_some_mem {a m : Str} : ∀ {l : List (Str × Str)}, l.lookup a = some m → (a, m) ∈ l
  | [], h => by simp at h
  | (x, y) :: l, h => by
    simp only [List.lookup] at h
    split at h
    · rename_i hx; simp at hx h; subst hx; subst h; simp
    · exact List.mem_cons_of_mem _ (lookup_some_mem h)

theorem lookup_none {a : Str} : ∀ {l : List (Str × Str)}, l.lookup a = none → ∀ m, (a, m) ∉ l
  | [], _ => by simp
  | (x, y) :: l, h => by
    simp only [List.lookup] at h
    split at h
    · simp at h
    · rename_i hx
      intro m hm
      simp at hm
      rcases hm with ⟨rfl, _⟩ | hm
      · simp at hx
      · exact lookup_none h m hm

/-- The loop accepts exactly when the entries, together with those seen, form a function. -/
theorem checkSeen_iff : ∀ (m seen : List (Str × Str)),
    (∀ a n n', (a, n) ∈ seen → (a, n') ∈ seen → n = n') →
    (checkSeen seen m = .ok () ↔ ∀ a n n', (a, n) ∈ seen ++ m → (a, n') ∈ seen ++ m → n = n')
  | [], seen, hs => by simpa [checkSeen] using hs
  | (a, n) :: m, seen, hs => by
    have step : (∀ x, (a, x) ∈ seen → x = n) →
        (checkSeen ((a, n) :: seen) m = .ok () ↔
          ∀ b x x', (b, x) ∈ seen ++ (a, n) :: m → (b, x') ∈ seen ++ (a, n) :: m → x = x') := by
      intro hc
      rw [checkSeen_iff m ((a, n) :: seen) (by
        intro b x x' h h'
        simp only [List.mem_cons, Prod.mk.injEq] at h h'
        rcases h with ⟨rfl, rfl⟩ | h <;> rcases h' with ⟨h1, h2⟩ | h'
        · exact h2.symm
        · exact (hc _ h').symm
        · subst h1; rw [h2]; exact hc _ h
        · exact hs _ _ _ h h')]
      have : ∀ p, p ∈ (a, n) :: seen ++ m ↔ p ∈ seen ++ (a, n) :: m := by
        intro p; simp; constructor <;> (rintro (h | h | h) <;> simp [h])
      simp only [this]
    simp only [checkSeen]
    cases hl : seen.lookup a with
    | some k =>
      have hk := lookup_some_mem hl
      simp only
      split
      · rename_i hne
        simp only [reduceCtorEq, false_iff]
        intro h; exact hne (h a k n (by simp [hk]) (by simp))
      · rename_i heq
        have heq : k = n := Classical.not_not.1 heq
        subst heq
        exact step fun x hx => hs _ _ _ hx hk
    | none => exact step fun x hx => absurd hx (lookup_none hl x)

theorem allRels_iff : ∀ {xs : List Val} {rs : List RelObj}, allRels xs = .ok rs ↔ xs = rs.map .rel
  | [], rs => by cases rs <;> simp [allRels]
  | x :: xs, rs => by
    cases x <;> try (simp only [allRels, reduceCtorEq, false_iff]; intro h; cases rs <;> simp at h; done)
    rename_i c
    simp only [allRels, bind_eq_ok, allRels_iff (xs := xs)]
    constructor
    · rintro ⟨cs', rfl, h⟩; cases h; rfl
    · intro h
      cases rs with
      | nil => simp at h
      | cons d ds => simp at h; exact ⟨ds, h.2, by rw [h.1]⟩

theorem allRels_error : ∀ {xs : List Val} {e : Err}, allRels xs = .error e → e = .invalidExpression
  | [], e, h => by simp [allRels] at h
  | x :: xs, e, h => by
    cases x <;> simp only [allRels] at h <;> try (cases h; rfl)
    rcases bind_eq_error.1 h with h | ⟨a, _, h⟩
    · exact allRels_error h
    · cases h

theorem checkSeen_error : ∀ {m seen : List (Str × Str)} {e : Err}, checkSeen seen m = .error e →
    e = .invalidExpression
  | [], seen, e, h => by simp [checkSeen] at h
  | (a, n) :: m, seen, e, h => by
    simp only [checkSeen] at h
    split at h
    · split at h
      · cases h; rfl
      · exact checkSeen_error h
    · exact checkSeen_error h

theorem checkJoin_iff (rels : List RelObj) : checkJoin rels = .ok () ↔
    rels ≠ [] ∧ ∀ a n n', Spec.Uses rels a n → Spec.Uses rels a n' → n = n' := by
  unfold checkJoin
  rw [bind_eq_ok]
  simp only [ensure_eq_ok, ← mem_aliasMappings]
  have := checkSeen_iff (aliasMappings rels) [] (by simp)
  simp only [List.nil_append] at this
  rw [this]
  constructor
  · rintro ⟨_, h1, h2⟩; exact ⟨by simpa using h1, h2⟩
  · rintro ⟨h1, h2⟩; exact ⟨(), by simpa using h1, h2⟩

end Verif
