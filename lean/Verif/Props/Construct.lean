import Verif.Lemmas.Construct

/-!
# C07, C10, C11, C12: what the constructors accept
-/

namespace Verif
open Spec

/-! ### C07 -/

/-- **C07** (`Limit`): accepted exactly for the ints 1..10000 (`True` is the int 1), and the object
holds the given value. -/
theorem C07_limit_accepts_iff (v x : Val) :
    mkLimit v = .ok x ↔ ∃ n, IntLike v n ∧ 1 ≤ n.toInt ∧ n.toInt ≤ 10000 ∧ x = .limit n := by
  unfold mkLimit validateIntLiteral
  cases h : v.asInt? with
  | none => simp only [error_bind, reduceCtorEq, false_iff]
            rintro ⟨n, hn, _⟩; exact asInt?_none.1 h n hn
  | some n =>
    have hn := asInt?_iff.1 h
    have uniq : ∀ m, IntLike v m → m = n := by
      intro m hm; rw [← asInt?_iff, h] at hm; cases hm; rfl
    constructor
    · intro hx
      simp only [decide_eq_true_eq] at hx
      split at hx
      · cases hx
      · split at hx
        · cases hx
        · cases hx; exact ⟨n, hn, by omega, by omega, rfl⟩
    · rintro ⟨m, hm, h1, h2, rfl⟩
      have := uniq m hm; subst this
      have e1 : ¬ m.toInt < 1 := by omega
      have e2 : ¬ m.toInt > 10000 := by omega
      simp [e1, e2]

/-- **C07** (`Limit`): everything else raises `InvalidExpressionError`. -/
theorem C07_limit_rejects (v : Val) (h : ∀ x, mkLimit v ≠ .ok x) :
    mkLimit v = .error .invalidExpression := by
  unfold mkLimit validateIntLiteral at *
  cases ha : v.asInt? with
  | none => simp
  | some n =>
    simp only [ha] at h ⊢
    split
    · simp
    · rename_i h1
      split
      · simp
      · rename_i h2; simp [h1, h2] at h

/-- **C07** (`Offset`): accepted exactly for the ints ≥ 0. -/
theorem C07_offset_accepts_iff (v x : Val) :
    mkOffset v = .ok x ↔ ∃ n, IntLike v n ∧ 0 ≤ n.toInt ∧ x = .offset n := by
  unfold mkOffset validateIntLiteral
  cases h : v.asInt? with
  | none => simp only [error_bind, reduceCtorEq, false_iff]
            rintro ⟨n, hn, _⟩; exact asInt?_none.1 h n hn
  | some n =>
    have hn := asInt?_iff.1 h
    have uniq : ∀ m, IntLike v m → m = n := by
      intro m hm; rw [← asInt?_iff, h] at hm; cases hm; rfl
    constructor
    · intro hx
      simp only [decide_eq_true_eq] at hx
      split at hx
      · cases hx
      · cases hx; exact ⟨n, hn, by omega, rfl⟩
    · rintro ⟨m, hm, h1, rfl⟩
      have := uniq m hm; subst this
      have e1 : ¬ m.toInt < 0 := by omega
      simp [e1]

/-- **C07** (`Offset`): everything else raises `InvalidExpressionError`. -/
theorem C07_offset_rejects (v : Val) (h : ∀ x, mkOffset v ≠ .ok x) :
    mkOffset v = .error .invalidExpression := by
  unfold mkOffset validateIntLiteral at *
  cases ha : v.asInt? with
  | none => simp
  | some n =>
    simp only [ha] at h ⊢
    split
    · simp
    · rename_i h1; simp [h1] at h

/-- **C07** (`Granularity`): accepted exactly for the ints ≥ 1. -/
theorem C07_granularity_accepts_iff (v x : Val) :
    mkGranularity v = .ok x ↔ ∃ n, IntLike v n ∧ 1 ≤ n.toInt ∧ x = .granularity n := by
  unfold mkGranularity validateIntLiteral
  cases h : v.asInt? with
  | none => simp only [error_bind, reduceCtorEq, false_iff]
            rintro ⟨n, hn, _⟩; exact asInt?_none.1 h n hn
  | some n =>
    have hn := asInt?_iff.1 h
    have uniq : ∀ m, IntLike v m → m = n := by
      intro m hm; rw [← asInt?_iff, h] at hm; cases hm; rfl
    constructor
    · intro hx
      simp only [decide_eq_true_eq] at hx
      split at hx
      · cases hx
      · cases hx; exact ⟨n, hn, by omega, rfl⟩
    · rintro ⟨m, hm, h1, rfl⟩
      have := uniq m hm; subst this
      have e1 : ¬ m.toInt < 1 := by omega
      simp [e1]

/-- **C07** (`Granularity`): everything else raises `InvalidExpressionError`. -/
theorem C07_granularity_rejects (v : Val) (h : ∀ x, mkGranularity v ≠ .ok x) :
    mkGranularity v = .error .invalidExpression := by
  unfold mkGranularity validateIntLiteral at *
  cases ha : v.asInt? with
  | none => simp
  | some n =>
    simp only [ha] at h ⊢
    split
    · simp
    · rename_i h1; simp [h1] at h

/-- **C07** (`Totals`, `Extrapolate`): accepted exactly for booleans; an int is not one. -/
theorem C07_totals_extrapolate_accept_iff (v x : Val) :
    (mkTotals v = .ok x ↔ ∃ b, v = .bool b ∧ x = .totals b) ∧
    (mkExtrapolate v = .ok x ↔ ∃ b, v = .bool b ∧ x = .extrapolate b) := by
  constructor <;> cases v <;> simp [mkTotals, mkExtrapolate, eq_comm]

/-- **C07** (`Totals`, `Extrapolate`): everything else raises `InvalidExpressionError`. -/
theorem C07_totals_extrapolate_reject (v : Val) (h : ∀ b, v ≠ .bool b) :
    mkTotals v = .error .invalidExpression ∧ mkExtrapolate v = .error .invalidExpression := by
  cases v <;> first | exact ⟨rfl, rfl⟩ | exact absurd rfl (h _)

/-- **C07** (`LimitBy`): accepted exactly for a non-empty list or tuple of columns with an int count
in 1..10000. -/
theorem C07_limitby_accepts_iff (cols count x : Val) :
    mkLimitBy cols count = .ok x ↔ ∃ k cs n, SeqOf cols k (cs.map .column) ∧ cs ≠ [] ∧
      IntLike count n ∧ 1 ≤ n.toInt ∧ n.toInt ≤ 10000 ∧ x = .limitby k cs n := by
  have main : ∀ k xs, (∀ cs : List ColumnObj, xs = cs.map Val.column → SeqOf cols k xs) →
      cols.seq? = some (k, xs) → (mkLimitBy cols count = .ok x ↔ ∃ cs n, xs = cs.map .column ∧ cs ≠ [] ∧
      IntLike count n ∧ 1 ≤ n.toInt ∧ n.toInt ≤ 10000 ∧ x = .limitby k cs n) := by
    intro k xs _ hs
    unfold mkLimitBy
    simp only [hs, bind_eq_ok, ensure_eq_ok, decide_eq_true_eq, allColumns_iff]
    constructor
    · rintro ⟨_, hlen, cs, hcs, h⟩
      cases ha : count.asInt? with
      | none => simp [ha] at h
      | some n =>
        simp only [ha, bind_eq_ok, ensure_eq_ok] at h
        obtain ⟨_, h1, h⟩ := h
        simp at h1; cases h
        refine ⟨cs, n, hcs, ?_, asInt?_iff.1 ha, by omega, by omega, rfl⟩
        rintro rfl; subst hcs; simp at hlen
    · rintro ⟨cs, n, hcs, hne, hn, h1, h2, rfl⟩
      refine ⟨(), ?_, cs, hcs, ?_⟩
      · subst hcs; cases cs <;> simp at hne ⊢
      · rw [asInt?_iff.2 hn]
        simp only [bind_eq_ok, ensure_eq_ok]
        exact ⟨(), by simp; omega, trivial⟩
  have fin : ∀ k xs, SeqOf cols k xs → cols.seq? = some (k, xs) →
      (mkLimitBy cols count = .ok x ↔ ∃ k cs n, SeqOf cols k (cs.map .column) ∧ cs ≠ [] ∧
      IntLike count n ∧ 1 ≤ n.toInt ∧ n.toInt ≤ 10000 ∧ x = .limitby k cs n) := by
    intro k xs hso hs
    rw [main k xs (fun _ _ => hso) hs]
    constructor
    · rintro ⟨cs, n, rfl, h⟩; exact ⟨k, cs, n, hso, h⟩
    · rintro ⟨k', cs, n, h', h⟩
      have : k' = k ∧ cs.map Val.column = xs := by
        rw [← listOrTuple?_iff] at h' hso
        rw [hso] at h'; cases h'; exact ⟨rfl, rfl⟩
      obtain ⟨rfl, rfl⟩ := this
      exact ⟨cs, n, rfl, h⟩
  have bad : (∀ k xs, ¬ SeqOf cols k xs) → (∀ x, mkLimitBy cols count ≠ .ok x) →
      (mkLimitBy cols count = .ok x ↔ ∃ k cs n, SeqOf cols k (cs.map .column) ∧ cs ≠ [] ∧
      IntLike count n ∧ 1 ≤ n.toInt ∧ n.toInt ≤ 10000 ∧ x = .limitby k cs n) := by
    intro h1 h2
    constructor
    · intro h; exact absurd h (h2 x)
    · rintro ⟨k, cs, n, h, _⟩; exact absurd h (h1 _ _)
  cases cols
  case list xs => exact fin _ _ (.list xs) rfl
  case tuple xs => exact fin _ _ (.tuple xs) rfl
  case str s =>
    refine bad (by intro k xs h; cases h) (fun x h => ?_)
    simp only [mkLimitBy, Val.seq?, bind_eq_ok] at h
    obtain ⟨_, h1, cs, h2, _⟩ := h
    rw [allColumns_iff] at h2
    cases s <;> cases cs <;> simp [ensure] at h1 h2
  case bytes s =>
    refine bad (by intro k xs h; cases h) (fun x h => ?_)
    simp only [mkLimitBy, Val.seq?, bind_eq_ok] at h
    obtain ⟨_, h1, cs, h2, _⟩ := h
    rw [allColumns_iff] at h2
    cases s <;> cases cs <;> simp [ensure] at h1 h2
  all_goals exact bad (by intro k xs h; cases h) (fun x h => by simp [mkLimitBy, Val.seq?] at h)

/-- **C07** (`LimitBy`): everything else raises `InvalidExpressionError`. -/
theorem C07_limitby_rejects (cols count : Val) (e : Err) (h : mkLimitBy cols count = .error e) :
    e = .invalidExpression := by
  unfold mkLimitBy at h
  split at h
  · cases h; rfl
  · rcases bind_eq_error.1 h with h | ⟨_, _, h⟩
    · exact (ensure_eq_error.1 h).2.symm
    · rcases bind_eq_error.1 h with h | ⟨cs, _, h⟩
      · exact allColumns_error h
      · split at h
        · cases h; rfl
        · rcases bind_eq_error.1 h with h | ⟨_, _, h⟩
          · exact (ensure_eq_error.1 h).2.symm
          · cases h

example : IntLike (.int 10000) (.int 10000) ∧ mkLimit (.int 10000) = .ok (.limit (.int 10000)) ∧
    mkLimit (.int 10001) = .error .invalidExpression ∧ mkLimit (.int 0) = .error .invalidExpression ∧
    mkLimit (.bool true) = .ok (.limit (.bool true)) ∧ mkLimit (.str c!"5") = .error .invalidExpression ∧
    mkOffset (.int 0) = .ok (.offset (.int 0)) ∧ mkOffset (.int (-1)) = .error .invalidExpression ∧
    mkGranularity (.int 0) = .error .invalidExpression ∧ mkTotals (.int 1) = .error .invalidExpression := by
  refine ⟨.int _, ?_⟩
  repeat' constructor

example : mkLimitBy (.tuple [.column ⟨c!"a", none, none, none⟩]) (.int 5) =
      .ok (.limitby .tuple [⟨c!"a", none, none, none⟩] (.int 5)) ∧
    mkLimitBy (.list []) (.int 5) = .error .invalidExpression ∧
    mkLimitBy (.str c!"a") (.int 5) = .error .invalidExpression := ⟨rfl, rfl, rfl⟩

/-! ### C11 -/

/-- **C11** (`Condition`): what can be built. -/
theorem C11_condition_accepts_iff (l op r x : Val) :
    mkCondition l op r = .ok x ↔ ∃ o, op = .op o ∧ ColOrFn l ∧
      (o = .isNull ∨ o = .isNotNull → r = .none) ∧ (ColOrFn r ∨ Scalar r) ∧ x = .cond l o r := by
  unfold mkCondition checkCondition
  simp only [bind_eq_ok, ensure_eq_ok, isColOrFn_iff, asOp_ok, checkUnary_ok, checkRhs_ok]
  constructor
  · rintro ⟨o, ⟨_, hl, o', rfl, _, hu, _, hr, ho⟩, hx⟩
    cases ho; cases hx; exact ⟨_, rfl, hl, hu, hr, rfl⟩
  · rintro ⟨o, rfl, hl, hu, hr, rfl⟩
    exact ⟨o, ⟨(), hl, o, rfl, (), hu, (), hr, rfl⟩, rfl⟩

/-- **C11** (`Condition`): everything else raises an `InvalidExpressionError` (or its subclass
`InvalidConditionError`). -/
theorem C11_condition_rejects (l op r : Val) (e : Err) (h : mkCondition l op r = .error e) :
    e.isInvalidExpression = true := by
  unfold mkCondition checkCondition at h
  simp only [bind_eq_error, ensure_eq_error] at h
  rcases h with (⟨_, h⟩ | ⟨_, _, h | ⟨_, _, h | ⟨_, _, h | ⟨_, _, h⟩⟩⟩⟩) | ⟨_, _, h⟩
  · rw [← h]; rfl
  · rw [asOp_error h]; rfl
  · rw [checkUnary_error h]; rfl
  · exact checkRhs_error h
  · cases h
  · cases h

/-- **C11** (`BooleanCondition`, `And`, `Or`): what can be built. -/
theorem C11_boolean_accepts_iff (op cs x : Val) :
    (mkBooleanCondition op cs = .ok x ↔ ∃ o k xs, op = .boolOp o ∧ SeqOf cs k xs ∧ 2 ≤ xs.length ∧
      (∀ c ∈ xs, Cond c) ∧ x = .boolCond .base o k xs) ∧
    (mkAnd cs = .ok x ↔ ∃ k xs, SeqOf cs k xs ∧ 2 ≤ xs.length ∧ (∀ c ∈ xs, Cond c) ∧
      x = .boolCond .and .and k xs) ∧
    (mkOr cs = .ok x ↔ ∃ k xs, SeqOf cs k xs ∧ 2 ≤ xs.length ∧ (∀ c ∈ xs, Cond c) ∧
      x = .boolCond .or .or k xs) := by
  refine ⟨?_, mkBool_ok_iff _ _ _ _, mkBool_ok_iff _ _ _ _⟩
  constructor
  · intro h
    cases op <;> simp only [mkBooleanCondition, reduceCtorEq] at h
    obtain ⟨k, xs, h⟩ := (mkBool_ok_iff _ _ _ _).1 h
    exact ⟨_, k, xs, rfl, h⟩
  · rintro ⟨o, k, xs, rfl, h⟩
    exact (mkBool_ok_iff _ _ _ _).2 ⟨k, xs, h⟩

/-- **C11** (`BooleanCondition`, `And`, `Or`): everything else raises `InvalidConditionError`. -/
theorem C11_boolean_rejects (op cs : Val) (e : Err)
    (h : mkBooleanCondition op cs = .error e ∨ mkAnd cs = .error e ∨ mkOr cs = .error e) :
    e = .invalidCondition := by
  have key : ∀ cls o, mkBool cls o cs = .error e → e = .invalidCondition := by
    intro cls o h
    unfold mkBool checkConditionItems at h
    split at h
    · cases h; rfl
    · rcases bind_eq_error.1 h with h | ⟨_, _, h⟩
      · rcases bind_eq_error.1 h with h | ⟨_, _, h⟩ <;> exact (ensure_eq_error.1 h).2.symm
      · cases h
  rcases h with h | h | h
  · cases op <;> simp only [mkBooleanCondition] at h <;> first | exact key _ _ h | (cases h; rfl)
  · exact key _ _ h
  · exact key _ _ h

/-- A column used in examples. -/
def exCol : Val := .column ⟨c!"project_id", none, none, none⟩

example : mkCondition exCol (.op .in_) (.tuple [.int 1, exCol]) =
      .ok (.cond exCol .in_ (.tuple [.int 1, exCol])) ∧
    mkCondition exCol (.op .isNull) (.int 1) = .error .invalidCondition ∧
    mkCondition (.int 1) (.op .eq) (.int 1) = .error .invalidCondition ∧
    mkCondition exCol (.op .in_) (.list [.other 0]) = .error .invalidExpression := ⟨rfl, rfl, rfl, rfl⟩

example : mkAnd (.list [.cond exCol .eq (.int 1), .cond exCol .eq (.int 2)]) =
      .ok (.boolCond .and .and .list [.cond exCol .eq (.int 1), .cond exCol .eq (.int 2)]) ∧
    mkOr (.list [.cond exCol .eq (.int 1)]) = .error .invalidCondition := ⟨rfl, rfl⟩

/-! ### C10 -/

/-- **C10** (conditions): a list or tuple is accepted as right-hand side exactly when every element at
every depth is allowed; otherwise `InvalidExpressionError` is raised. -/
theorem C10_condition_sequence_exact (l r : Val) (o : Op) (hl : ColOrFn l)
    (ho : o ≠ .isNull ∧ o ≠ .isNotNull) (hr : IsSeq r) :
    (GoodSeq r → mkCondition l (.op o) r = .ok (.cond l o r)) ∧
    (¬ GoodSeq r → mkCondition l (.op o) r = .error .invalidExpression) := by
  constructor
  · intro hg
    exact (C11_condition_accepts_iff _ _ _ _).2 ⟨o, rfl, hl, fun h => h.elim
      (fun h => absurd h ho.1) (fun h => absurd h ho.2), .inr (.inr hg), rfl⟩
  · intro hg
    have hu : isUnary o = false := by cases o <;> simp_all [isUnary]
    have hc : r.isColOrFn = false := by cases hr <;> rfl
    rcases isScalar_seq hr with ⟨_, h⟩ | ⟨h, _⟩
    · exact absurd h hg
    · simp [mkCondition, checkCondition, isColOrFn_iff.2 hl, ensure, asOp, checkUnary, checkRhs, hu, hc, h]

section
variable [U : PyUnicode]

/-- **C10** (functions): with a name and alias that a parameterless function accepts, a list of
parameters is accepted exactly when each is a column, function, identifier, lambda, literal, or
a list/tuple whose elements at every depth are allowed; otherwise an `InvalidExpressionError` is raised.
The same for `CurriedFunction`. -/
theorem C10_function_params_exact (name inits alias f0 : Val) (ps : List Val)
    (h0 : mkCurried name inits .none alias = .ok f0) :
    ((∃ f, mkCurried name inits (.list ps) alias = .ok f) ↔
      ∀ p ∈ ps, Param p ∨ Literal p ∨ GoodSeq p) ∧
    (∀ e, mkCurried name inits (.list ps) alias = .error e → e.isInvalidExpression = true) := by
  unfold mkCurried checkCurried at h0 ⊢
  simp only [bind_eq_ok] at h0
  obtain ⟨a, ⟨n, hn, _, hc, i, hi, al, hal, p, hp, hx⟩, _⟩ := h0
  have hps : checkOptSeq checkParams (.list ps) = (do checkParams ps; .ok (.list, ps)) := rfl
  simp only [hn, ok_bind, hc, hi, hal, hps]
  cases h : checkParams ps with
  | ok u =>
    have := checkParams_iff.1 h
    exact ⟨⟨fun _ => this, fun _ => ⟨_, rfl⟩⟩, by intro e he; cases he⟩
  | error e =>
    refine ⟨⟨fun ⟨f, hf⟩ => (by cases hf), fun hh => ?_⟩, ?_⟩
    · rw [checkParams_iff.2 hh] at h; cases h
    · intro e' he'; cases he'; exact checkParams_error h

end

example : @mkCurried asciiUnicode (.str c!"in") .none (.list [exCol, .tuple [.int 1, .list [.str c!"x"]]]) .none =
      .ok (.curried false c!"in" .absent [] .list [exCol, .tuple [.int 1, .list [.str c!"x"]]] none) ∧
    @mkCurried asciiUnicode (.str c!"in") .none (.list [exCol, .tuple [.int 1, .list [.other 7]]]) .none =
      .error .invalidExpression := ⟨rfl, rfl⟩

example : GoodSeq (.tuple [.int 1, .list [.str c!"x"]]) ∧ ¬ GoodSeq (.tuple [.list [.other 7]]) := by
  constructor
  · exact ((isScalar_true_iff (v := .tuple [.int 1, .list [.str c!"x"]])).1 rfl).resolve_left (by intro h; cases h)
  · intro h
    have := isScalar_true_iff.2 (.inr h)
    cases this

/-! ### C12 -/

/-- **C12.** A `Join` can be built exactly from a non-empty list or tuple of relationships in which no
alias stands for two entity names. -/
theorem C12_join_accepts_iff (v x : Val) :
    mkJoin v = .ok x ↔ ∃ k rels, SeqOf v k (rels.map .rel) ∧ rels ≠ [] ∧
      (∀ a n n', Spec.Uses rels a n → Spec.Uses rels a n' → n = n') ∧ x = .join k rels := by
  unfold mkJoin
  cases h : v.listOrTuple? with
  | none =>
    simp only [reduceCtorEq, false_iff]
    rintro ⟨k, rels, hs, _⟩; exact listOrTuple?_none.1 h _ _ hs
  | some p =>
    obtain ⟨k, xs⟩ := p
    have hs := listOrTuple?_iff.1 h
    simp only [bind_eq_ok, allRels_iff, ensure_eq_ok]
    constructor
    · rintro ⟨_, _, rs, rfl, _, h2, hx⟩
      cases hx
      have := (checkJoin_iff rs).1 h2
      exact ⟨k, rs, hs, this.1, this.2, rfl⟩
    · rintro ⟨k', rels, hs', h1, h2, rfl⟩
      rw [← listOrTuple?_iff, h] at hs'; cases hs'
      exact ⟨(), by cases rels <;> simp at h1 ⊢, rels, rfl, (), (checkJoin_iff rels).2 ⟨h1, h2⟩, rfl⟩

/-- **C12.** Everything else raises `InvalidExpressionError`. -/
theorem C12_join_rejects (v : Val) (e : Err) (h : mkJoin v = .error e) : e = .invalidExpression := by
  unfold mkJoin checkJoin at h
  split at h
  · cases h; rfl
  · rcases bind_eq_error.1 h with h | ⟨_, _, h⟩
    · exact (ensure_eq_error.1 h).2.symm
    · rcases bind_eq_error.1 h with h | ⟨rs, _, h⟩
      · exact allRels_error h
      · rcases bind_eq_error.1 h with h | ⟨_, _, h⟩
        · rcases bind_eq_error.1 h with h | ⟨_, _, h⟩
          · exact (ensure_eq_error.1 h).2.symm
          · exact checkSeen_error h
        · cases h

/-- **C12.** The outcome of the alias check does not depend on the order in which Python enumerates
the set of alias mappings. -/
theorem C12_order_independent (rels : List RelObj) (m : List (Str × Str))
    (h : ∀ p, p ∈ m ↔ p ∈ aliasMappings rels) :
    checkSeen [] m = checkSeen [] (aliasMappings rels) := by
  have h1 := checkSeen_iff m [] (by simp)
  have h2 := checkSeen_iff (aliasMappings rels) [] (by simp)
  simp only [List.nil_append, h] at h1 h2
  have hiff := h1.trans h2.symm
  cases ha : checkSeen [] m with
  | ok u => exact (hiff.1 (by rw [ha])).symm
  | error e =>
    cases hb : checkSeen [] (aliasMappings rels) with
    | ok u => rw [hiff.2 (by rw [hb])] at ha; cases ha
    | error e' => rw [checkSeen_error ha, checkSeen_error hb]

/-- Entities used in examples. -/
def exEnt (a n : Str) : EntityObj := ⟨n, some a, none, none⟩

example : mkJoin (.list [.rel ⟨exEnt c!"e" c!"events", c!"has", exEnt c!"u" c!"users"⟩,
      .rel ⟨exEnt c!"e" c!"events", c!"in", exEnt c!"g" c!"groups"⟩]) =
    .ok (.join .list [⟨exEnt c!"e" c!"events", c!"has", exEnt c!"u" c!"users"⟩,
      ⟨exEnt c!"e" c!"events", c!"in", exEnt c!"g" c!"groups"⟩]) ∧
    mkJoin (.list [.rel ⟨exEnt c!"e" c!"events", c!"has", exEnt c!"u" c!"users"⟩,
      .rel ⟨exEnt c!"u" c!"events", c!"in", exEnt c!"g" c!"groups"⟩]) = .error .invalidExpression :=
  ⟨rfl, rfl⟩

end Verif
