import Verif.Lemmas.Examples

/-!
# C21–C23: builders and validation of queries
-/

namespace Verif
open Spec

section
variable [U : PyUnicode]

/-! ### C21 -/

/-- The setter of a clause. -/
def Spec.setField : Field → Query → Val → Except Err Query
  | .select => Query.setSelect
  | .groupby => Query.setGroupby
  | .arrayJoin => Query.setArrayJoin
  | .where_ => Query.setWhere
  | .having => Query.setHaving
  | .orderby => Query.setOrderby
  | .limitby => Query.setLimitby
  | .limit => Query.setLimit
  | .offset => Query.setOffset
  | .granularity => Query.setGranularity
  | .totals => Query.setTotals

/-- A sequence of setter calls, stopping at the first exception. -/
def Spec.setFields : Query → List (Field × Val) → Except Err Query
  | q, [] => .ok q
  | q, (f, v) :: rest => do
    let q' ← setField f q v
    setFields q' rest

omit U in
/-- Helper: the value a setter stores. -/
def storedValue (f : Field) (v : Val) : Except Err Val :=
  match f with
  | .select => if !listType v Val.isSelectable || !v.truthy then .error .invalidQuery else .ok v
  | .groupby => if !listType v Val.isSelectable then .error .invalidQuery else .ok v
  | .arrayJoin => if !listType v Val.isColumn || !v.truthy then .error .invalidQuery else .ok v
  | .where_ => if !listType v Val.isCondition then .error .invalidQuery else .ok v
  | .having => if !listType v Val.isCondition then .error .invalidQuery else .ok v
  | .orderby => if !listType v Val.isOrderBy then .error .invalidQuery else .ok v
  | .limitby => match v with | .limitby .. => .ok v | _ => .error .invalidQuery
  | .limit => mkLimit v
  | .offset => mkOffset v
  | .granularity => mkGranularity v
  | .totals => mkTotals v

omit U in
/-- Helper: replace one clause. -/
def putField (f : Field) (b : Body) (x : Val) : Body :=
  match f with
  | .select => { b with select := x }
  | .groupby => { b with groupby := x }
  | .arrayJoin => { b with arrayJoin := x }
  | .where_ => { b with where_ := x }
  | .having => { b with having := x }
  | .orderby => { b with orderby := x }
  | .limitby => { b with limitby := x }
  | .limit => { b with limit := x }
  | .offset => { b with offset := x }
  | .granularity => { b with granularity := x }
  | .totals => { b with totals := x }

theorem setField_eq (f : Field) (q : Query) (v : Val) :
    setField f q v = (do let x ← storedValue f v; q.withBody (putField f q.body x)) := by
  cases f
  case limitby => cases v <;> rfl
  all_goals simp only [setField, storedValue, Query.setSelect, Query.setGroupby, Query.setArrayJoin,
      Query.setWhere, Query.setHaving, Query.setOrderby, Query.setLimit, Query.setOffset, Query.setGranularity,
      Query.setTotals, putField]
  all_goals (split <;> rfl)

omit U in
theorem get_put (f : Field) (b : Body) (x : Val) : f.get (putField f b x) = x := by cases f <;> rfl

omit U in
theorem get_put_ne {f g : Field} (h : g ≠ f) (b : Body) (x : Val) : g.get (putField f b x) = g.get b := by
  cases f <;> cases g <;> first | rfl | exact absurd rfl h

omit U in
theorem put_comm {f g : Field} (h : f ≠ g) (b : Body) (x y : Val) :
    putField g (putField f b x) y = putField f (putField g b y) x := by
  cases f <;> cases g <;> first | rfl | exact absurd rfl h

omit U in
theorem put_put (f : Field) (b : Body) (x y : Val) : putField f (putField f b x) y = putField f b y := by
  cases f <;> rfl

theorem withBody_ok {q q' : Query} {b : Body} (h : q.withBody b = .ok q') :
    q'.body = b ∧ matchOf q' = matchOf q ∧ ∀ b', q'.withBody b' = q.withBody b' := by
  cases q with
  | base m b0 =>
    simp only [Query.withBody, mkQuery] at h
    split at h <;> cases h
    exact ⟨rfl, rfl, fun _ => rfl⟩
  | nested i b0 =>
    simp only [Query.withBody, mkNested] at h
    split at h <;> cases h
    exact ⟨rfl, rfl, fun _ => rfl⟩

/-- Whether replacing clauses succeeds does not depend on the clauses. -/
theorem withBody_any {q q' : Query} {b : Body} (h : q.withBody b = .ok q') (b' : Body) :
    ∃ q'', q.withBody b' = .ok q'' := by
  cases q with
  | base m b0 =>
    simp only [Query.withBody, mkQuery] at h ⊢
    split at h <;> cases h
    rename_i hm
    exact ⟨_, if_pos hm⟩
  | nested i b0 =>
    simp only [Query.withBody, mkNested] at h ⊢
    split at h <;> cases h
    exact ⟨_, rfl⟩

theorem setField_ok {f : Field} {q q' : Query} {v : Val} (h : setField f q v = .ok q') :
    ∃ x, storedValue f v = .ok x ∧ q'.body = putField f q.body x ∧ matchOf q' = matchOf q ∧
      ∀ b', q'.withBody b' = q.withBody b' := by
  rw [setField_eq, bind_eq_ok] at h
  obtain ⟨x, hx, h⟩ := h
  obtain ⟨h1, h2, h3⟩ := withBody_ok h
  exact ⟨x, hx, h1, h2, h3⟩

omit U in
theorem storedValue_holds {f : Field} {v x : Val} (h : storedValue f v = .ok x) : Holds f v x := by
  cases f
  case limit =>
    obtain ⟨n, hn, _, _, rfl⟩ := (C07_limit_accepts_iff _ _).1 h
    exact ⟨n, hn, rfl⟩
  case offset =>
    obtain ⟨n, hn, _, rfl⟩ := (C07_offset_accepts_iff _ _).1 h
    exact ⟨n, hn, rfl⟩
  case granularity =>
    obtain ⟨n, hn, _, rfl⟩ := (C07_granularity_accepts_iff _ _).1 h
    exact ⟨n, hn, rfl⟩
  case totals =>
    obtain ⟨b, hb, rfl⟩ := (C07_totals_extrapolate_accept_iff _ _).1.1 h
    exact ⟨b, hb, rfl⟩
  case limitby =>
    cases v <;> simp only [storedValue, reduceCtorEq, Except.ok.injEq] at h
    exact h.symm
  all_goals
    simp only [storedValue] at h
    split at h <;> cases h
    rfl

/-- **C21** (one field): a setter that does not raise keeps the match and every other clause, and its
clause holds the given value (wrapped in `Limit` etc. for the numeric clauses). -/
theorem C21_setter_effect (f : Field) (q q' : Query) (v : Val) (h : setField f q v = .ok q') :
    matchOf q' = matchOf q ∧ (∀ g, g ≠ f → g.get q'.body = g.get q.body) ∧ Holds f v (f.get q'.body) := by
  obtain ⟨x, hx, hb, hm, _⟩ := setField_ok h
  refine ⟨hm, ?_, ?_⟩
  · intro g hg; rw [hb, get_put_ne hg]
  · rw [hb, get_put]; exact storedValue_holds hx

/-- **C21** (commutation): setters of different clauses commute. -/
theorem C21_setters_commute (f g : Field) (hfg : f ≠ g) (q q1 q2 : Query) (v w : Val)
    (h1 : setField f q v = .ok q1) (h2 : setField g q1 w = .ok q2) :
    ∃ q3, setField g q w = .ok q3 ∧ setField f q3 v = .ok q2 := by
  obtain ⟨x, hx, hb1, hm1, hw1⟩ := setField_ok h1
  rw [setField_eq, bind_eq_ok] at h2
  obtain ⟨y, hy, h2⟩ := h2
  rw [hw1] at h2
  obtain ⟨q3, hq3⟩ := withBody_any h2 (putField g q.body y)
  obtain ⟨hb3, hm3, hw3⟩ := withBody_ok hq3
  refine ⟨q3, ?_, ?_⟩
  · rw [setField_eq, hy]; exact hq3
  · rw [setField_eq, hx, ok_bind, hw3, hb3, ← put_comm hfg, ← hb1]; exact h2

/-- **C21** (last write wins): setting a clause that was set before gives exactly what setting it
directly gives (including the exception, if any). -/
theorem C21_last_write_wins (f : Field) (q q1 : Query) (v w : Val) (h1 : setField f q v = .ok q1) :
    setField f q1 w = setField f q w := by
  obtain ⟨x, hx, hb1, hm1, hw1⟩ := setField_ok h1
  simp only [setField_eq]
  congr 1
  funext y
  rw [hw1, hb1, put_put]

/-- **C21** (all sequences of calls): after any sequence of setter calls, the match is unchanged, a clause that was
never set is unchanged, and a clause that was set holds the value of its last write. -/
theorem C21_sequences (ops : List (Field × Val)) (q q' : Query) (h : setFields q ops = .ok q') :
    matchOf q' = matchOf q ∧
    (∀ f, (∀ v, (f, v) ∉ ops) → f.get q'.body = f.get q.body) ∧
    (∀ pre f v post, ops = pre ++ (f, v) :: post → (∀ w, (f, w) ∉ post) → Holds f v (f.get q'.body)) := by
  induction ops generalizing q with
  | nil =>
    cases h
    refine ⟨rfl, fun _ _ => rfl, ?_⟩
    intro pre f v post h; simp at h
  | cons op ops ih =>
    obtain ⟨f0, v0⟩ := op
    simp only [setFields, bind_eq_ok] at h
    obtain ⟨q1, h1, h⟩ := h
    obtain ⟨i1, i2, i3⟩ := ih q1 h
    obtain ⟨e1, e2, e3⟩ := C21_setter_effect f0 q q1 v0 h1
    refine ⟨i1.trans e1, ?_, ?_⟩
    · intro f hf
      rw [i2 f (fun v hv => hf v (List.mem_cons_of_mem _ hv))]
      exact e2 f (by rintro rfl; exact hf v0 (List.mem_cons_self ..))
    · intro pre f v post hp hl
      cases pre with
      | nil =>
        simp only [List.nil_append, List.cons.injEq, Prod.mk.injEq] at hp
        obtain ⟨⟨rfl, rfl⟩, rfl⟩ := hp
        rw [i2 f0 hl]; exact e3
      | cons p pre =>
        simp only [List.cons_append, List.cons.injEq] at hp
        exact i3 pre f v post hp.2 hl

/-- **C21** (`set_match`): the match is replaced and all clauses are kept. -/
theorem C21_set_match_effect (q q' : Query) :
    (∀ m, q.setMatch m = .ok q' → matchOf q' = .inl m ∧ q'.body = q.body) ∧
    (∀ i, q.setMatchQuery i = .ok q' → matchOf q' = .inr i ∧ q'.body = q.body) := by
  constructor
  · intro m h
    cases m <;> simp only [Query.setMatch, mkQuery, Val.isMatch, if_true, reduceCtorEq] at h <;> cases h <;>
      exact ⟨rfl, rfl⟩
  · intro i h
    simp only [Query.setMatchQuery, mkNested] at h
    split at h
    · cases h; exact ⟨rfl, rfl⟩
    · cases h

/-! ### C22 -/

/-- Queries a program can make: by a constructor call with any clauses, or by a setter. -/
inductive Spec.Reach : Query → Prop
  | new (m b q) : mkQuery m b = .ok q → Reach q
  | newNested (i b q) : Reach i → mkNested i b = .ok q → Reach q
  | set (f q v q') : Reach q → setField f q v = .ok q' → Reach q'
  | setMatch (q m q') : Reach q → q.setMatch m = .ok q' → Reach q'
  | setMatchQuery (q i q') : Reach q → Reach i → q.setMatchQuery i = .ok q' → Reach q'

theorem mkNested_ok {i q : Query} {b : Body} (h : mkNested i b = .ok q) : i.validate = .ok () ∧ q = .nested i b := by
  unfold mkNested at h
  split at h
  · cases h; exact ⟨by assumption, rfl⟩
  · cases h

/-- All subqueries of a valid query are valid. -/
theorem inside_valid {i q : Query} (h : Inside i q) (hq : q.validate = .ok ()) : i.validate = .ok () := by
  induction h with
  | here b => exact (nested_validate_iff.1 hq).1
  | deeper q b _ ih => exact ih (nested_validate_iff.1 hq).1

theorem reach_inner {q i : Query} (h : Reach q) (hm : matchOf q = .inr i) : i.validate = .ok () := by
  induction h with
  | new m b q h =>
    unfold mkQuery at h
    split at h <;> cases h
    cases hm
  | newNested i' b q _ h _ =>
    obtain ⟨hv, rfl⟩ := mkNested_ok h
    cases hm; exact hv
  | set f q v q' _ h ih =>
    exact ih ((C21_setter_effect f q q' v h).1 ▸ hm)
  | setMatch q m q' _ h _ =>
    rw [((C21_set_match_effect q q').1 m h).1] at hm; cases hm
  | setMatchQuery q i' q' _ _ h _ _ =>
    unfold Query.setMatchQuery at h
    split at h
    · obtain ⟨hv, rfl⟩ := mkNested_ok h
      cases hm; exact hv
    · cases h

/-- **C22**: whatever calls produced a query, every query nested in it validates. -/
theorem C22_subqueries_valid (q : Query) (h : Reach q) (i : Query) (hi : Inside i q) : i.validate = .ok () := by
  cases hi with
  | here b => exact reach_inner h rfl
  | deeper q' b hd => exact inside_valid hd (reach_inner h rfl)

/-! ### C23 -/

/-- **C23**: if a query validates then at every level the select list is a non-empty list or tuple, and true
totals come with a non-empty groupby. -/
theorem C23_validated_complete (q : Query) (h : q.validate = .ok ()) (b : Body) (hb : b ∈ levels q) :
    NonEmptySeq b.select ∧ (b.totals = .totals true → NonEmptySeq b.groupby) := by
  have key : Complete b := by
    induction q with
    | base m b0 => simp only [levels, List.mem_singleton] at hb; subst hb; exact body_complete h
    | nested q b0 ih =>
      simp only [levels, List.mem_cons] at hb
      rcases hb with rfl | hb
      · exact body_complete h
      · exact ih (nested_validate_iff.1 h).1 hb
  refine ⟨key.1, fun ht => ?_⟩
  rcases key.2 with h' | ⟨t, h', hg⟩
  · rw [h'] at ht; cases ht
  · rw [h'] at ht; cases ht; exact hg rfl

end

/-! ### Concrete cases -/

section Examples
open Ex

/-- C21: two setters of different clauses, in both orders, and a rejected argument. -/
example :
    let q : Query := .base (.entity events) {}
    let b : Body := { select := .list [count], limit := .limit (.int 5) }
    (setField .select q (.list [count]) >>= fun q => setField .limit q (.int 5)) = .ok (.base (.entity events) b) ∧
    (setField .limit q (.int 5) >>= fun q => setField .select q (.list [count])) = .ok (.base (.entity events) b) ∧
    setField .select q (.list []) = .error .invalidQuery :=
  ⟨rfl, rfl, rfl⟩

/-- C21: a sequence with two writes of the same clause. -/
example : setFields (.base (.entity events) {}) [(.limit, .int 5), (.totals, .bool true), (.limit, .int 7)] =
    .ok (.base (.entity events) { limit := .limit (.int 7), totals := .totals true }) := rfl

/-- C21: `set_match` keeps the clauses. -/
example : (Query.base (.entity events) (body [count])).setMatch (.join .list [rel]) =
    .ok (.base (.join .list [rel]) (body [count])) := rfl

/-- C22: a reachable query with a subquery; and an invalid subquery (no select) is refused. -/
example : Reach (.nested inner (body [col c!"n"])) ∧
    mkNested (.base (.entity events) {}) (body [count]) = .error .invalidQuery :=
  ⟨.newNested inner _ _ (.new (.entity events) (body [col c!"a", count]) _ rfl) rfl, rfl⟩

/-- C23: a valid two-level query; totals without groupby are rejected. -/
example : Query.validate (.nested inner (body [col c!"n"])) = .ok () ∧ (levels (.nested inner (body [col c!"n"]))).length = 2 ∧
    Query.validate (.base (.entity events) { select := .list [count], totals := .totals true }) =
      .error .invalidQuery :=
  ⟨rfl, rfl, rfl⟩

end Examples

end Verif
