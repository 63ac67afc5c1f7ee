import Verif.Props.Query

/-!
# C54: what the setters of a query take
-/

namespace Verif
open Spec

section
variable [U : PyUnicode]

omit U in
theorem isSelectable_iff {v : Val} : v.isSelectable = true ↔ Selectable v := by
  constructor
  · intro h; cases v <;> first | (cases h; done) | constructor
  · rintro (_ | _ | _) <;> rfl

omit U in
theorem isOrderBy_iff {v : Val} : v.isOrderBy = true ↔ Ordering v := by
  constructor
  · intro h; cases v <;> first | (cases h; done) | constructor
  · rintro ⟨_, _⟩; rfl

omit U in
theorem isCondition_iff' {v : Val} : v.isCondition = true ↔ Cond v := by
  constructor
  · intro h; cases v <;> first | (cases h; done) | constructor
  · rintro (_ | _) <;> rfl

omit U in
theorem listType_iff {p : Val → Bool} {P : Val → Prop} (hp : ∀ v, p v = true ↔ P v) {v : Val} :
    listType v p = true ↔ ∃ xs, v = .list xs ∧ ∀ x ∈ xs, P x := by
  cases v <;> simp [listType, hp]

omit U in
theorem all_columns {xs : List Val} : (∀ x ∈ xs, x.isColumn = true) ↔ ∃ cs : List ColumnObj, xs = cs.map .column := by
  induction xs with
  | nil => exact ⟨fun _ => ⟨[], rfl⟩, fun _ _ h => by cases h⟩
  | cons x xs ih =>
    constructor
    · intro h
      obtain ⟨cs, rfl⟩ := ih.1 fun y hy => h y (.tail _ hy)
      have hx := h x (.head _)
      cases x <;> first | (cases hx; done) | skip
      rename_i c
      exact ⟨c :: cs, rfl⟩
    · rintro ⟨cs, hcs⟩ y hy
      rw [hcs] at hy
      obtain ⟨c, _, rfl⟩ := List.mem_map.1 hy
      rfl

omit U in
theorem storedValue_iff {f : Field} {v x : Val} : storedValue f v = .ok x ↔ Accepts f v x := by
  have list : ∀ {p : Val → Bool} {P : Val → Prop} (_ : ∀ v, p v = true ↔ P v),
      ((if !listType v p then .error .invalidQuery else .ok v : Except Err Val) = .ok x ↔ ∃ xs, v = .list xs ∧ x = .list xs ∧ ∀ y ∈ xs, P y) := by
    intro p P hp
    have h := listType_iff hp (v := v)
    cases hb : listType v p with
    | true =>
      obtain ⟨xs, rfl, hx⟩ := h.1 hb
      simp only [Bool.not_true, Bool.false_eq_true, if_false, Except.ok.injEq]
      exact ⟨fun e => ⟨xs, rfl, e.symm, hx⟩, fun ⟨ys, e1, e2, _⟩ => by rw [e2, e1]⟩
    | false =>
      simp only [Bool.not_false, if_true, reduceCtorEq, false_iff]
      rintro ⟨xs, rfl, _, hx⟩
      rw [h.2 ⟨xs, rfl, hx⟩] at hb; cases hb
  have list1 : ∀ {p : Val → Bool} {P : Val → Prop} (_ : ∀ v, p v = true ↔ P v),
      ((if !listType v p || !v.truthy then .error .invalidQuery else .ok v : Except Err Val) = .ok x ↔
        ∃ xs, v = .list xs ∧ x = .list xs ∧ xs ≠ [] ∧ ∀ y ∈ xs, P y) := by
    intro p P hp
    have h := listType_iff hp (v := v)
    cases hb : listType v p with
    | true =>
      obtain ⟨xs, rfl, hx⟩ := h.1 hb
      cases xs with
      | nil => simp [Val.truthy]
      | cons a as =>
        simp only [Bool.not_true, Val.truthy, List.isEmpty_cons, Bool.not_false, Bool.or_self, Bool.false_eq_true, if_false, Except.ok.injEq]
        exact ⟨fun e => ⟨_, rfl, e.symm, by simp, hx⟩, fun ⟨ys, e1, e2, _⟩ => by rw [e2, e1]⟩
    | false =>
      simp only [Bool.not_false, Bool.true_or, if_true, reduceCtorEq, false_iff]
      rintro ⟨xs, rfl, _, _, hx⟩
      rw [h.2 ⟨xs, rfl, hx⟩] at hb; cases hb
  cases f
  case select =>
    simp only [storedValue, list1 fun _ => isSelectable_iff]
    exact ⟨fun ⟨xs, h1, h2, h3, h4⟩ => by subst h1 h2; exact .select xs h3 h4, fun h => by cases h with | select xs h3 h4 => exact ⟨xs, rfl, rfl, h3, h4⟩⟩
  case groupby =>
    simp only [storedValue, list fun _ => isSelectable_iff]
    exact ⟨fun ⟨xs, h1, h2, h4⟩ => by subst h1 h2; exact .groupby xs h4, fun h => by cases h with | groupby xs h4 => exact ⟨xs, rfl, rfl, h4⟩⟩
  case arrayJoin =>
    simp only [storedValue, list1 (p := Val.isColumn) (P := fun v => v.isColumn = true) fun _ => Iff.rfl, all_columns]
    exact ⟨fun ⟨xs, h1, h2, h3, cs, h4⟩ => by subst h1 h2 h4; exact .arrayJoin cs (by rintro rfl; exact h3 rfl),
      fun h => by cases h with | arrayJoin cs h3 => exact ⟨_, rfl, rfl, by simpa using h3, cs, rfl⟩⟩
  case where_ =>
    simp only [storedValue, list fun _ => isCondition_iff']
    exact ⟨fun ⟨xs, h1, h2, h4⟩ => by subst h1 h2; exact .where_ xs h4, fun h => by cases h with | where_ xs h4 => exact ⟨xs, rfl, rfl, h4⟩⟩
  case having =>
    simp only [storedValue, list fun _ => isCondition_iff']
    exact ⟨fun ⟨xs, h1, h2, h4⟩ => by subst h1 h2; exact .having xs h4, fun h => by cases h with | having xs h4 => exact ⟨xs, rfl, rfl, h4⟩⟩
  case orderby =>
    simp only [storedValue, list fun _ => isOrderBy_iff]
    exact ⟨fun ⟨xs, h1, h2, h4⟩ => by subst h1 h2; exact .orderby xs h4, fun h => by cases h with | orderby xs h4 => exact ⟨xs, rfl, rfl, h4⟩⟩
  case limitby =>
    constructor
    · intro h
      cases v <;> simp only [storedValue, reduceCtorEq, Except.ok.injEq] at h
      subst h; constructor
    · rintro ⟨⟩; rfl
  case limit =>
    refine (C07_limit_accepts_iff v x).trans ⟨fun ⟨n, h1, h2, h3, h4⟩ => by subst h4; exact .limit v n h1 h2 h3, fun h => ?_⟩
    cases h with | limit _ n h1 h2 h3 => exact ⟨n, h1, h2, h3, rfl⟩
  case offset =>
    refine (C07_offset_accepts_iff v x).trans ⟨fun ⟨n, h1, h2, h4⟩ => by subst h4; exact .offset v n h1 h2, fun h => ?_⟩
    cases h with | offset _ n h1 h2 => exact ⟨n, h1, h2, rfl⟩
  case granularity =>
    refine (C07_granularity_accepts_iff v x).trans ⟨fun ⟨n, h1, h2, h4⟩ => by subst h4; exact .granularity v n h1 h2, fun h => ?_⟩
    cases h with | granularity _ n h1 h2 => exact ⟨n, h1, h2, rfl⟩
  case totals =>
    refine (C07_totals_extrapolate_accept_iff v x).1.trans ⟨fun ⟨b, h1, h4⟩ => by subst h1 h4; exact .totals b, fun h => ?_⟩
    cases h with | totals b => exact ⟨b, rfl, rfl⟩

theorem reach_match {q : Query} (h : Reach q) {m : Val} (hm : matchOf q = .inl m) : m.isMatch = true := by
  induction h generalizing m with
  | new m' b q h =>
    unfold mkQuery at h
    split at h <;> cases h
    cases hm; assumption
  | newNested i' b q _ h _ =>
    obtain ⟨hv, rfl⟩ := mkNested_ok h
    cases hm
  | set f q v q' _ h ih => exact ih ((C21_setter_effect f q q' v h).1 ▸ hm)
  | setMatch q m' q' _ h _ =>
    rw [((C21_set_match_effect q q').1 m' h).1] at hm; cases hm
    unfold Query.setMatch at h
    split at h <;> first | rfl | cases h
  | setMatchQuery q i' q' _ _ h _ _ =>
    unfold Query.setMatchQuery at h
    split at h
    · obtain ⟨hv, rfl⟩ := mkNested_ok h
      cases hm
    · cases h

/-- Replacing the clauses of a query that exists never raises. -/
theorem reach_withBody {q : Query} (h : Reach q) (b : Body) : ∃ q', q.withBody b = .ok q' := by
  cases q with
  | base m b0 => exact ⟨.base m b, by simp only [Query.withBody, mkQuery, reach_match h rfl, if_true]⟩
  | nested i b0 => exact ⟨.nested i b, by simp only [Query.withBody, mkNested, reach_inner h rfl]⟩

omit U in
theorem query_ext {q q' : Query} (hm : matchOf q = matchOf q') (hb : ∀ g : Field, g.get q.body = g.get q'.body) : q = q' := by
  have hbody : q.body = q'.body := by
    have h := fun g => hb g
    obtain ⟨a1, a2, a3, a4, a5, a6, a7, a8, a9, a10, a11⟩ :
        q.body.select = q'.body.select ∧ q.body.groupby = q'.body.groupby ∧ q.body.arrayJoin = q'.body.arrayJoin ∧
        q.body.where_ = q'.body.where_ ∧ q.body.having = q'.body.having ∧ q.body.orderby = q'.body.orderby ∧
        q.body.limitby = q'.body.limitby ∧ q.body.limit = q'.body.limit ∧ q.body.offset = q'.body.offset ∧
        q.body.granularity = q'.body.granularity ∧ q.body.totals = q'.body.totals :=
      ⟨h .select, h .groupby, h .arrayJoin, h .where_, h .having, h .orderby, h .limitby, h .limit, h .offset, h .granularity, h .totals⟩
    generalize q.body = b at *
    generalize q'.body = b' at *
    cases b; cases b'
    simp only at *
    subst a1 a2 a3 a4 a5 a6 a7 a8 a9 a10 a11
    rfl
  cases q <;> cases q' <;> simp_all [matchOf, Query.body]

/-- **C54** (setters): on any query that a program can make, the setter of a clause succeeds exactly for the values the clause takes, and then
the result is the query with that clause replaced and nothing else changed. -/
theorem C54_setter_iff (f : Field) (q q' : Query) (v : Val) (hq : Reach q) :
    setField f q v = .ok q' ↔ ∃ x, Accepts f v x ∧ Updated f q x q' := by
  rw [setField_eq]
  simp only [bind_eq_ok, storedValue_iff]
  constructor
  · rintro ⟨x, hx, h⟩
    obtain ⟨hb, hm, _⟩ := withBody_ok h
    exact ⟨x, hx, hm, by rw [hb, get_put], fun g hg => by rw [hb, get_put_ne hg]⟩
  · rintro ⟨x, hx, hm, hf, hg⟩
    obtain ⟨q2, h2⟩ := reach_withBody hq (putField f q.body x)
    obtain ⟨hb, hm2, _⟩ := withBody_ok h2
    refine ⟨x, hx, ?_⟩
    rw [h2]
    congr 1
    apply query_ext (hm2.trans hm.symm)
    intro g
    rw [hb]
    by_cases h : g = f
    · subst h; rw [get_put, hf]
    · rw [get_put_ne h, hg g h]

/-- **C54** (exceptions of setters): a setter that refuses a value raises `InvalidExpressionError` for the numeric clauses and `totals`, and
`InvalidQueryError` for all others; it raises nothing else. -/
theorem C54_setter_error (f : Field) (q : Query) (v : Val) (h : ∀ x, ¬ Accepts f v x) :
    setField f q v = .error (if f = .limit ∨ f = .offset ∨ f = .granularity ∨ f = .totals then .invalidExpression else .invalidQuery) := by
  have hs : ∀ x, storedValue f v ≠ .ok x := fun x hx => h x (storedValue_iff.1 hx)
  rw [setField_eq]
  cases f
  case limit => simp only [storedValue] at hs ⊢; rw [C07_limit_rejects v hs]; rfl
  case offset => simp only [storedValue] at hs ⊢; rw [C07_offset_rejects v hs]; rfl
  case granularity => simp only [storedValue] at hs ⊢; rw [C07_granularity_rejects v hs]; rfl
  case totals =>
    simp only [storedValue] at hs ⊢
    rw [(C07_totals_extrapolate_reject v ?_).1]; rfl
    rintro b rfl; exact hs _ rfl
  case limitby => cases v <;> first | rfl | exact absurd rfl (hs _)
  all_goals
    simp only [storedValue] at hs ⊢
    split
    · rfl
    · rename_i h; rw [if_neg h] at hs; exact absurd rfl (hs _)

/-- **C54** (`set_match`): a match that is not a query is taken exactly if it is an entity or a join; a query is taken exactly if it validates.
Then the clauses are kept. Any other value is refused with `InvalidQueryError`; a storage too, although the constructor takes it. -/
theorem C54_set_match_iff (q q' : Query) :
    (∀ m, q.setMatch m = .ok q' ↔ ((∃ e, m = .entity e) ∨ ∃ k rs, m = .join k rs) ∧ q' = .base m q.body) ∧
    (∀ m, (∀ q', q.setMatch m ≠ .ok q') → q.setMatch m = .error .invalidQuery) ∧
    (∀ i, q.setMatchQuery i = .ok q' ↔ i.validate = .ok () ∧ q' = .nested i q.body) ∧
    (∀ i, (∀ q', q.setMatchQuery i ≠ .ok q') → q.setMatchQuery i = .error .invalidQuery) := by
  refine ⟨fun m => ?_, fun m => ?_, fun i => ?_, fun i => ?_⟩
  · cases m <;> simp [Query.setMatch, mkQuery, Val.isMatch, eq_comm]
  · cases m <;> simp [Query.setMatch, mkQuery, Val.isMatch]
  · unfold Query.setMatchQuery mkNested
    cases i.validate <;> simp [eq_comm]
  · unfold Query.setMatchQuery mkNested
    cases i.validate <;> simp

end

section Examples
open Ex

/-- C54: the hypothesis holds for a query with a subquery. -/
example : Reach (.nested inner (body [col c!"n"])) :=
  .newNested inner _ _ (.new (.entity events) (body [col c!"a", count]) _ rfl) rfl

/-- C54: a limit of 10000 is taken and stored as `Limit`, one of 10001 is refused; so is a tuple for the select list. -/
example : Accepts .limit (.int 10000) (.limit (.int 10000)) ∧ (∀ x, ¬ Accepts .limit (.int 10001) x) ∧
    Accepts .select (.list [col c!"a"]) (.list [col c!"a"]) ∧ (∀ x, ¬ Accepts .select (.tuple [col c!"a"]) x) := by
  refine ⟨.limit _ (.int 10000) (.int 10000) (by decide) (by decide), ?_, .select _ (by decide) ?_, ?_⟩
  · intro x h; cases h with | limit _ n h1 h2 h3 => cases h1; exact absurd h3 (by decide)
  · intro y hy; cases hy with
    | head => exact .column _
    | tail _ h => cases h
  · rintro x ⟨⟩

/-- C54: a storage is taken by the constructor but not by `set_match`. -/
example : (∃ q, mkQuery (.storage ⟨c!"errors", none, none⟩) (body [count]) = .ok q) ∧
    inner.setMatch (.storage ⟨c!"errors", none, none⟩) = .error .invalidQuery :=
  ⟨⟨_, rfl⟩, rfl⟩

end Examples

end Verif
