import Verif.Lemmas.Mutation
import Verif.Model.Printer

/-!
# C88: lists that the caller changes later
-/

namespace Verif
open Spec

section
variable [U : PyUnicode]

/-- **C88** (`validate` of one expression): whatever has happened to the lists inside an expression, its `validate()` accepts it
only if the constructor of its class would accept what it holds now. -/
theorem C88_expression (v v' : Val) (hb : Built v) (he : Edited v v') (hv : v'.validate = .ok ()) : Acceptable v' := by
  refine remake (P := fun _ => True) (fun _ _ => trivial) (fun _ _ => trivial) (fun _ _ => trivial) hb he (validate_expr hv) hv ?_
  cases v' <;> simp [HoldsOnly]

theorem said_valid {q : Query} {t : Str} (h : q.serialize = .ok t ∨ q.print = .ok t) : q.validate = .ok () := by
  rcases h with h | h
  · simp only [Query.serialize, bind_eq_ok] at h
    exact h.choose_spec.1
  · simp only [Query.print, bind_eq_ok] at h
    exact h.choose_spec.1

omit U in
theorem seqOf_items {v : Val} {k xs} (h : SeqOf v k xs) : v.seq? = some (k, xs) := by cases h <;> rfl

theorem items_acceptable {b b' : Body} (hb : ∀ f : Field, Built (f.get b)) (he : EditedBody b b')
    (hv : validateClauses b' = .ok ()) (x : Val) (hx : HasItem b' x) : x = .none ∨ Acceptable x := by
  have list : ∀ f : Field, f.isList = true → ∀ k xs, SeqOf (f.get b') k xs → x ∈ xs → x = .none ∨ Acceptable x := by
    intro f hf k xs hs hx
    have h := clauses_fields hv f
    simp only [hf, if_true] at h
    have hq : (f.get b').seq? = some (k, xs) := seqOf_items hs
    rcases listValidate_items h with h | ⟨k', xs', h1, h2⟩
    · rw [h] at hs; cases hs
    · rw [hq] at h1
      cases h1
      obtain ⟨v, hb', he'⟩ := edited_items (hb f) (he f) hq x hx
      exact .inr (C88_expression v x hb' he' (h2 x hx))
  have one : ∀ f : Field, f.isList = false → x = f.get b' → x = .none ∨ Acceptable x := by
    intro f hf hx
    have h := clauses_fields hv f
    simp only [hf, Bool.false_eq_true, if_false] at h
    by_cases hn : x = .none
    · exact .inl hn
    · refine .inr (C88_expression _ x (hb f) (hx ▸ he f) ?_)
      rw [← hx] at h
      cases x <;> first | exact absurd rfl hn | exact h
  rcases hx with ⟨v, hv', k, xs, hs, hx⟩ | hx
  · simp only [List.mem_cons, List.not_mem_nil, or_false] at hv'
    rcases hv' with rfl | rfl | rfl | rfl | rfl | rfl
    · exact list .select rfl k xs hs hx
    · exact list .groupby rfl k xs hs hx
    · exact list .arrayJoin rfl k xs hs hx
    · exact list .where_ rfl k xs hs hx
    · exact list .having rfl k xs hs hx
    · exact list .orderby rfl k xs hs hx
  · simp only [List.mem_cons, List.not_mem_nil, or_false] at hx
    rcases hx with hx | hx | hx | hx | hx
    · exact one .limitby rfl hx
    · exact one .limit rfl hx
    · exact one .offset rfl hx
    · exact one .granularity rfl hx
    · exact one .totals rfl hx

/-- **C88** (queries): whatever has happened to the lists inside a query and its subqueries since it was made, a text is produced
only if the constructor of its class would accept, as it is now, every item of every clause and the innermost match. -/
theorem C88_query (q q' : Query) (hb : QueryBuilt q) (he : EditedQuery q q') (t : Str)
    (ht : q'.serialize = .ok t ∨ q'.print = .ok t) :
    (∀ b ∈ levels q', ∀ x, HasItem b x → x = .none ∨ Acceptable x) ∧ Acceptable (innermostMatch q') := by
  have hv := said_valid ht
  clear ht
  induction he with
  | base m m' b b' h1 h2 =>
    cases hb with
    | base _ _ b1 b2 =>
      simp only [Query.validate, bind_eq_ok] at hv
      obtain ⟨_, v1, _, v2, _⟩ := hv
      refine ⟨?_, ?_⟩
      · intro b'' hb''
        simp only [levels, List.mem_singleton] at hb''
        subst hb''
        exact fun x hx => items_acceptable b2 h2 v2 x hx
      · exact C88_expression m _ b1 h1 v1
  | nested i i' b b' h1 h2 ih =>
    cases hb with
    | nested _ _ b1 b2 =>
      simp only [Query.validate, bind_eq_ok] at hv
      obtain ⟨_, v1, _, v2, _⟩ := hv
      obtain ⟨ih1, ih2⟩ := ih b1 v1
      refine ⟨?_, ih2⟩
      intro b'' hb''
      simp only [levels, List.mem_cons] at hb''
      rcases hb'' with rfl | hb''
      · exact fun x hx => items_acceptable b2 h2 v2 x hx
      · exact ih1 b'' hb''

theorem clause_built {b b' : Body} (hb : ∀ f : Field, Built (f.get b)) (he : EditedBody b b')
    (hv : validateClauses b' = .ok ()) (ho : ∀ x, HasItem b' x → OwnLists x) (f : Field) : Built (f.get b') := by
  have h := clauses_fields hv f
  have list : f.isList = true → (∀ k xs, SeqOf (f.get b') k xs → ∀ x ∈ xs, OwnLists x) → Built (f.get b') := by
    intro hf ho
    simp only [hf, if_true] at h
    rcases listValidate_items h with h | ⟨k, xs, h1, h2⟩
    · rw [h]; exact .literal _ .none
    · have hi := edited_items (hb f) (he f) h1
      generalize f.get b' = w at h1 ho
      have all : (∀ x ∈ xs, OwnLists x) → ∀ x ∈ xs, Built x := by
        intro ho x hx
        obtain ⟨v, hb', he'⟩ := hi x hx
        exact own_built hb' he' (validate_expr (h2 x hx)) (h2 x hx) (ho x hx)
      cases w with
      | str s => exact .literal _ (.str s)
      | bytes s => exact .literal _ (.bytes s)
      | list l =>
        simp only [Val.seq?, Option.some.injEq, Prod.mk.injEq] at h1
        obtain ⟨_, rfl⟩ := h1
        exact .list _ (all (ho _ _ (.list _)))
      | tuple l =>
        simp only [Val.seq?, Option.some.injEq, Prod.mk.injEq] at h1
        obtain ⟨_, rfl⟩ := h1
        exact .tuple _ (all (ho _ _ (.tuple _)))
      | _ => simp [Val.seq?] at h1
  have one : f.isList = false → OwnLists (f.get b') → Built (f.get b') := by
    intro hf ho
    simp only [hf, Bool.false_eq_true, if_false] at h
    have hb := hb f
    have he := he f
    generalize f.get b' = w at h ho he
    by_cases hn : w = .none
    · exact hn ▸ .literal _ .none
    · have hw : w.validate = .ok () := by
        cases w <;> first | exact absurd rfl hn | exact h
      exact own_built hb he (validate_expr hw) hw ho
  cases f with
  | select => exact list rfl fun k xs hs x hx => ho x (.inl ⟨_, by simp [Field.get], k, xs, hs, hx⟩)
  | groupby => exact list rfl fun k xs hs x hx => ho x (.inl ⟨_, by simp [Field.get], k, xs, hs, hx⟩)
  | arrayJoin => exact list rfl fun k xs hs x hx => ho x (.inl ⟨_, by simp [Field.get], k, xs, hs, hx⟩)
  | where_ => exact list rfl fun k xs hs x hx => ho x (.inl ⟨_, by simp [Field.get], k, xs, hs, hx⟩)
  | having => exact list rfl fun k xs hs x hx => ho x (.inl ⟨_, by simp [Field.get], k, xs, hs, hx⟩)
  | orderby => exact list rfl fun k xs hs x hx => ho x (.inl ⟨_, by simp [Field.get], k, xs, hs, hx⟩)
  | limitby => exact one rfl (ho _ (.inr (by simp [Field.get])))
  | limit => exact one rfl (ho _ (.inr (by simp [Field.get])))
  | offset => exact one rfl (ho _ (.inr (by simp [Field.get])))
  | granularity => exact one rfl (ho _ (.inr (by simp [Field.get])))
  | totals => exact one rfl (ho _ (.inr (by simp [Field.get])))

/-- **C88** (partial: the expressions inside the items of the clauses hold no lists; without this it is false, see
`C88_violated_by_nested_lists`): a query that produces a text after its lists were changed is a query that can be made with the
SDK, so everything that is said of such queries is said of it. -/
theorem C88_text_of_a_built_query_partial (q q' : Query) (hb : QueryBuilt q) (he : EditedQuery q q') (t : Str)
    (ht : q'.serialize = .ok t ∨ q'.print = .ok t) (ho : ∀ b ∈ levels q', ∀ x, HasItem b x → OwnLists x) : QueryBuilt q' := by
  have hv := said_valid ht
  clear ht
  induction he with
  | base m m' b b' h1 h2 =>
    cases hb with
    | base _ _ b1 b2 =>
      simp only [Query.validate, bind_eq_ok] at hv
      obtain ⟨_, v1, _, v2, _, v3, _⟩ := hv
      refine .base _ _ (own_built b1 h1 (validate_expr v1) v1 ?_) fun f => clause_built b2 h2 v2 (ho b' (by simp [levels])) f
      simp only [validateMatchBase, bind_eq_ok] at v3
      obtain ⟨_, _, v3⟩ := v3
      split at v3
      · trivial
      · trivial
      · trivial
      · cases v3
  | nested i i' b b' h1 h2 ih =>
    cases hb with
    | nested _ _ b1 b2 =>
      simp only [Query.validate, bind_eq_ok] at hv
      obtain ⟨_, v1, _, v2, _⟩ := hv
      exact .nested _ _ (ih b1 (fun b hb => ho b (by simp [levels, hb])) v1) fun f => clause_built b2 h2 v2 (ho b' (by simp [levels])) f

omit U in
theorem body_ext {b b' : Body} (h : ∀ f : Field, f.get b' = f.get b) : b' = b := by
  have h1 := h .select; have h2 := h .groupby; have h3 := h .arrayJoin; have h4 := h .where_; have h5 := h .having
  have h6 := h .orderby; have h7 := h .limitby; have h8 := h .limit; have h9 := h .offset; have h10 := h .granularity
  have h11 := h .totals
  cases b; cases b'
  simp only [Field.get] at h1 h2 h3 h4 h5 h6 h7 h8 h9 h10 h11
  simp [h1, h2, h3, h4, h5, h6, h7, h8, h9, h10, h11]

/-- **C88** (tuples): a query that is made of tuples instead of lists cannot be changed afterwards. -/
theorem C88_tuples (q q' : Query) (he : EditedQuery q q') (hm : Frozen (innermostMatch q))
    (hf : ∀ b ∈ levels q, ∀ f : Field, Frozen (f.get b)) : q' = q := by
  induction he with
  | base m m' b b' h1 h2 =>
    rw [h1.of_frozen hm, body_ext fun f => (h2 f).of_frozen (hf b (by simp [levels]) f)]
  | nested i i' b b' h1 h2 ih =>
    rw [ih hm (fun b hb => hf b (by simp [levels, hb])), body_ext fun f => (h2 f).of_frozen (hf b (by simp [levels]) f)]

end

section Examples
attribute [local instance] asciiUnicode

private def mutCol (n : Str) : Val := .column ⟨n, none, none, none⟩
private def mutCond (n : Str) (i : Int) : Val := .cond (mutCol n) .eq (.int i)
private def mutOr (cs : List Val) : Val := .boolCond .or .or .list [.boolCond .and .and .list cs, mutCond c!"c" 3]
private def mutQuery (w : List Val) : Query :=
  .base (.entity ⟨c!"events", none, none, none⟩) { select := .list [mutCol c!"a"], where_ := .list w }
private def mutAnd : List Val := [mutCond c!"a" 1, mutCond c!"b" 2]

private theorem mutCol_built (n : Str) (h : mkColumn (.str n) .none = .ok (mutCol n)) : Built (mutCol n) :=
  .column (.str n) .none _ (.literal _ (.str n)) (.literal _ .none) h

private theorem mutCond_built (n : Str) (i : Int) (h : mkColumn (.str n) .none = .ok (mutCol n)) : Built (mutCond n i) :=
  .condition (mutCol n) (.op .eq) (.int i) _ (mutCol_built n h) (.op _) (.literal _ (.int i)) rfl

private theorem mutAnd_built : ∀ c ∈ mutAnd, Built c := by
  simp only [mutAnd, List.mem_cons, List.not_mem_nil, or_false, forall_eq_or_imp, forall_eq]
  exact ⟨mutCond_built _ _ rfl, mutCond_built _ _ rfl⟩

private theorem mutOr_built : Built (mutOr mutAnd) := by
  refine .or (.list [.boolCond .and .and .list mutAnd, mutCond c!"c" 3]) _ (.list _ ?_) rfl
  simp only [List.mem_cons, List.not_mem_nil, or_false, forall_eq_or_imp, forall_eq]
  exact ⟨.and (.list mutAnd) _ (.list _ mutAnd_built) rfl, mutCond_built _ _ rfl⟩

private theorem mutQuery_built {w : List Val} (h : ∀ x ∈ w, Built x) : QueryBuilt (mutQuery w) := by
  refine .base _ _ (.entity (.str c!"events") .none .none .none _ (.literal _ (.str _)) (.literal _ .none) (.literal _ .none)
    (.literal _ .none) rfl) fun f => ?_
  cases f
  case select => exact .list _ (by simpa using mutCol_built c!"a" rfl)
  case where_ => exact .list _ h
  all_goals exact .literal _ .none

private theorem mutQuery_edited {w w' : List Val} (h : Contents .list w w') : EditedQuery (mutQuery w) (mutQuery w') := by
  refine .base _ _ _ _ (.same _) fun f => ?_
  cases f
  case where_ => exact .list _ _ h
  all_goals exact .same _

/-- **C88** is false without the restriction: after the list of a nested `And` was emptied, the query is serialised to a text
with an empty pair of parentheses, although no such condition can be made with the SDK. -/
theorem C88_violated_by_nested_lists : ∃ q q' : Query, QueryBuilt q ∧ EditedQuery q q' ∧
    q.serialize = .ok c!"MATCH (events) SELECT a WHERE ((a = 1 AND b = 2) OR c = 3)" ∧
    q'.serialize = .ok c!"MATCH (events) SELECT a WHERE (() OR c = 3)" ∧ ¬ QueryBuilt q' := by
  refine ⟨mutQuery [mutOr mutAnd], mutQuery [mutOr []], mutQuery_built (by simpa using mutOr_built),
    mutQuery_edited (.kept _ _ _ (.cons _ _ _ _ (.boolCond _ _ _ _ _ (.kept _ _ _ (.cons _ _ _ _
      (.boolCond _ _ _ _ _ (.changed _ _ .nil)) (.cons _ _ _ _ (.same _) .nil)))) .nil)), by rfl, by rfl, ?_⟩
  intro h
  cases h with
  | base _ _ _ h =>
    have h1 : Built (mutOr []) := (h .where_).list_items _ (by simp)
    obtain ⟨_, _, cs, h2, h3, _⟩ := (h1.made (.boolCond ..)).bool_inv
    have h4 := listOrTuple_items h2 h3 (.boolCond .and .and .list []) (by simp)
    obtain ⟨_, _, _, _, _, h5⟩ := (h4.made (.boolCond ..)).bool_inv
    cases h5

/-- C88: the same change to an `And` that is an item of the clause is noticed. -/
example : Edited (.boolCond .and .and .list mutAnd) (.boolCond .and .and .list []) ∧
    (mutQuery [.boolCond .and .and .list mutAnd]).serialize = .ok c!"MATCH (events) SELECT a WHERE (a = 1 AND b = 2)" ∧
    (mutQuery [.boolCond .and .and .list []]).serialize = .error .invalidCondition :=
  ⟨.boolCond _ _ _ _ _ (.changed _ _ .nil), by rfl, by rfl⟩

/-- C88: a condition is added to the list of the clause; the hypotheses of `C88_query` and of the partial theorem hold. -/
example : QueryBuilt (mutQuery [mutCond c!"a" 1]) ∧ EditedQuery (mutQuery [mutCond c!"a" 1]) (mutQuery mutAnd) ∧
    (mutQuery mutAnd).serialize = .ok c!"MATCH (events) SELECT a WHERE a = 1 AND b = 2" ∧
    ∀ b ∈ levels (mutQuery mutAnd), ∀ x, HasItem b x → OwnLists x := by
  refine ⟨mutQuery_built (by simpa using mutCond_built _ _ rfl), mutQuery_edited (.changed _ _ (.cons _ _ _ (mutCond_built _ _ rfl) (.same _)
    (.cons _ _ _ (mutCond_built _ _ rfl) (.same _) .nil))), by rfl, ?_⟩
  intro b hb x hx
  simp only [mutQuery, levels, List.mem_singleton] at hb
  subst hb
  rcases hx with ⟨v, hv, k, xs, hs, hx⟩ | hx
  · simp only [List.mem_cons, List.not_mem_nil, or_false] at hv
    rcases hv with rfl | rfl | rfl | rfl | rfl | rfl
    · cases hs; simp only [List.mem_singleton] at hx; subst hx; trivial
    · cases hs
    · cases hs
    · cases hs
      simp only [mutAnd, List.mem_cons, List.not_mem_nil, or_false] at hx
      rcases hx with rfl | rfl <;> exact ⟨trivial, trivial⟩
    · cases hs
    · cases hs
  · simp only [List.mem_cons, List.not_mem_nil, or_false, or_self] at hx
    subst hx; trivial

/-- C88: an argument list of a function that is an item of a clause. -/
example : Built (.curried true c!"ff" .absent [] .list [mutCol c!"a"] none) ∧
    Edited (.curried true c!"ff" .absent [] .list [mutCol c!"a"] none) (.curried true c!"ff" .absent [] .list [] none) ∧
    (Val.curried true c!"ff" .absent [] .list [] none).validate = .ok () ∧
    Acceptable (.curried true c!"ff" .absent [] .list [] none) :=
  have hb : Built (.curried true c!"ff" .absent [] .list [mutCol c!"a"] none) :=
    .function (.str c!"ff") (.list [mutCol c!"a"]) .none _ (.literal _ (.str _)) (.list _ (by simpa using mutCol_built c!"a" rfl))
      (.literal _ .none) rfl
  have he : Edited (.curried true c!"ff" .absent [] .list [mutCol c!"a"] none) (.curried true c!"ff" .absent [] .list [] none) :=
    .curried _ _ _ _ _ _ _ _ _ (.kept _ _ _ .nil) (.changed _ _ .nil)
  ⟨hb, he, by rfl, C88_expression _ _ hb he (by rfl)⟩

private def mutTuples : Query :=
  .base (.entity ⟨c!"events", none, none, none⟩) { select := .tuple [mutCol c!"a"], where_ := .tuple mutAnd }

/-- C88: a query whose clauses are tuples. -/
example (q' : Query) (h : EditedQuery mutTuples q') : q' = mutTuples := by
  refine C88_tuples _ _ h trivial ?_
  intro b hb f
  simp only [mutTuples, levels, List.mem_singleton] at hb
  subst hb
  cases f <;> simp [Field.get, Frozen, FrozenAll, mutAnd, mutCond, mutCol]

end Examples

end Verif
