import Verif.Lemmas.QueryEqual

/-!
# C70: equality of queries
-/

namespace Verif
open Spec

/-- **C70.** Every query without NaN is equal to itself. -/
theorem C70_reflexive (q : Query) (h : Throughout NoNans q) : q.pyEq q = true := query_refl q h

/-- **C70.** Equality of queries does not depend on the order. -/
theorem C70_symmetric (q r : Query) : q.pyEq r = r.pyEq q := by
  cases h : q.pyEq r
  · cases h' : r.pyEq q
    · rfl
    · rw [query_symm h'] at h; exact h.symm
  · exact (query_symm h).symm

/-- **C70.** Two queries that are equal to a third one are equal, if no function in the third is a `CurriedFunction`, or if no function
in the two has an alias. -/
theorem C70_transitive (q r s : Query) (hf : Throughout OnlyFunctions r ∨ (Throughout NoAliases q ∧ Throughout NoAliases s))
    (h : q.pyEq r = true) (h' : r.pyEq s = true) : q.pyEq s = true := query_trans hf h h'

/-- **C70.** Equal queries are interchangeable: they are both valid or are rejected with the same error, and they are sent and printed as
the same text, if their values are ordinary, and either all functions are `Function`s or no function has an alias. -/
theorem C70_interchangeable [U : PyUnicode] (q r : Query) (h : q.pyEq r = true) (hq : Throughout Ordinary q) (hr : Throughout Ordinary r)
    (hf : (Throughout OnlyFunctions q ∧ Throughout OnlyFunctions r) ∨ (Throughout NoAliases q ∧ Throughout NoAliases r)) :
    q.validate = r.validate ∧ q.serialize = r.serialize ∧ q.print = r.print := by
  have key : ∀ {m : Bool}, AlikeQuery m q r → q.validate = r.validate ∧ q.serialize = r.serialize ∧ q.print = r.print := by
    intro m h
    refine ⟨h.validate, h.serialize, ?_⟩
    simp only [Query.print, h.validate, h.print]
  rcases hf with hf | hf
  · exact key (m := true) (alikeQuery_of h (fun v hv => ⟨hq v hv, hf.1 v hv⟩) fun v hv => ⟨hr v hv, hf.2 v hv⟩)
  · exact key (m := false) (alikeQuery_of h (fun v hv => ⟨hq v hv, hf.1 v hv⟩) fun v hv => ⟨hr v hv, hf.2 v hv⟩)

/-- **C70.** Equal queries have equal hashes (or both cannot be hashed), if all functions are `Function`s or no function has an alias. -/
theorem C70_equal_hashes (q r : Query) (h : q.pyEq r = true)
    (hf : (Throughout OnlyFunctions q ∧ Throughout OnlyFunctions r) ∨ (Throughout NoAliases q ∧ Throughout NoAliases r)) :
    q.hashTree = r.hashTree := by
  rcases hf with hf | hf
  · exact query_hash (m := true) h hf.1 hf.2
  · exact query_hash (m := false) h hf.1 hf.2

/-- **C70.** A query can be hashed exactly if none of its values holds a list (or a data model as a value), and fails with a TypeError
otherwise. -/
theorem C70_hashable (q : Query) : ((∃ t, q.hashTree = .ok t) ↔ ∀ v, MadeOf q v → ¬ Unhashable v) ∧ ∀ e, q.hashTree = .error e → e = .typeError :=
  ⟨query_hashable q, fun _ h => query_hash_error q h⟩

section Examples

attribute [local instance] asciiUnicode

/-- 14:00+02:00 and 12:00 UTC on the same day. -/
private def exTwo : Datetime := ⟨⟨2024, 2, 29, rfl⟩, 14, 0, 0, 0, some (some 7200000000), rfl⟩
private def exTwelve : Datetime := ⟨⟨2024, 2, 29, rfl⟩, 12, 0, 0, 0, some (some 0), rfl⟩

private def exColumn (n : Str) : Val := .column ⟨n, none, none, none⟩

/-- A count per project since a moment, of the events with one of two names. -/
private def exQuery (t : Datetime) : Query :=
  .base (.entity ⟨c!"events", none, none, none⟩)
    { select := .list [.curried true c!"count" .absent [] .list [] (some c!"n")], groupby := .list [exColumn c!"project"]
      where_ := .list [.cond (exColumn c!"time") .gte (.datetime t),
        .boolCond .or .or .list [.cond (exColumn c!"name") .eq (.str c!"a"), .cond (exColumn c!"name") .eq (.str c!"b")]]
      limit := .limit (.int 10) }

private def exOuter (t : Datetime) : Query := .nested (exQuery t) { select := .list [exColumn c!"n"] }

private theorem exHolds {P : Val → Prop} (t : Datetime) (h1 : P .none) (h2 : P (.entity ⟨c!"events", none, none, none⟩))
    (h3 : P (exQuery t).body.select) (h4 : P (exQuery t).body.groupby) (h5 : P (exQuery t).body.where_) (h6 : P (.limit (.int 10)))
    (h7 : P (.list [exColumn c!"n"])) : Throughout P (exOuter t) := by
  intro v hv
  cases hv with
  | own _ _ h =>
    simp only [exOuter, Query.body, List.mem_cons, List.not_mem_nil, or_false] at h
    rcases h with rfl | rfl | rfl | rfl | rfl | rfl | rfl | rfl | rfl | rfl | rfl <;> first | exact h7 | exact h1
  | inner _ _ _ hv =>
    cases hv with
    | match_ => exact h2
    | own _ _ h =>
      simp only [List.mem_cons, List.not_mem_nil, or_false] at h
      rcases h with rfl | rfl | rfl | rfl | rfl | rfl | rfl | rfl | rfl | rfl | rfl <;>
        first | exact h3 | exact h4 | exact h5 | exact h6 | exact h1

private theorem exColumnOk (n : Str) : Ordinary (exColumn n) := ordinary_of (by rintro ⟨⟩) rfl (by rintro t ⟨⟩) (by intro x hx; cases hx)

private theorem exOrdinary (t : Datetime) (ht : t.tz ≠ some none) : Throughout Ordinary (exOuter t) := by
  have hs : ∀ s, Ordinary (.str s) := fun s => ordinary_of (by rintro ⟨⟩) rfl (by rintro t ⟨⟩) (by intro x hx; cases hx)
  have hd : Ordinary (.datetime t) := by
    intro x hx
    cases hx
    refine ⟨by rintro ⟨⟩, by simp [ownSamples, ownEntities], ?_⟩
    rintro _ ⟨⟩; exact ht
  have hc : ∀ n o r, Ordinary r → Ordinary (.cond (exColumn n) o r) := by
    intro n o r hr
    refine ordinary_of (by rintro ⟨⟩) rfl (by rintro t ⟨⟩) ?_
    intro x hx
    simp only [Val.children, List.mem_cons, List.not_mem_nil, or_false] at hx
    rcases hx with rfl | rfl
    · exact exColumnOk _
    · exact hr
  refine exHolds t ?_ ?_ ?_ ?_ ?_ ?_ ?_ <;> refine ordinary_of (by rintro ⟨⟩) rfl (by rintro t ⟨⟩) ?_ <;> intro x hx <;>
    simp only [exQuery, Query.body, Val.children, List.mem_cons, List.not_mem_nil, or_false] at hx
  · subst hx
    exact ordinary_of (by rintro ⟨⟩) rfl (by rintro t ⟨⟩) (by intro x hx; cases hx)
  · subst hx; exact exColumnOk _
  · rcases hx with rfl | rfl
    · exact hc _ _ _ hd
    · refine ordinary_of (by rintro ⟨⟩) rfl (by rintro t ⟨⟩) ?_
      intro x hx
      simp only [Val.children, List.mem_cons, List.not_mem_nil, or_false] at hx
      rcases hx with rfl | rfl
      · exact hc _ _ _ (hs _)
      · exact hc _ _ _ (hs _)
  · subst hx; exact exColumnOk _

private theorem exOnly (t : Datetime) : Throughout OnlyFunctions (exOuter t) := by
  have ho : ∀ v : Val, v.children = [] → (∀ f n ik is pk ps a, v = .curried f n ik is pk ps a → f = true) → OnlyFunctions v := by
    intro v hc hf x hx
    cases hx with
    | here => exact hf
    | _ => simp_all [Val.children]
  have hk : ∀ v : Val, (∀ f n ik is pk ps a, v ≠ .curried f n ik is pk ps a) → (∀ x ∈ v.children, OnlyFunctions x) → OnlyFunctions v :=
    fun v hf h => told_of (m := true) hf h
  have hcol : ∀ n, OnlyFunctions (exColumn n) := fun n => ho _ rfl (by rintro _ _ _ _ _ _ _ ⟨⟩)
  have hc : ∀ n o r, OnlyFunctions r → OnlyFunctions (.cond (exColumn n) o r) := by
    intro n o r hr
    refine hk _ (by rintro _ _ _ _ _ _ _ ⟨⟩) ?_
    intro x hx
    simp only [Val.children, List.mem_cons, List.not_mem_nil, or_false] at hx
    rcases hx with rfl | rfl
    · exact hcol _
    · exact hr
  refine exHolds t ?_ ?_ ?_ ?_ ?_ ?_ ?_ <;> refine hk _ (by rintro _ _ _ _ _ _ _ ⟨⟩) ?_ <;> intro x hx <;>
    simp only [exQuery, Query.body, Val.children, List.mem_cons, List.not_mem_nil, or_false] at hx
  · subst hx
    exact ho _ rfl (by rintro _ _ _ _ _ _ _ ⟨⟩; rfl)
  · subst hx; exact hcol _
  · rcases hx with rfl | rfl
    · exact hc _ _ _ (ho _ rfl (by rintro _ _ _ _ _ _ _ ⟨⟩))
    · refine hk _ (by rintro _ _ _ _ _ _ _ ⟨⟩) ?_
      intro x hx
      simp only [Val.children, List.mem_cons, List.not_mem_nil, or_false] at hx
      rcases hx with rfl | rfl
      · exact hc _ _ _ (ho _ rfl (by rintro _ _ _ _ _ _ _ ⟨⟩))
      · exact hc _ _ _ (ho _ rfl (by rintro _ _ _ _ _ _ _ ⟨⟩))
  · subst hx; exact hcol _

/-- `Query(Entity("events"), select=(Column("a"),))`, which can be hashed. -/
private def exSmall : Query := .base (.entity ⟨c!"events", none, none, none⟩) { select := .tuple [exColumn c!"a"] }

private theorem exSmallAll {P : Val → Prop} (h : ∀ x, Part x .none ∨ Part x (.entity ⟨c!"events", none, none, none⟩) ∨ Part x (exColumn c!"a") ∨
    x = .tuple [exColumn c!"a"] → P x) : Throughout (fun v => ∀ x, Part x v → P x) exSmall := by
  intro v hv x hx
  cases hv with
  | match_ => exact h x (.inr (.inl hx))
  | own _ _ hm =>
    simp only [exSmall, Query.body, List.mem_cons, List.not_mem_nil, or_false] at hm
    rcases hm with rfl | rfl | rfl | rfl | rfl | rfl | rfl | rfl | rfl | rfl | rfl <;> first
      | exact h x (.inl hx)
      | skip
    cases hx with
    | here => exact h _ (.inr (.inr (.inr rfl)))
    | tuple _ y hy hx =>
      rw [List.mem_singleton] at hy
      subst hy
      exact h x (.inr (.inr (.inl hx)))

private theorem exSmallNone {P : Val → Prop} (h1 : P .none) (h2 : P (.entity ⟨c!"events", none, none, none⟩)) (h3 : P (exColumn c!"a"))
    (h4 : P (.tuple [exColumn c!"a"])) : Throughout (fun v => ∀ x, Part x v → P x) exSmall :=
  exSmallAll fun x hx => by
    rcases hx with hx | hx | hx | rfl
    · cases hx; exact h1
    · cases hx; exact h2
    · cases hx; exact h3
    · exact h4

example : exSmall.pyEq exSmall = true :=
  C70_reflexive _ (exSmallNone ⟨by simp, by simp [ownSamples, ownEntities]⟩ ⟨by simp, by simp [ownSamples, ownEntities]⟩
    ⟨by simp [exColumn], by simp [exColumn, ownSamples, ownEntities]⟩ ⟨by simp, by simp [ownSamples, ownEntities]⟩)

example : exSmall.pyEq (exQuery exTwo) = (exQuery exTwo).pyEq exSmall := C70_symmetric _ _

/-- The same instant in three time zones. -/
example : (exOuter exTwo).pyEq (exOuter ⟨⟨2024, 2, 29, rfl⟩, 13, 0, 0, 0, some (some 3600000000), rfl⟩) = true :=
  C70_transitive _ (exOuter exTwelve) _ (.inl (exOnly _)) (by decide +kernel) (by decide +kernel)

/-- The same instant in two time zones: a subquery and its outer query, equal and sent as the same text. -/
example : (exOuter exTwo).serialize = (exOuter exTwelve).serialize ∧ (exOuter exTwo).validate = .ok () ∧ exTwo ≠ exTwelve ∧
    (exOuter exTwo).serialize = .ok c!"MATCH { MATCH (events) SELECT count() AS `n` BY project WHERE time >= toDateTime('2024-02-29T12:00:00') AND (name = 'a' OR name = 'b') LIMIT 10 } SELECT n" :=
  ⟨(C70_interchangeable _ _ (by decide +kernel) (exOrdinary _ (by decide)) (exOrdinary _ (by decide)) (.inl ⟨exOnly _, exOnly _⟩)).2.1,
    by decide +kernel, by decide, by decide +kernel⟩

/-- A bool is equal to the number one, and printed otherwise: the queries are equal, and sent as different texts. -/
example : ∃ q r : Query, q.pyEq r = true ∧ q.validate = .ok () ∧ r.validate = .ok () ∧ q.serialize ≠ r.serialize :=
  ⟨.base (.entity ⟨c!"events", none, none, none⟩) { exSmall.body with where_ := .list [.cond (exColumn c!"a") .eq (.bool true)] },
    .base (.entity ⟨c!"events", none, none, none⟩) { exSmall.body with where_ := .list [.cond (exColumn c!"a") .eq (.int 1)] }, by decide +kernel⟩

example : exSmall.hashTree = exSmall.hashTree :=
  C70_equal_hashes exSmall exSmall (by decide +kernel)
    (.inr ⟨exSmallNone (by simp) (by simp) (by simp [exColumn]) (by simp), exSmallNone (by simp) (by simp) (by simp [exColumn]) (by simp)⟩)

/-- The same query with a tuple and with a list. -/
example : (∃ t, exSmall.hashTree = .ok t) ∧ (exQuery exTwo).hashTree = .error .typeError := by
  refine ⟨(C70_hashable _).1.2 fun v hv hu => ?_, ?_⟩
  · revert hu
    cases hv with
    | match_ => rintro ⟨⟩
    | own _ _ hm =>
      simp only [exSmall, Query.body, List.mem_cons, List.not_mem_nil, or_false] at hm
      rcases hm with rfl | rfl | rfl | rfl | rfl | rfl | rfl | rfl | rfl | rfl | rfl <;> intro hu <;> cases hu
      rename_i y hu hy
      rw [List.mem_singleton] at hy
      subst hy
      cases hu
  · cases h : (exQuery exTwo).hashTree with
    | ok t => exact absurd (.list _) ((C70_hashable _).1.1 ⟨t, h⟩ (exQuery exTwo).body.select (.own _ _ (by simp)))
    | error e => rw [(C70_hashable _).2 e h]

end Examples

end Verif
