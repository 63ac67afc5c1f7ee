import Verif.Lemmas.Equality

/-!
# C75: what equality compares

`==` compares classes and fields. Numbers are compared as numbers, datetimes as instants, data models as sets, and
dictionaries without regard to the order of their entries.
-/

namespace Verif
open Spec

/-- **C75.** Two values are equal exactly if the specification says so. -/
theorem C75_values (v w : Val) : pyEq v w = true ↔ Equal v w := equal_iff v w

/-- **C75.** Two queries are equal exactly if their matches and all their clauses are. -/
theorem C75_queries (q r : Query) : q.pyEq r = true ↔ EqualQuery q r := equalQuery_iff q r

/-- **C75.** Two objects of the metrics layer are equal exactly if they are of the same class and their fields are equal. -/
theorem C75_objects (x y : MVal) (hx : Keyed x) (hy : Keyed y) : x.pyEq y = true ↔ EqualObject x y := equalObject_iff x y hx hy

/-- **C75.** Two metrics queries are equal exactly if all their fields are. -/
theorem C75_metrics (q r : MetricsQueryObj) (hq : ∀ x ∈ fieldsOf q, Keyed x) (hr : ∀ x ∈ fieldsOf r, Keyed x) :
    q.pyEq r = true ↔ EqualMetrics q r := equalMetrics_iff q r hq hr

/-- **C75.** Two requests are equal exactly if their queries are of the same class and all their fields are equal. -/
theorem C75_requests (a b : RequestObj) (ha : RequestKeyed a) (hb : RequestKeyed b) : a.pyEq b = true ↔ EqualRequest a b :=
  equalRequest_iff a b ha hb

section Examples

/-- Half of one is not an int. -/
private def exHalf : PyFloat := ofDecimal false 5 (-1)
private def exTwo : PyFloat := ofDecimal false 20 (-1)

/-- `2 == 2.0`, and the proof is that both are the number two. -/
example : Equal (.int 2) (.float exTwo) := (C75_values _ _).1 (by decide +kernel)
example : ¬ Equal (.int 2) (.float exHalf) := fun h => absurd ((C75_values _ _).2 h) (by decide +kernel)
example : Equal (.list [.bool true, .str c!"x"]) (.list [.int 1, .str c!"x"]) := (C75_values _ _).1 (by decide +kernel)
example : pyEq (.list [.int 1]) (.tuple [.int 1]) = false := by
  rw [Bool.eq_false_iff]
  intro h
  have := (C75_values _ _).1 h
  cases this with
  | number _ _ _ h => cases h

private def exNoon : Datetime := ⟨⟨2024, 2, 29, rfl⟩, 12, 0, 0, 0, some (some 0), rfl⟩
private def exTwoPm : Datetime := ⟨⟨2024, 2, 29, rfl⟩, 14, 0, 0, 0, some (some 7200000000), rfl⟩

/-- The same instant in two time zones. -/
example : pyEq (.datetime exNoon) (.datetime exTwoPm) = true :=
  (C75_values _ _).2 (.datetime _ _ (.aware 0 7200000000 rfl rfl (by decide +kernel)))

private def exDel (kvs : List (Str × Data)) : RequestObj :=
  { dataset := .val (.str c!"search_issues"), appId := .val (.str c!"app"),
    query := .delete { storageName := .val (.str c!"search_issues"), columnConditions := .dict kvs }, tenantIds := .dict [] }

private theorem exKeysOnce {kvs : List (Str × Data)} (hn : (kvs.map Prod.fst).Nodup) (h : ∀ p ∈ kvs, ∃ v, p.2 = .list [.val v]) :
    KeysOnce (.dict kvs) := by
  intro kvs' hk
  cases hk with
  | self => exact hn
  | entry _ k x _ hm hx =>
    obtain ⟨v, hv⟩ := h _ hm
    dsimp only at hv
    subst hv
    cases hx with
    | item _ _ _ hm hx => simp only [List.mem_singleton] at hm; subst hm; cases hx

private theorem exValKeys (v : Val) : KeysOnce (.val v) := fun _ h => nomatch h

private theorem exNoKeys : KeysOnce (.dict []) := exKeysOnce (by simp) (by simp)

private theorem exDelKeyed {kvs : List (Str × Data)} (h : KeysOnce (.dict kvs)) : RequestKeyed (exDel kvs) := by
  refine ⟨?_, exValKeys _, h⟩
  simp only [otherFields, exDel, List.forall_mem_cons]
  exact ⟨exValKeys _, exValKeys _, exValKeys _, exNoKeys, by simp⟩

private def exA : Str × Data := (c!"project_id", .list [.val (.int 1)])
private def exB : Str × Data := (c!"group_id", .list [.val (.int 7)])

/-- The conditions of a deletion in two orders. -/
example : EqualRequest (exDel [exA, exB]) (exDel [exB, exA]) :=
  (C75_requests _ _ (exDelKeyed (exKeysOnce (by decide) (by simp [exA, exB]))) (exDelKeyed (exKeysOnce (by decide) (by simp [exA, exB])))).1
    (by decide +kernel)

/-- A deletion is not equal to one with one condition less. -/
example : (exDel [exA, exB]).pyEq (exDel [exA]) = false := by
  rw [Bool.eq_false_iff]
  intro h
  have := (C75_requests _ _ (exDelKeyed (exKeysOnce (by decide) (by simp [exA, exB]))) (exDelKeyed (exKeysOnce (by decide) (by simp [exA])))).1 h
  have hq := this.query
  cases hq with
  | delete _ _ _ hc =>
    cases hc with
    | dict _ _ hk _ =>
      obtain ⟨y, hy⟩ := (hk c!"group_id").1 ⟨.list [.val (.int 7)], by simp [exB]⟩
      simp [exA] at hy

private def exMatch : Val := .entity ⟨c!"events", none, none, none⟩

/-- `Limit(1) == Limit(True)`: queries that differ in nothing else are equal, and they are not if one has totals. -/
example : EqualQuery (.base exMatch { limit := .limit (.int 1) }) (.base exMatch { limit := .limit (.bool true) }) :=
  (C75_queries _ _).1 (by decide +kernel)
example : ¬ EqualQuery (.base exMatch { limit := .limit (.int 1) }) (.base exMatch { limit := .limit (.int 1), totals := .totals true }) :=
  fun h => absurd ((C75_queries _ _).2 h) (by decide +kernel)

private def exSum (name : Str) (d : Data) : MetricsQueryObj :=
  { query := .ts ⟨⟨.str name, .none, .none⟩, .str c!"sum", .none, .none, .none⟩, indexerMappings := .data d }

private theorem exSumKeyed (name : Str) {d : Data} (h : KeysOnce d) : ∀ x ∈ fieldsOf (exSum name d), Keyed x := by
  have hn : Keyed (.val .none) := fun _ hx => by
    cases hx with
    | item _ _ _ _ hs => cases hs
  have hts : Keyed (exSum name d).query := fun _ hx => by
    cases hx with
    | item _ _ _ _ hs => cases hs
  have hd : Keyed (.data d) := fun kvs hx => by
    cases hx with
    | item _ _ _ _ hs => cases hs
    | data _ _ hx => exact h kvs hx
  simp only [fieldsOf, List.forall_mem_cons]
  exact ⟨hts, hn, hn, hn, hn, hn, hn, hn, hd, by simp⟩

/-- The mappings of a metrics query in two orders. -/
example : EqualMetrics (exSum c!"a" (.dict [exA, exB])) (exSum c!"a" (.dict [exB, exA])) :=
  (C75_metrics _ _ (exSumKeyed _ (exKeysOnce (by decide) (by simp [exA, exB]))) (exSumKeyed _ (exKeysOnce (by decide) (by simp [exA, exB])))).1
    (by decide +kernel)
example : EqualObject (exSum c!"a" (.dict [])).query (exSum c!"a" (.dict [exA])).query :=
  (C75_objects _ _ (exSumKeyed c!"a" exNoKeys _ (by simp [fieldsOf])) (exSumKeyed c!"a" (exKeysOnce (kvs := [exA]) (by decide) (by simp [exA])) _
    (by simp [fieldsOf]))).1
    (by decide +kernel)

end Examples

end Verif
