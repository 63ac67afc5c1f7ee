import Verif.Lemmas.MetricsThreads

/-!
# C80: calls from several threads on one metrics query
-/

namespace Verif
open Spec

section
variable [U : PyUnicode] [S : RegexSpace] [R : PyRepr]

/-- **C80.** Any number of threads call `validate`, `str`, `print` and `serialize` on one object, beginning whenever they
like, with their steps mixed in any order. Each call that has finished has the result it has with nobody else around, as
the object was before the first of them; texts for people may show the filters as they were given or as they are sent. -/
theorem C80_results (q : MetricsQueryObj) (es : List ThreadEvent) (i : Nat) (c : LookCall) (r : Except Err Data)
    (h : ((⟨q, []⟩ : SharedQuery).run es).calls[i]? = some (c, .finished r)) : MayReturn q c r :=
  (((sure_start q).run es).1.2 i c _ h).1

/-- **C80** (the object): whatever has happened, the object is as it was, or as `serialize` leaves it, and a later call of
`serialize` or `validate` has the same result as ever. -/
theorem C80_object (q : MetricsQueryObj) (es : List ThreadEvent) :
    (((⟨q, []⟩ : SharedQuery).run es).object = q ∨ ((⟨q, []⟩ : SharedQuery).run es).object = q.serialize.2) ∧
    ((⟨q, []⟩ : SharedQuery).run es).object.serialize.1 = q.serialize.1 ∧
    ((⟨q, []⟩ : SharedQuery).run es).object.validate = q.validate := by
  have h := ((sure_start q).run es).1.1
  exact ⟨h.object, h.rewrites.serialize.1, h.rewrites.validate⟩

/-- **C80** (afterwards): once a call of `serialize` has finished, the object is as `serialize` leaves it and stays so, and
texts that are asked for from then on show the filters as they are sent. -/
theorem C80_afterwards (q : MetricsQueryObj) (es es' : List ThreadEvent) (i : Nat) (r : Except Err Data)
    (h : ((⟨q, []⟩ : SharedQuery).run es).calls[i]? = some (.serialize, .finished r)) :
    (((⟨q, []⟩ : SharedQuery).run es).run es').object = q.serialize.2 ∧
    ∀ j c r', ((⟨q, []⟩ : SharedQuery).run es).calls.length ≤ j →
      (((⟨q, []⟩ : SharedQuery).run es).run es').calls[j]? = some (c, .finished r') →
      (c = .print → r' = q.serialize.2.printed) ∧ (c = .str → r' = q.serialize.2.print) := by
  have hs := ((sure_start q).run es).1
  have ho : ((⟨q, []⟩ : SharedQuery).run es).object = q.serialize.2 := (hs.2 i _ _ h).2 rfl
  constructor
  · rcases (hs.run es').2 with h' | h'
    · rw [h', ho]
    · exact h'
  · intro j c r' hj hc
    have hl := later_run (n := ((⟨q, []⟩ : SharedQuery).run es).calls.length) es' hs ho (Nat.le_refl _)
      (fun i c s hi hc => by rw [List.getElem?_eq_none hi] at hc; cases hc) j c _ hj hc
    constructor
    · intro h
      rcases hl.print h with h | ⟨h, _⟩ | h
      · cases h
      · cases h
      · exact (Stage.finished.injEq _ _).mp h
    · intro h
      rcases hl.str h with h | h
      · cases h
      · exact (Stage.finished.injEq _ _).mp h

/-- **C80** (nobody waits): a call that has begun has finished after at most seven steps of its own, whatever the others do. -/
theorem C80_progress (w : SharedQuery) (es : List ThreadEvent) (i : Nat) (hi : i < w.calls.length)
    (h : 7 ≤ es.count (.steps i)) : ∃ c r, (w.run es).calls[i]? = some (c, .finished r) := by
  obtain ⟨s', h1, h2⟩ := left_run (i := i) es (c := (w.calls[i]).1) (s := (w.calls[i]).2) (List.getElem?_eq_getElem hi)
  have h7 : (w.calls[i]).2.left ≤ 7 := by
    cases (w.calls[i]).2 <;> simp [Stage.left]
  obtain ⟨r, rfl⟩ := left_zero (s := s') (by omega)
  exact ⟨_, r, h1⟩

/-- **C80** (alone): the steps of a call that nobody interrupts are those of the call as it is described without threads. -/
theorem C80_alone (q : MetricsQueryObj) (c : LookCall) :
    ∃ r, (⟨q, []⟩ : SharedQuery).run (.begins c :: List.replicate 7 (.steps 0)) = ⟨objectAfter q c, [(c, .finished r)]⟩ ∧
      Returns q c r := by
  cases c with
  | validate =>
    cases hv : q.validate with
    | error e =>
      refine ⟨_, ?_, .invalid e hv⟩
      rw [show (7 : Nat) = 6 + 1 from rfl, List.replicate_succ]
      simp [SharedQuery.run, SharedQuery.next, LookCall.first, Stage.step, hv, objectAfter]
    | ok u =>
      refine ⟨_, ?_, .valid hv⟩
      rw [show (7 : Nat) = 6 + 1 from rfl, List.replicate_succ]
      simp [SharedQuery.run, SharedQuery.next, LookCall.first, LookCall.validated, Stage.step, hv, objectAfter]
  | str =>
    refine ⟨_, ?_, .str⟩
    rw [show (7 : Nat) = 6 + 1 from rfl, List.replicate_succ]
    simp [SharedQuery.run, SharedQuery.next, LookCall.first, Stage.step, objectAfter]
  | print =>
    refine ⟨_, ?_, .print⟩
    cases hv : q.validate with
    | error e =>
      rw [show (7 : Nat) = 6 + 1 from rfl, List.replicate_succ, printed_invalid hv]
      simp [SharedQuery.run, SharedQuery.next, LookCall.first, Stage.step, hv, objectAfter]
    | ok u =>
      rw [show (7 : Nat) = 5 + 1 + 1 from rfl, List.replicate_succ, List.replicate_succ, printed_valid hv]
      simp [SharedQuery.run, SharedQuery.next, LookCall.first, LookCall.validated, Stage.step, hv, objectAfter]
  | serialize =>
    have hs := ((sure_start q).run [.begins .serialize]).1
    rw [SharedQuery.run, SharedQuery.run] at hs
    rw [SharedQuery.run]
    have hlen := steps_length (i := 0) 7 ((⟨q, []⟩ : SharedQuery).next (.begins .serialize))
    have hb : ((⟨q, []⟩ : SharedQuery).next (.begins .serialize)).calls[0]? = some (.serialize, .validating) := rfl
    have hn : ((⟨q, []⟩ : SharedQuery).next (.begins .serialize)).calls.length = 1 := rfl
    generalize (⟨q, []⟩ : SharedQuery).next (.begins .serialize) = w at *
    obtain ⟨s, h1, h2⟩ := left_run (i := 0) (List.replicate 7 (.steps 0)) hb
    rw [List.count_replicate_self] at h2
    obtain ⟨r, rfl⟩ := left_zero (s := s) (Nat.le_zero.1 h2)
    obtain ⟨h3, rfl⟩ := single_serialize (hs.run (List.replicate 7 (.steps 0))).1 (hlen.trans hn) h1
    exact ⟨_, h3, .serialize⟩

end

/-! ### Examples -/

attribute [local instance] asciiUnicode pySpace

@[local instance, reducible] private def exThreadsRepr : PyRepr := ⟨fun _ => []⟩

/-- Two calls of `serialize` run side by side, and one of `print` sees the query between them. -/
private def exSideBySide : List ThreadEvent :=
  [.begins .serialize, .begins .serialize, .steps 0, .steps 1, .steps 0, .steps 1, .steps 0, .steps 0, .steps 1, .begins .print,
    .steps 2, .steps 0, .steps 1, .steps 0, .steps 1, .steps 2, .steps 0, .steps 1, .steps 1]

private def exMergedText : Data := .dict [(c!"mql", .val (.str c!"sum(m){a:[\"1\", \"2\"]}")), (c!"mql_context", exMetricsContext)]
private def exGivenText : Data := .dict [(c!"mql", .val (.str c!"sum(m){(a:\"1\" OR a:\"2\")}")), (c!"mql_context", exMetricsContext)]

/-- The steps of the example. -/
private theorem exSideBySide_run : ((⟨exMetricsQuery exOrObject, []⟩ : SharedQuery).run exSideBySide).calls =
    [(.serialize, .finished (.ok exMergedText)), (.serialize, .finished (.ok exMergedText)), (.print, .finished (.ok exMergedText))] := rfl

example : MayReturn (exMetricsQuery exOrObject) .serialize (.ok exMergedText) :=
  C80_results _ exSideBySide 1 _ _ (by rw [exSideBySide_run]; rfl)

/-- Without the last events, the second call has filters in hand that the first has replaced already. -/
example : ((⟨exMetricsQuery exOrObject, []⟩ : SharedQuery).run (exSideBySide.take 15)).calls =
    [(.serialize, .printing), (.serialize, .assigning (exMetricsQuery exOrObject).serialize.2.query), (.print, .printing)] := rfl

/-- A text asked for before the assignment may still show the filters as they were given. -/
example : ((⟨exMetricsQuery exOrObject, []⟩ : SharedQuery).run
      [.begins .serialize, .begins .print, .steps 0, .steps 0, .steps 0, .steps 1, .steps 0, .steps 1, .steps 0, .steps 0, .steps 0]).calls =
    [(.serialize, .finished (.ok exMergedText)), (.print, .finished (.ok exGivenText))] := rfl

example := C80_object (exMetricsQuery exOrObject) exSideBySide
example := C80_afterwards (exMetricsQuery exOrObject) exSideBySide [.begins .str, .steps 3] 0 _ (by rw [exSideBySide_run]; rfl)
example := C80_progress ((⟨exMetricsQuery exOrObject, []⟩ : SharedQuery).run [.begins .serialize, .begins .str])
  [.steps 0, .steps 0, .steps 1, .steps 0, .steps 0, .steps 0, .steps 0, .steps 0] 0 (by decide) (by decide)
example := C80_alone (exMetricsQuery exOrObject) .serialize

end Verif
