import Verif.Spec.MetricsThreads
import Verif.Props.MetricsQuery

/-!
# Lemmas about calls that share a metrics query
-/

namespace Verif
open Spec

theorem optimizeQuery_filters {x : MVal} {f : Val} (h : filtersOf x = .ok f) :
    optimizeQuery x = (do
      let r ← optimizeFilters f
      match r with
      | none => .ok x
      | some n => replaceWith n x) := by
  cases x <;> first | cases h | skip
  · simp only [optimizeQuery]
    rename_i t
    cases optimizeFilters t.filters with
    | error e => rfl
    | ok r => cases r <;> rfl
  · simp only [optimizeQuery]
    generalize hr : optimizeFilters _ = r0
    cases r0 with
    | error e => rfl
    | ok r => cases r <;> rfl

theorem optimizeQuery_other {x : MVal} {e : Err} (h : filtersOf x = .error e) : optimizeQuery x = .ok x := by
  cases x <;> first | cases h; done | rfl

theorem replaceWith_again {x v : MVal} {n : Val} (h : replaceWith n x = .ok v) :
    filtersOf v = .ok n ∧ replaceWith n v = .ok v := by
  cases x <;> first | cases h; done | skip
  · rename_i t
    simp only [replaceWith, bind_eq_ok] at h
    obtain ⟨t', ht, h⟩ := h
    cases h
    obtain ⟨m, hm, rfl, hok⟩ := (C32_timeseries_iff _ _ _ _ _ _).1 ht
    cases hm
    refine ⟨rfl, ?_⟩
    simp only [replaceWith, ht, ok_bind]
  · cases h; exact ⟨rfl, rfl⟩

/-- Merging is what the optimiser does with filters that are there. -/
theorem merge_eq {f : Val} (hg : f.given = true) :
    optimizeFilters f = (do let xs ← iterItems f; optimize xs : Except Err (Option (List Val))).map (Option.map .list) := by
  simp only [optimizeFilters, hg, if_true]
  cases iterItems f with
  | error e => rfl
  | ok xs =>
    simp only [ok_bind]
    cases optimize xs <;> rfl

theorem optimizeFilters_given {f n : Val} (h : optimizeFilters f = .ok (some n)) : f.given = true := by
  cases hg : f.given with
  | true => rfl
  | false => simp [optimizeFilters, hg] at h

/-- The object has had its filters merged. -/
structure Merged (q o : MetricsQueryObj) (f n : Val) (v : MVal) : Prop where
  filters : filtersOf q.query = .ok f
  merge : optimizeFilters f = .ok (some n)
  replace : replaceWith n q.query = .ok v
  object : o = { q with query := v }

theorem Merged.optimized {q o : MetricsQueryObj} {f n : Val} {v : MVal} (h : Merged q o f n v) : optimizeQuery q.query = .ok v := by
  rw [optimizeQuery_filters h.filters, h.merge]
  exact h.replace

theorem Merged.given {q o : MetricsQueryObj} {f n : Val} {v : MVal} (h : Merged q o f n v) : n.given = true := by
  have h := h.merge
  have hg := optimizeFilters_given h
  rw [merge_eq hg] at h
  cases hx : (do let xs ← iterItems f; optimize xs : Except Err (Option (List Val))) with
  | error e => rw [hx] at h; cases h
  | ok r =>
    rw [hx] at h
    cases r with
    | none => cases h
    | some l => cases h; rfl

section
variable [U : PyUnicode] [S : RegexSpace] [R : PyRepr]

omit R in
/-- The object is as it was, or the valid query has had its filters merged. -/
def SeenAs (q o : MetricsQueryObj) : Prop := o = q ∨ q.validate = .ok () ∧ ∃ f n v, Merged q o f n v

omit R in
theorem SeenAs.rewrites {q o : MetricsQueryObj} (h : SeenAs q o) : Rewrites q o := by
  rcases h with rfl | ⟨hv, f, n, v, h⟩
  · exact .inl rfl
  · exact .inr ⟨v, checkQuery_of_validate hv, h.optimized, h.object⟩

omit R in
theorem seenAs_of_optimize {q : MetricsQueryObj} {v : MVal} (hv : q.validate = .ok ()) (h : optimizeQuery q.query = .ok v) :
    SeenAs q { q with query := v } := by
  cases hf : filtersOf q.query with
  | error e =>
    rw [optimizeQuery_other hf] at h
    cases h
    exact .inl rfl
  | ok f =>
    have ho := h
    rw [optimizeQuery_filters hf] at h
    simp only [bind_eq_ok] at h
    obtain ⟨r, hr, h⟩ := h
    cases r with
    | none => cases h; exact .inl rfl
    | some n => exact .inr ⟨hv, f, n, v, hf, hr, h, rfl⟩

theorem serialize_ok {q : MetricsQueryObj} {v : MVal} (hv : q.validate = .ok ()) (h : optimizeQuery q.query = .ok v) :
    q.serialize = (({ q with query := v } : MetricsQueryObj).print, { q with query := v }) := by
  simp only [MetricsQueryObj.serialize, hv, h]

theorem serialize_error {q : MetricsQueryObj} {e : Err} (hv : q.validate = .ok ()) (h : optimizeQuery q.query = .error e) :
    q.serialize = (.error e, q) := by
  simp only [MetricsQueryObj.serialize, hv, h]

theorem serialize_invalid {q : MetricsQueryObj} {e : Err} (hv : q.validate = .error e) : q.serialize = (.error e, q) := by
  simp only [MetricsQueryObj.serialize, hv]

theorem SeenAs.object {q o : MetricsQueryObj} (h : SeenAs q o) : o = q ∨ o = q.serialize.2 := by
  rcases h with rfl | ⟨hv, f, n, v, h⟩
  · exact .inl rfl
  · refine .inr ?_
    rw [serialize_ok hv h.optimized, h.object]

/-- What is known of a call, given the object as it was and as it is. -/
def Stage.Sure (q o : MetricsQueryObj) (c : LookCall) : Stage → Prop
  | .validating => c ≠ .str
  | .testing => c = .serialize ∧ q.validate = .ok ()
  | .asking => c = .serialize ∧ q.validate = .ok () ∧ ∃ f, filtersOf q.query = .ok f
  | .merging => c = .serialize ∧ q.validate = .ok () ∧ ∃ f, filtersOf q.query = .ok f ∧ f.given = true
  | .replacing n => c = .serialize ∧ q.validate = .ok () ∧ ∃ f, filtersOf q.query = .ok f ∧ optimizeFilters f = .ok (some n)
  | .assigning v => c = .serialize ∧ q.validate = .ok () ∧ optimizeQuery q.query = .ok v
  | .printing => c = .str ∨ q.validate = .ok () ∧ (c = .print ∨ c = .serialize ∧ o = q.serialize.2 ∧ q.serialize.1 = o.print)
  | .finished r => MayReturn q c r ∧ (c = .serialize → o = q.serialize.2)

/-- The object of a step is the same or the one `serialize` leaves. -/
theorem Stage.Sure.keep {q o o' : MetricsQueryObj} {c : LookCall} {s : Stage} (h : s.Sure q o c)
    (ho : o' = o ∨ o' = q.serialize.2) : s.Sure q o' c := by
  rcases ho with rfl | rfl
  · exact h
  · cases s with
    | printing =>
      rcases h with h | ⟨hv, h | ⟨h, h1, h2⟩⟩
      · exact .inl h
      · exact .inr ⟨hv, .inl h⟩
      · subst h1; exact .inr ⟨hv, .inr ⟨h, rfl, h2⟩⟩
    | finished r => exact ⟨h.1, fun _ => rfl⟩
    | _ => exact h

theorem mayReturn_printed {q o : MetricsQueryObj} (h : SeenAs q o) : MayReturn q .print o.printed := by
  rcases h.object with rfl | rfl
  · exact .printBefore
  · exact .printAfter

theorem mayReturn_print {q o : MetricsQueryObj} (h : SeenAs q o) : MayReturn q .str o.print := by
  rcases h.object with rfl | rfl
  · exact .strBefore
  · exact .strAfter

theorem printed_valid {q : MetricsQueryObj} (h : q.validate = .ok ()) : q.printed = q.print := by
  simp only [MetricsQueryObj.printed, h, ok_bind]

theorem printed_invalid {q : MetricsQueryObj} {e : Err} (h : q.validate = .error e) : q.printed = .error e := by
  simp only [MetricsQueryObj.printed, h, error_bind]

/-- The call goes on to print an object whose query cannot be merged any further. -/
theorem good_printing {q o : MetricsQueryObj} (hs : SeenAs q o) (hv : q.validate = .ok ())
    (h : optimizeQuery o.query = .ok o.query) : Stage.Sure q o .serialize .printing := by
  refine .inr ⟨hv, .inr ⟨rfl, ?_⟩⟩
  rcases hs with rfl | ⟨_, f, n, v, hm⟩
  · rw [serialize_ok hv h]; exact ⟨rfl, rfl⟩
  · rw [serialize_ok hv hm.optimized, hm.object]; exact ⟨rfl, rfl⟩

/-- Steps keep what is known. -/
theorem Stage.Sure.step {q o : MetricsQueryObj} {c : LookCall} {s : Stage} (hs : SeenAs q o) (h : s.Sure q o c) :
    SeenAs q (s.step o c).1 ∧ ((s.step o c).1 = o ∨ (s.step o c).1 = q.serialize.2) ∧
    (s.step o c).2.Sure q (s.step o c).1 c := by
  have hval := hs.rewrites.validate
  cases s with
  | validating =>
    simp only [Stage.step, hval]
    cases hv : q.validate with
    | error e =>
      refine ⟨hs, .inl rfl, ?_⟩
      cases c with
      | str => exact absurd rfl h
      | validate => exact ⟨.invalid e hv, fun h => by cases h⟩
      | print =>
        have := MayReturn.printBefore (q := q)
        rw [printed_invalid hv] at this
        exact ⟨this, fun h => by cases h⟩
      | serialize =>
        have := MayReturn.serialize (q := q)
        rw [serialize_invalid hv] at this
        refine ⟨this, fun _ => ?_⟩
        rw [serialize_invalid hv]
        rcases hs with rfl | ⟨hv', _⟩
        · rfl
        · rw [hv] at hv'; cases hv'
    | ok u =>
      refine ⟨hs, .inl rfl, ?_⟩
      cases c with
      | str => exact absurd rfl h
      | validate => exact ⟨.valid hv, fun h => by cases h⟩
      | print => exact .inr ⟨hv, .inl rfl⟩
      | serialize => exact ⟨rfl, hv⟩
  | testing =>
    obtain ⟨rfl, hv⟩ := h
    have hstep : (Stage.testing.step o .serialize).1 = o := by
      simp only [Stage.step]; split <;> rfl
    rw [hstep]
    refine ⟨hs, .inl rfl, ?_⟩
    cases hf : filtersOf o.query with
    | error e =>
      have : (Stage.testing.step o .serialize).2 = .printing := by
        simp only [Stage.step]
        split
        · rename_i t ht; rw [ht] at hf; cases hf
        · rename_i n p a f g ht; rw [ht] at hf; cases hf
        · rfl
      rw [this]
      exact good_printing hs hv (optimizeQuery_other hf)
    | ok f =>
      have : (Stage.testing.step o .serialize).2 = .asking := by
        simp only [Stage.step]
        split
        · rfl
        · rfl
        · rename_i h1 h2
          cases ho : o.query <;> rw [ho] at hf <;> first | cases hf; done | skip
          · exact (h1 _ ho).elim
          · exact (h2 _ _ _ _ _ ho).elim
      rw [this]
      refine ⟨rfl, hv, ?_⟩
      rcases hs with rfl | ⟨_, f, n, v, hm⟩
      · exact ⟨f, hf⟩
      · exact ⟨f, hm.filters⟩
  | asking =>
    obtain ⟨rfl, hv, f, hf⟩ := h
    rcases hs with rfl | ⟨hv', f', n, v, hm⟩
    · simp only [Stage.step, hf]
      refine ⟨.inl rfl, .inl (by trivial), ?_⟩
      cases hg : f.given with
      | true => exact ⟨rfl, hv, f, hf, hg⟩
      | false =>
        refine good_printing (.inl rfl) hv ?_
        rw [optimizeQuery_filters hf]
        simp [optimizeFilters, hg, ok_bind]
    · have hs : SeenAs q o := .inr ⟨hv', f', n, v, hm⟩
      have hq : o.query = v := by rw [hm.object]
      simp only [Stage.step, hq, (replaceWith_again hm.replace).1, hm.given, if_true]
      exact ⟨hs, .inl (by trivial), rfl, hv, f', hm.filters, optimizeFilters_given hm.merge⟩
  | merging =>
    obtain ⟨rfl, hv, f, hf, hg⟩ := h
    rcases hs with rfl | ⟨hv', f', n, v, hm⟩
    · have hmerge := merge_eq hg
      have hopt := optimizeQuery_filters hf
      simp only [Stage.step, hf]
      cases hx : (do let xs ← iterItems f; optimize xs : Except Err (Option (List Val))) with
      | error e =>
        rw [hx] at hmerge
        have he : optimizeQuery o.query = .error e := by rw [hopt, hmerge]; rfl
        refine ⟨.inl rfl, .inl rfl, ?_⟩
        have := MayReturn.serialize (q := o)
        rw [serialize_error hv he] at this
        exact ⟨this, fun _ => by rw [serialize_error hv he]⟩
      | ok r =>
        rw [hx] at hmerge
        cases r with
        | none => exact ⟨.inl rfl, .inl rfl, good_printing (.inl rfl) hv (by rw [hopt, hmerge]; rfl)⟩
        | some l => exact ⟨.inl rfl, .inl rfl, rfl, hv, f, hf, hmerge⟩
    · have hs : SeenAs q o := .inr ⟨hv', f', n, v, hm⟩
      have hq : o.query = v := by rw [hm.object]
      have hn := optimizeFilters_again hm.merge
      have hmerge := merge_eq hm.given
      rw [hn] at hmerge
      simp only [Stage.step, hq, (replaceWith_again hm.replace).1]
      cases hx : (do let xs ← iterItems n; optimize xs : Except Err (Option (List Val))) with
      | error e => rw [hx] at hmerge; cases hmerge
      | ok r =>
        rw [hx] at hmerge
        cases r with
        | none =>
          refine ⟨hs, .inl rfl, good_printing hs hv ?_⟩
          rw [hq, optimizeQuery_filters (replaceWith_again hm.replace).1, hn]; rfl
        | some l => cases hmerge
  | replacing n =>
    obtain ⟨rfl, hv, f, hf, hn⟩ := h
    rcases hs with rfl | ⟨hv', f', n', v, hm⟩
    · have hopt := optimizeQuery_filters hf
      rw [hn] at hopt
      simp only [ok_bind] at hopt
      simp only [Stage.step]
      cases hr : replaceWith n o.query with
      | error e =>
        rw [hr] at hopt
        refine ⟨.inl rfl, .inl rfl, ?_⟩
        have := MayReturn.serialize (q := o)
        rw [serialize_error hv hopt] at this
        exact ⟨this, fun _ => by rw [serialize_error hv hopt]⟩
      | ok v =>
        rw [hr] at hopt
        exact ⟨.inl rfl, .inl rfl, rfl, hv, hopt⟩
    · have hs : SeenAs q o := .inr ⟨hv', f', n', v, hm⟩
      have hq : o.query = v := by rw [hm.object]
      have h1 := hm.filters
      rw [hf] at h1; cases h1
      have h2 := hm.merge
      rw [hn] at h2; cases h2
      simp only [Stage.step, hq, (replaceWith_again hm.replace).2]
      exact ⟨hs, .inl (by trivial), rfl, hv, hm.optimized⟩
  | assigning v =>
    obtain ⟨rfl, hv, ho⟩ := h
    have he : ({ o with query := v } : MetricsQueryObj) = { q with query := v } := by
      rcases hs with rfl | ⟨_, f, n, v', hm⟩
      · rfl
      · rw [hm.object]
    simp only [Stage.step, he]
    rw [serialize_ok hv ho]
    refine ⟨seenAs_of_optimize hv ho, .inr rfl, .inr ⟨hv, .inr ⟨rfl, ?_⟩⟩⟩
    rw [serialize_ok hv ho]
    exact ⟨rfl, rfl⟩
  | printing =>
    refine ⟨hs, .inl rfl, ?_⟩
    rcases h with rfl | ⟨hv, rfl | ⟨rfl, h1, h2⟩⟩
    · exact ⟨mayReturn_print hs, fun h => by cases h⟩
    · have := mayReturn_printed hs
      rw [printed_valid (hval.trans hv)] at this
      exact ⟨this, fun h => by cases h⟩
    · have := MayReturn.serialize (q := q)
      rw [h2] at this
      exact ⟨this, fun _ => h1⟩
  | finished r => exact ⟨hs, .inl rfl, h⟩

/-- What is known of the object and all calls. -/
def SharedQuery.Sure (q : MetricsQueryObj) (w : SharedQuery) : Prop :=
  SeenAs q w.object ∧ ∀ (i : Nat) (c : LookCall) (s : Stage), w.calls[i]? = some (c, s) → s.Sure q w.object c

theorem first_good {q o : MetricsQueryObj} (c : LookCall) : c.first.Sure q o c := by
  cases c
  · intro h; cases h
  · exact .inl rfl
  · intro h; cases h
  · intro h; cases h

theorem SharedQuery.Sure.next {q : MetricsQueryObj} {w : SharedQuery} (h : w.Sure q) (e : ThreadEvent) :
    (w.next e).Sure q ∧ ((w.next e).object = w.object ∨ (w.next e).object = q.serialize.2) := by
  cases e with
  | begins c =>
    refine ⟨⟨h.1, fun i c' s hi => ?_⟩, .inl rfl⟩
    simp only [SharedQuery.next] at hi
    rw [List.getElem?_append] at hi
    split at hi
    · exact h.2 i c' s hi
    · cases hj : i - w.calls.length with
      | zero => rw [hj] at hi; cases hi; exact first_good c
      | succ n => rw [hj] at hi; cases hi
  | steps i =>
    simp only [SharedQuery.next]
    cases hi : w.calls[i]? with
    | none => exact ⟨h, .inl rfl⟩
    | some p =>
      obtain ⟨c, s⟩ := p
      obtain ⟨h1, h2, h3⟩ := (h.2 i c s hi).step h.1
      refine ⟨⟨h1, fun j c' s' hj => ?_⟩, h2⟩
      simp only at hj ⊢
      rw [List.getElem?_set] at hj
      split at hj
      · split at hj
        · cases hj; exact h3
        · cases hj
      · exact (h.2 j c' s' hj).keep h2

theorem SharedQuery.Sure.run {q : MetricsQueryObj} : ∀ (es : List ThreadEvent) {w : SharedQuery}, w.Sure q →
    (w.run es).Sure q ∧ ((w.run es).object = w.object ∨ (w.run es).object = q.serialize.2)
  | [], w, h => ⟨h, .inl rfl⟩
  | e :: es, w, h => by
    obtain ⟨h1, h2⟩ := h.next e
    obtain ⟨h3, h4⟩ := SharedQuery.Sure.run es h1
    refine ⟨h3, ?_⟩
    rcases h4 with h4 | h4
    · rcases h2 with h2 | h2
      · exact .inl (h4.trans h2)
      · exact .inr (h4.trans h2)
    · exact .inr h4

theorem sure_start (q : MetricsQueryObj) : (⟨q, []⟩ : SharedQuery).Sure q := ⟨.inl rfl, fun i c s h => by cases h⟩

/-! ### Calls that begin when the filters have been merged -/

/-- What is known of a call that makes a text and began when the object was `o`, as long as it stays so. -/
structure Stage.Later (o : MetricsQueryObj) (c : LookCall) (s : Stage) : Prop where
  print : c = .print → s = .validating ∨ s = .printing ∧ o.validate = .ok () ∨ s = .finished o.printed
  str : c = .str → s = .printing ∨ s = .finished o.print

theorem later_first {o : MetricsQueryObj} (c : LookCall) : c.first.Later o c :=
  ⟨fun h => by subst h; exact .inl rfl, fun h => by subst h; exact .inl rfl⟩

theorem Stage.Later.step {o : MetricsQueryObj} {c : LookCall} {s : Stage} (h : s.Later o c) : (s.step o c).2.Later o c := by
  constructor
  · intro hc
    rcases h.print hc with rfl | ⟨rfl, hv⟩ | rfl
    · subst hc
      simp only [Stage.step]
      cases hv : o.validate with
      | error e => exact .inr (.inr (by rw [printed_invalid hv]))
      | ok u => exact .inr (.inl ⟨rfl, rfl⟩)
    · exact .inr (.inr (by rw [printed_valid hv]; rfl))
    · exact .inr (.inr rfl)
  · intro hc
    rcases h.str hc with rfl | rfl
    · exact .inr rfl
    · exact .inr rfl

theorem later_run {q : MetricsQueryObj} {n : Nat} : ∀ (es : List ThreadEvent) {w : SharedQuery}, w.Sure q → w.object = q.serialize.2 →
    n ≤ w.calls.length → (∀ (i : Nat) (c : LookCall) (s : Stage), n ≤ i → w.calls[i]? = some (c, s) → s.Later q.serialize.2 c) →
    ∀ (i : Nat) (c : LookCall) (s : Stage), n ≤ i → (w.run es).calls[i]? = some (c, s) → s.Later q.serialize.2 c
  | [], w, _, _, _, h => h
  | e :: es, w, hw, ho, hn, h => by
    obtain ⟨h1, h2⟩ := hw.next e
    have ho' : (w.next e).object = q.serialize.2 := by
      rcases h2 with h2 | h2
      · rw [h2, ho]
      · exact h2
    cases e with
    | begins c0 =>
      refine later_run es h1 ho' (by simp [SharedQuery.next]; omega) ?_
      intro i c s hi hc
      simp only [SharedQuery.next] at hc
      rw [List.getElem?_append] at hc
      split at hc
      · exact h i c s hi hc
      · cases hj : i - w.calls.length with
        | zero => rw [hj] at hc; cases hc; exact later_first c0
        | succ m => rw [hj] at hc; cases hc
    | steps j =>
      refine later_run es h1 ho' ?_ ?_
      · simp only [SharedQuery.next]; split <;> simp [hn]
      · intro i c s hi hc
        simp only [SharedQuery.next] at hc
        split at hc
        · exact h i c s hi hc
        · rename_i c1 s1 hj
          simp only at hc
          rw [List.getElem?_set] at hc
          split at hc
          · rename_i hij
            split at hc
            · cases hc
              subst hij
              have := (h j c s1 hi hj).step
              rw [ho]
              exact this
            · cases hc
          · exact h i c s hi hc

/-! ### Every call finishes -/

/-- How many steps a call has left at most. -/
def Stage.left : Stage → Nat
  | .validating => 7
  | .testing => 6
  | .asking => 5
  | .merging => 4
  | .replacing _ => 3
  | .assigning _ => 2
  | .printing => 1
  | .finished _ => 0

theorem Stage.left_step (q : MetricsQueryObj) (c : LookCall) (s : Stage) : (s.step q c).2.left ≤ s.left - 1 := by
  cases s <;> simp only [Stage.step]
  · split
    · simp [Stage.left]
    · cases c <;> simp [Stage.left, LookCall.validated]
  · split <;> simp [Stage.left]
  · split
    · simp [Stage.left]
    · split <;> simp [Stage.left]
  · split
    · simp [Stage.left]
    · split <;> simp [Stage.left]
  · split <;> simp [Stage.left]
  all_goals simp [Stage.left]

omit U S R in
theorem left_zero {s : Stage} (h : s.left = 0) : ∃ r, s = .finished r := by
  cases s <;> first | exact ⟨_, rfl⟩ | cases h

theorem left_run {i : Nat} : ∀ (es : List ThreadEvent) {w : SharedQuery} {c : LookCall} {s : Stage}, w.calls[i]? = some (c, s) →
    ∃ s', (w.run es).calls[i]? = some (c, s') ∧ s'.left ≤ s.left - es.count (.steps i)
  | [], w, c, s, h => ⟨s, h, by simp⟩
  | e :: es, w, c, s, h => by
    have hl : i < w.calls.length := by
      have := List.getElem?_eq_some_iff.1 h
      exact this.1
    have : ∃ s1, (w.next e).calls[i]? = some (c, s1) ∧ s1.left ≤ s.left - (if e = .steps i then 1 else 0) := by
      cases e with
      | begins c0 => exact ⟨s, by simp only [SharedQuery.next]; rw [List.getElem?_append_left hl]; exact h, by simp⟩
      | steps j =>
        by_cases hj : j = i
        · subst hj
          refine ⟨(s.step w.object c).2, ?_, ?_⟩
          · simp only [SharedQuery.next, h]
            rw [List.getElem?_set_self hl]
          · simp only [if_true]; exact Stage.left_step _ _ _
        · refine ⟨s, ?_, by simp [hj]⟩
          simp only [SharedQuery.next]
          split
          · exact h
          · simp only; rw [List.getElem?_set_ne hj]; exact h
    obtain ⟨s1, h1, h2⟩ := this
    obtain ⟨s2, h3, h4⟩ := left_run es h1
    refine ⟨s2, h3, ?_⟩
    rw [List.count_cons]
    by_cases he : e = .steps i
    · subst he
      simp only [if_true, beq_self_eq_true] at h2 ⊢
      omega
    · simp only [he, if_false] at h2
      have : (e == ThreadEvent.steps i) = false := by simp [he]
      simp only [this]
      simp
      omega

/-- Steps begin no calls. -/
theorem steps_length {i : Nat} : ∀ (n : Nat) (w : SharedQuery), (w.run (List.replicate n (.steps i))).calls.length = w.calls.length
  | 0, w => rfl
  | n + 1, w => by
    rw [List.replicate_succ, SharedQuery.run, steps_length n]
    simp only [SharedQuery.next]
    split
    · rfl
    · simp

/-- A single call of `serialize` that has finished. -/
theorem single_serialize {q : MetricsQueryObj} {w : SharedQuery} {r : Except Err Data} (hs : w.Sure q) (hl : w.calls.length = 1)
    (h : w.calls[0]? = some (.serialize, .finished r)) :
    w = ⟨q.serialize.2, [(.serialize, .finished r)]⟩ ∧ r = q.serialize.1 := by
  obtain ⟨hr, ho⟩ := hs.2 0 .serialize _ h
  have ho := ho rfl
  obtain ⟨o, cs⟩ := w
  simp only at ho hl h
  subst ho
  match cs, hl with
  | [p], _ =>
    simp only [List.getElem?_cons_zero, Option.some.injEq] at h
    rw [h]
    refine ⟨rfl, ?_⟩
    generalize hx : LookCall.serialize = c at hr
    cases hr with
    | serialize => rfl
    | _ => cases hx

end

end Verif
