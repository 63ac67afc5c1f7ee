import Verif.Spec.Rows
import Verif.Props.RequestMeaning
import Verif.Lemmas.Equal

/-!
# C76: the recipient of a request selects the rows that were asked for
-/

namespace Verif

open Spec

theorem saysAll_vals {D : Type} {al : Bool} {J : Server D} {I : Interp D} (hu : Understands al J I) {x : D} :
    ∀ {xs : List Val} {ts : List STree}, SaysAll al xs ts → (∀ x ∈ xs, UnambiguousVal al x) →
      ts.map (fun t => J.eq x (J.val t)) = xs.map fun v => I.eq x (I.val v)
  | _, _, .nil, _ => rfl
  | _, _, .cons v vs t ts h hs, hx => by
    simp only [List.map_cons, hu.eq, hu.val v t (hx v (by simp)) h, List.cons.injEq, true_and]
    have := saysAll_vals hu (x := x) hs fun y hy => hx y (by simp [hy])
    simpa [hu.eq] using this

/-- Words are read as None, a bool, an int or a float. -/
theorem readToken_kinds {w : Str} {v : Val} (h : readToken w = some v) :
    v = .none ∨ (∃ b, v = .bool b) ∨ (∃ i, v = .int i) ∨ ∃ f, v = .float f := by
  have num : ∀ n r, readNumber n r = some v → (∃ i, v = .int i) ∨ ∃ f, v = .float f := by
    intro n r h
    simp only [readNumber] at h
    split at h
    · cases h
    · split at h
      · cases h; simp
      · split at h
        · cases h
        · simp only [Option.map_eq_some_iff] at h
          obtain ⟨_, _, rfl⟩ := h
          simp
      · simp only [Option.map_eq_some_iff] at h
        obtain ⟨_, _, rfl⟩ := h
        simp
  unfold readToken at h
  repeat' split at h
  all_goals first
    | (cases h; simp; done)
    | exact .inr (.inr (num _ _ h))

theorem evalAll_all {D : Type} (I : Interp D) : ∀ xs : List Val, I.evalAll xs = Tri.all (xs.map I.eval)
  | [] => rfl
  | x :: xs => by simp [Interp.evalAll, Tri.all, evalAll_all I xs]

theorem evalAny_any {D : Type} (I : Interp D) : ∀ xs : List Val, I.evalAny xs = Tri.any (xs.map I.eval)
  | [] => rfl
  | x :: xs => by simp [Interp.evalAny, Tri.any, evalAny_any I xs]

theorem unambiguous_item {al : Bool} {v x : Val} (h : UnambiguousVal al v) (hx : x ∈ v.children) : UnambiguousVal al x :=
  fun y hy => h y (part_iff.2 (.inr ⟨x, hx, hy⟩))

/-- A comparison read from the text is as true as the comparison it says. -/
theorem compare_atom {D : Type} {al : Bool} {J : Server D} {I : Interp D} (hu : Understands al J I) {l r : Val} {o : Op} {tl tr : STree}
    (hl : UnambiguousVal al l) (hr : UnambiguousVal al r) (h1 : o ≠ .isNull) (h2 : o ≠ .isNotNull) (sl : Says al l tl) (sr : Says al r tr) :
    J.compare tl o tr = I.atom l o r := by
  by_cases he : o = .eq
  · subst he
    simp [Server.compare, Interp.atom, hu.eq, hu.val l tl hl sl, hu.val r tr hr sr]
  have hb := hu.binary l o r tl tr he h1 h2 hl hr sl sr
  by_cases hi : o = .in_
  · subst hi
    cases sr with
    | list xs ts h =>
      simp only [Server.compare, Interp.atom, true_or, if_true, hu.val l tl hl sl]
      rw [saysAll_vals hu h fun x hx => unambiguous_item hr hx]
    | tuple xs ts h =>
      simp only [Server.compare, Interp.atom, or_true, if_true, hu.val l tl hl sl]
      rw [saysAll_vals hu h fun x hx => unambiguous_item hr hx]
    | curried f n ik is pk ps a its pts h3 h4 =>
      obtain ⟨n1, n2, _, hpk, _⟩ := hr _ .here
      cases a with
      | some a => simpa [Server.compare, Interp.atom, withName] using hb
      | none =>
        by_cases hk : ik = .absent <;> simp_all [Server.compare, Interp.atom, withName, withArgs]
    | token v w h =>
      have e : I.atom l .in_ r = I.other l .in_ r := by
        rcases readToken_kinds h with rfl | ⟨_, rfl⟩ | ⟨_, rfl⟩ | ⟨_, rfl⟩ <;> rfl
      rw [e]
      exact hb
    | aliased c a => cases a <;> simpa [Server.compare, Interp.atom, withName] using hb
    | date d s h => simpa [Server.compare, Interp.atom, momentTree] using hb
    | datetime d u s _ _ h => simpa [Server.compare, Interp.atom, momentTree] using hb
    | _ => exact hb
  · have e1 : J.compare tl o tr = J.other tl o (some tr) := by
      cases o <;> first | rfl | exact (he rfl).elim | exact (hi rfl).elim
    have e2 : I.atom l o r = I.other l o r := by
      cases o <;> first | rfl | exact (he rfl).elim | exact (hi rfl).elim
    rw [e1, e2, hb]

mutual
/-- A condition read from the text is as true as the condition it says. -/
theorem truth_eval {D : Type} {al : Bool} {J : Server D} {I : Interp D} (hu : Understands al J I) :
    ∀ {c : Val} {t : BTree}, SaysCondition al c t → UnambiguousCondition al c → J.truth t = some (I.eval c)
  | _, _, .unary l o r lt tr ho hr hs, h => by
    have := hu.unary l o r tr ho (unambiguousCondition_cond h).1 hs
    rcases ho with rfl | rfl <;> simp [Server.truth, hr, this, Interp.eval, Interp.atom]
  | _, _, .binary l o r lt rt tl tr h1 h2 hl hls hr hrs, h => by
    simp [Server.truth, hl, hr, Interp.eval, compare_atom hu (unambiguousCondition_cond h).1 (unambiguousCondition_cond h).2 h1 h2 hls hrs]
  | _, _, .group cls .and k cs ts hs, h => by
    simp [Server.truth, truths_eval hu hs (unambiguousCondition_group h), Interp.eval, evalAll_all]
  | _, _, .group cls .or k cs ts hs, h => by
    simp [Server.truth, truths_eval hu hs (unambiguousCondition_group h), Interp.eval, evalAny_any]

theorem truths_eval {D : Type} {al : Bool} {J : Server D} {I : Interp D} (hu : Understands al J I) :
    ∀ {cs : List Val} {ts : List BTree}, SaysConditions al cs ts → (∀ c ∈ cs, UnambiguousCondition al c) →
      J.truths ts = some (cs.map I.eval)
  | _, _, .nil, _ => rfl
  | _, _, .cons c cs t ts h hs, hc => by
    simp [Server.truths, truth_eval hu h (hc c (by simp)), truths_eval hu hs fun x hx => hc x (by simp [hx])]
end

theorem wf_reads [PyUnicode] (al : Bool) {v : Val} (hw : WF v) (hr : ReadableVal v) (t : Str) (h : translate ⟨al, false⟩ v = .ok t) :
    ∃ tr, readExpression t = some tr ∧ Says al v tr := by
  obtain ⟨tr, h1, h2⟩ := expr_reads al hw hr t h
  refine ⟨tr, ?_, h1⟩
  have := h2.reads [] ⟨.inl rfl, rfl⟩ (t.length + 1) (Nat.le_refl _)
  rw [List.append_nil] at this
  simp [readExpression, this]

theorem and_yes (a : Tri) : a.and .yes = a := by cases a <;> rfl

/-- A clause read from the text is as true as the conditions it says. -/
theorem clause_eval {D : Type} {al : Bool} {J : Server D} {I : Interp D} (hu : Understands al J I) {v : Val} {t : Option BTree}
    (h : SaysList (fun xs t => ∃ ts, SaysConditions al xs ts ∧ t = group .and ts) v t)
    (hv : ∀ k xs, SeqOf v k xs → ∀ x ∈ xs, UnambiguousCondition al x) :
    (v = .none → J.clause t = some .yes) ∧ ∀ k xs, SeqOf v k xs → J.clause t = some (I.evalAll xs) := by
  cases h with
  | none => exact ⟨fun _ => rfl, fun k xs hs => by cases hs⟩
  | empty _ k h =>
    refine ⟨fun _ => rfl, fun k' xs hs => ?_⟩
    rw [hs.unique h]
    rfl
  | some _ k xs t hs hne h =>
    obtain ⟨ts, h, rfl⟩ := h
    refine ⟨fun e => (by subst e; cases hs), fun k' xs' hs' => ?_⟩
    cases hs'.unique hs
    have ht := truths_eval hu h (hv _ _ hs)
    rcases group_cases .and ts with ⟨t, rfl, e⟩ | e
    · cases h with
      | cons c _ _ _ h hn =>
        cases hn
        simp [e, Server.clause, truth_eval hu h (hv _ _ hs c (by simp)), Interp.evalAll, and_yes]
    · simp [e, Server.clause, Server.truth, ht, evalAll_all]

theorem saysSource_join {j : Bool} {m : Val} {t : SourceTree} (h : SaysSource j m t) : j = true ↔ ∃ k rels, m = .join k rels := by
  cases h <;> simp

/-- At every level the clauses are as true as the conditions that they say. -/
theorem sameRows_of {q : Query} {t : QTree} (h : SaysQuery q t) (hu : UnambiguousQuery q) : SameRows q t := by
  induction h with
  | base j m b mt ct h1 h2 =>
    cases hu with
    | base i _ _ hi hu =>
      cases (Bool.eq_iff_iff.2 (hi.trans (saysSource_join h1).symm) : i = j)
      exact .base _ _ _ _ _ hi
        (fun J I hi => ⟨(clause_eval hi h2.where_ hu.where_).1, fun k xs hs _ => (clause_eval hi h2.where_ hu.where_).2 k xs hs⟩)
        (fun J I hi => ⟨(clause_eval hi h2.having hu.having).1, fun k xs hs _ => (clause_eval hi h2.having hu.having).2 k xs hs⟩)
  | nested q b qt ct _ h2 ih =>
    cases hu with
    | nested _ _ hq hu =>
      exact .nested _ _ _ _ (ih hq)
        (fun J I hi => ⟨(clause_eval hi h2.where_ hu.where_).1, fun k xs hs _ => (clause_eval hi h2.where_ hu.where_).2 k xs hs⟩)
        (fun J I hi => ⟨(clause_eval hi h2.having hu.having).1, fun k xs hs _ => (clause_eval hi h2.having hu.having).2 k xs hs⟩)

/-- Merging in the where clause keeps its rows. -/
theorem filters_unmerge {al : Bool} {v w : Val} {t : Option BTree} (hm : MergedWhere v w)
    (h : ∀ {D : Type} (J : Server D) (I : Interp D), Understands al J I → (w = .none → J.clause t = some .yes) ∧
      ∀ k xs, SeqOf w k xs → J.clause t = some (I.evalAll xs)) : FiltersAlike al v t := by
  intro D J I hu
  refine ⟨fun e => ?_, fun k xs hs ha => ?_⟩
  · rcases hm with rfl | ⟨_, _, _, hs, _⟩
    · exact (h J I hu).1 e
    · subst e; cases hs
  · obtain ⟨k', ys, hy, e⟩ := C72_where_means_the_same I v w k xs hs hm ha
    rw [(h J I hu).2 k' ys hy, e]

theorem sameRows_unmerge {q : Query} {w : Val} {t : QTree} (hm : MergedWhere q.body.where_ w) (h : SaysQuery (putWhere w q) t)
    (hu : UnambiguousQuery q) : SameRows q t := by
  have hu' := merged_unambiguous hm hu
  have hs := sameRows_of h hu'
  cases q with
  | base m b =>
    cases h with
    | base j _ _ mt ct h1 h2 =>
      cases hs with
      | base i _ _ _ _ hi _ hh =>
        cases (Bool.eq_iff_iff.2 (hi.trans (saysSource_join h1).symm) : i = j)
        cases hu' with
        | base i' _ _ hi' hu' =>
          cases (Bool.eq_iff_iff.2 (hi'.trans hi.symm))
          exact .base _ _ _ _ _ hi (filters_unmerge hm fun J I hi => clause_eval hi h2.where_ hu'.where_) hh
  | nested q b =>
    cases h with
    | nested _ _ qt ct h1 h2 =>
      cases hs with
      | nested _ _ _ _ hq _ hh =>
        cases hu' with
        | nested _ _ _ hu' =>
          exact .nested _ _ _ _ hq (filters_unmerge hm fun J I hi => clause_eval hi h2.where_ hu'.where_) hh

section
variable [U : PyUnicode] [S : RegexSpace] [R : PyRepr]

omit S R in
/-- **C76** (queries): in the text of a query the recipient finds, at every level, where and having clauses that hold for exactly the rows
for which the conditions of the query hold, whatever the expressions and operators mean. The provisos on names are those of C57. -/
theorem C76_query (q : Query) (t : Str) (hq : ReadableQuery q) (hu : UnambiguousQuery q) (h : q.serialize = .ok t) :
    ∃ qt, readQuery t = some qt ∧ SameRows q qt := by
  obtain ⟨w, qt, h1, h2, h3⟩ := C57_reads_partial q hq t h
  exact ⟨qt, h2, sameRows_unmerge h1 h3 hu⟩

/-- **C76** (requests): the same for the text under `query` in the text of a request. -/
theorem C76_request (r : RequestObj) (q : Query) (t : Str) (hr : r.query = .snql q) (hq : ReadableQuery q) (hu : UnambiguousQuery q)
    (h : r.serialize = .ok t) :
    ∃ kvs text qt, readJsonText true t = some (.obj kvs) ∧ kvs.lookup c!"query" = some (.str text) ∧ readQuery text = some qt ∧
      SameRows q qt := by
  obtain ⟨kvs, text, w, qt, h1, h2, h3, h4, h5⟩ := C72_snql r q t hr hq h
  exact ⟨kvs, text, qt, h1, h2, h3, sameRows_unmerge h4 h5 hu⟩

omit S R in
/-- **C76** (equal left-hand sides): for plain left-hand sides the proviso of `FiltersAlike` holds by itself, because equal ones have the
same text. -/
theorem C76_equal_sides {D : Type} (al : Bool) (J : Server D) (I : Interp D) (hi : Understands al J I) (xs : List Val)
    (hx : ∀ x ∈ xs, Built x ∧ ReadableCondition x ∧ UnambiguousCondition al x) (hp : PlainSides xs) : EqualSidesAgree I xs := by
  intro cls k cs l r l' r' hc hl hl' he
  obtain ⟨hb, hr, hu⟩ := hx _ hc
  have item : ∀ {l r : Val}, .cond l .eq r ∈ cs → WF l ∧ Element l ∧ ReadableVal l ∧ UnambiguousVal al l := by
    intro l r hm
    have hw := built_wf hb
    have hrc : ReadableCondition (.cond l .eq r) := by cases hr with | group _ _ _ _ h => exact h _ hm
    have huc := unambiguousCondition_group hu _ hm
    cases hrc with
    | cond _ _ _ h1 h2 =>
      cases hw with
      | literal _ h => cases h
      | boolCond _ _ _ _ hc _ _ _ _ =>
        cases hc _ hm with
        | literal _ h => cases h
        | cond _ _ _ hl _ hf _ _ => exact ⟨hl, colOrFn_element hf, h1, (unambiguousCondition_cond huc).1⟩
  obtain ⟨w1, e1, r1, u1⟩ := item hl
  obtain ⟨w2, e2, r2, u2⟩ := item hl'
  obtain ⟨o1, a1, c1⟩ := hp _ _ _ _ _ hc hl
  obtain ⟨o2, a2, c2⟩ := hp _ _ _ _ _ hc hl'
  obtain ⟨t, ht⟩ := (wf_translate ⟨al, false⟩ w1 e1).2 c1
  have ht' := (pyEq_prints ⟨al, false⟩ l' l he o2 o1 (.inr ⟨a2, a1⟩)).trans ht
  obtain ⟨tr, h1, h2⟩ := wf_reads al w1 r1 t ht
  obtain ⟨tr', h1', h2'⟩ := wf_reads al w2 r2 t ht'
  rw [h1] at h1'
  cases h1'
  rw [← hi.val l tr u1 h2, ← hi.val l' tr u2 h2']

end

section Examples

attribute [local instance] asciiUnicode pySpace

@[local instance] private def exRowsRepr : PyRepr := ⟨fun _ => []⟩

/-- A column without entity. -/
private def exRowCol : Val := .column ⟨c!"a", none, none, none⟩

/-- `a = n`. -/
private def exIs (n : Int) : Val := .cond exRowCol .eq (.int n)

/-- `a = 1 OR a = 2`. -/
private def exOr : Val := .boolCond .or .or .list [exIs 1, exIs 2]

/-- A query with equalities that are merged. -/
private def exRows : Query := .base (.entity ⟨c!"events", none, none, none⟩) { select := .list [exRowCol], where_ := .list [exOr] }

/-- A test of two numbers: unknown if one is missing. -/
private def exTest (p : Int → Int → Bool) : Option Int → Option Int → Tri
  | some a, some b => if p a b then .yes else .no
  | _, _ => .unknown

/-- What the remaining operators do to numbers. -/
private def exOther (o : Op) (a b : Option Int) : Tri :=
  match o with
  | .lt => exTest (· < ·) a b
  | .isNull => if a.isNone then .yes else .no
  | .isNotNull => if a.isSome then .yes else .no
  | _ => .unknown

/-- A recipient that knows integers and the columns of a row. -/
private def exServer (row : Str → Option Int) : Server (Option Int) :=
  let val : STree → Option Int := fun
    | .word w => match readToken w with
      | some (.int i) => some i
      | some _ => none
      | none => row w
    | _ => none
  ⟨val, exTest (· == ·), fun l o r => exOther o (val l) (r.bind val)⟩

/-- The sender's idea of the same. -/
private def exSender (row : Str → Option Int) (al : Bool) : Interp (Option Int) :=
  let val : Val → Option Int := fun
    | .int i => some i
    | .column c => row (columnWord al c)
    | _ => none
  ⟨val, exTest (· == ·), fun l o r => exOther o (val l) (val r)⟩

private theorem exUnderstands (row : Str → Option Int) (al : Bool) : Understands al (exServer row) (exSender row al) := by
  have val : ∀ v t, UnambiguousVal al v → Says al v t → (exServer row).val t = (exSender row al).val v := by
    intro v t hu hs
    cases hs with
    | token _ w h =>
      rcases readToken_kinds h with rfl | ⟨_, rfl⟩ | ⟨_, rfl⟩ | ⟨_, rfl⟩ <;> simp [exServer, exSender, h]
    | column c =>
      have : readToken (columnWord al c) = none := by
        cases e : readToken (columnWord al c) with
        | none => rfl
        | some v => exact absurd e (hu _ .here v)
      simp [exServer, exSender, this]
    | aliased c a =>
      cases a with
      | none => exact absurd rfl (hu _ .here).1
      | some a => rfl
    | curried f n ik is pk ps a its pts =>
      rw [withArgs_present (hu _ .here).2.2.2.1]
      cases a <;> rfl
    | _ => rfl
  refine ⟨val, fun _ _ => rfl, ?_, ?_⟩
  · intro l o r tl ho hl sl
    have := val l tl hl sl
    show exOther o ((exServer row).val tl) none = exOther o ((exSender row al).val l) _
    rw [this]
    rcases ho with rfl | rfl <;> rfl
  · intro l o r tl tr h1 h2 h3 hl hr sl sr
    have e1 := val l tl hl sl
    have e2 := val r tr hr sr
    cases o <;> first
      | exact (h1 rfl).elim
      | exact (h2 rfl).elim
      | exact (h3 rfl).elim
      | rfl
      | (show exOther .lt ((exServer row).val tl) ((exServer row).val tr) = exOther .lt ((exSender row al).val l) ((exSender row al).val r)
         rw [e1, e2])

private theorem exRowCol_built : Built exRowCol := .column (.str c!"a") .none _ (.literal _ (.str _)) (.literal _ .none) rfl

private theorem exRowCol_readable : ReadableVal exRowCol := by
  refine readableVal_iff.2 ⟨⟨?_, ?_, .column _⟩, by simp [exRowCol, Val.children]⟩
  · intro e he; cases he
  · intro e a he; cases he

private theorem exRowCol_unambiguous : UnambiguousVal false exRowCol := by
  refine unambiguousVal_iff.2 ⟨?_, by simp [exRowCol, Val.children]⟩
  intro v
  have : readToken (columnWord false ⟨c!"a", none, none, none⟩) = none := by rfl
  rw [this]
  simp

private theorem exIs_built (n : Int) : Built (exIs n) :=
  .condition exRowCol (.op .eq) (.int n) _ exRowCol_built (.op _) (.literal _ (.int _)) rfl

private theorem exIs_readable (n : Int) : ReadableCondition (exIs n) :=
  .cond _ _ _ exRowCol_readable (readableVal_iff.2 ⟨⟨trivial, trivial, .literal _ (.int _)⟩, by simp [Val.children]⟩)

private theorem exIs_unambiguous (n : Int) : UnambiguousCondition false (exIs n) :=
  .cond _ _ _ exRowCol_unambiguous (unambiguousVal_iff.2 ⟨trivial, by simp [Val.children]⟩)

private theorem exOr_good : Built exOr ∧ ReadableCondition exOr ∧ UnambiguousCondition false exOr := by
  refine ⟨.or (.list [exIs 1, exIs 2]) _ (.list _ ?_) rfl, .group _ _ _ _ ?_, .group _ _ _ _ ?_⟩ <;>
    simp only [List.mem_cons, List.not_mem_nil, or_false, forall_eq_or_imp, forall_eq]
  · exact ⟨exIs_built 1, exIs_built 2⟩
  · exact ⟨exIs_readable 1, exIs_readable 2⟩
  · exact ⟨exIs_unambiguous 1, exIs_unambiguous 2⟩

private theorem exRows_readable : ReadableQuery exRows := by
  refine .base _ _ (.entity (.str c!"events") .none .none .none _ (.literal _ (.str _)) (.literal _ .none) (.literal _ .none) (.literal _ .none) rfl) ?_ fun f => ?_
  · intro a ha; cases ha
  cases f
  case select =>
    refine .expressions _ _ _ _ (.inl rfl) (.list _) ?_
    simp only [List.mem_singleton, forall_eq]
    exact ⟨exRowCol_built, exRowCol_readable⟩
  case where_ =>
    refine .conditions _ _ _ _ (.inl rfl) (.list _) ?_
    simp only [List.mem_singleton, forall_eq]
    exact ⟨exOr_good.1, exOr_good.2.1⟩
  all_goals exact .none _

private theorem exRows_unambiguous : UnambiguousQuery exRows := by
  refine .base false _ _ ⟨(fun h => by cases h), (by rintro ⟨_, _, h⟩; cases h)⟩ ?_
  constructor <;> intro k xs hs <;> cases hs <;> simp only [List.mem_singleton, forall_eq]
  · exact exRowCol_unambiguous
  · exact exOr_good.2.2

example := C76_query exRows c!"MATCH (events) SELECT a WHERE a IN array(1, 2)" exRows_readable exRows_unambiguous rfl
example := C76_request (exRequest (.snql exRows)) exRows _ rfl exRows_readable exRows_unambiguous rfl

/-- C76: the left-hand sides of the example are plain. -/
private theorem exSides (row : Str → Option Int) : EqualSidesAgree (exSender row false) [exOr] := by
  refine C76_equal_sides false (exServer row) _ (exUnderstands row false) _ (by simpa using exOr_good) ?_
  intro cls k cs l r hc hl
  simp only [List.mem_singleton, exOr, Val.boolCond.injEq] at hc
  obtain ⟨_, _, _, rfl⟩ := hc
  have : l = exRowCol := by
    simp only [List.mem_cons, exIs, Val.cond.injEq, List.not_mem_nil, or_false] at hl
    rcases hl with h | h <;> exact h.1
  subst this
  refine ⟨?_, ?_, ?_⟩ <;> intro x hx <;> rcases part_iff.1 hx with rfl | ⟨_, h, _⟩ <;> first | (cases h; done) | skip
  · refine ⟨nofun, ?_, nofun⟩
    intro f hf
    cases hf
  · nofun
  · exact not_unprintable nofun nofun nofun

/-- C76: the recipient of the example keeps a row in which `a` is 2, and drops one in which it is 3; of a row without `a` it does not
know. -/
example : ∃ qt, readQuery c!"MATCH (events) SELECT a WHERE a IN array(1, 2)" = some qt ∧ ∃ mt ct, qt = .base mt ct ∧
    (exServer fun _ => some 2).clause ct.where_ = some .yes ∧ (exServer fun _ => some 3).clause ct.where_ = some .no ∧
    (exServer fun _ => none).clause ct.where_ = some .unknown := by
  obtain ⟨qt, h1, h2⟩ := C76_query exRows c!"MATCH (events) SELECT a WHERE a IN array(1, 2)" exRows_readable exRows_unambiguous rfl
  refine ⟨qt, h1, ?_⟩
  cases h2 with
  | base j _ _ mt ct hj hw _ =>
    have : j = false := by
      cases j with
      | false => rfl
      | true => obtain ⟨_, _, h⟩ := hj.1 rfl; cases h
    subst this
    exact ⟨mt, ct, rfl, (hw _ _ (exUnderstands _ false)).2 _ _ (.list _) (exSides _), (hw _ _ (exUnderstands _ false)).2 _ _ (.list _) (exSides _),
      (hw _ _ (exUnderstands _ false)).2 _ _ (.list _) (exSides _)⟩

end Examples

end Verif
