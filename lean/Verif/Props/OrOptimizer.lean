import Verif.Lemmas.Examples
import Verif.Model.Printer
import Verif.Spec.Semantics

/-!
# C29, C30: the OR optimiser
-/

namespace Verif
open Spec

section
variable [U : PyUnicode]

omit U in
theorem collectRhs_iff {l : Val} (hl : l.truthy = true) : ∀ {rest rs : List Val},
    collectRhs l rest = some rs ↔
      Paired (fun x r => ∃ l', x = Val.cond l' .eq r ∧ pyEq l' l = true) rest rs
  | [], rs => by
    simp only [collectRhs, Option.some.injEq]
    constructor
    · rintro rfl; exact .nil
    · intro h; cases h; rfl
  | x :: rest, rs => by
    constructor
    · intro h
      unfold collectRhs at h
      split at h
      · rename_i he; cases he
      · rename_i l' o r rest' he
        cases he
        split at h
        · cases h
        · rename_i hc
          cases hr : collectRhs l rest with
          | none => simp [hr] at h
          | some rs' =>
            simp only [hr, Option.map_some, Option.some.injEq] at h
            subst h
            simp only [hl, Bool.true_and, Bool.or_eq_true, Bool.not_eq_true', not_or, decide_eq_true_eq,
              Bool.not_eq_false, Classical.not_not, ne_eq] at hc
            obtain ⟨rfl, hc⟩ := hc
            exact .cons _ _ _ _ ⟨l', rfl, hc⟩ ((collectRhs_iff hl).1 hr)
      · cases h
    · intro h
      cases h with
      | cons _ r _ rs' h1 h2 =>
        obtain ⟨l', rfl, hp⟩ := h1
        simp [collectRhs, hp, (collectRhs_iff hl).2 h2]

omit U in
theorem Spec.Paired.mem_right {α β : Type} {R : α → β → Prop} {as : List α} {bs : List β} (h : Paired R as bs) :
    ∀ b ∈ bs, ∃ a ∈ as, R a b := by
  induction h with
  | nil => simp
  | cons a b as bs hr _ ih =>
    simp only [List.mem_cons, forall_eq_or_imp]
    refine ⟨⟨a, .inl rfl, hr⟩, ?_⟩
    intro x hx
    obtain ⟨y, hy, h⟩ := ih x hx
    exact ⟨y, .inr hy, h⟩

theorem wf_cond_parts {l r : Val} {o : Op} (h : WF (.cond l o r)) : ColOrFn l ∧ (ColOrFn r ∨ Scalar r) := by
  cases h with
  | literal _ h => cases h
  | cond _ _ _ _ _ h1 _ h2 => exact ⟨h1, h2⟩

omit U in
theorem rhs_element {r : Val} (h : ColOrFn r ∨ Scalar r) : Element r := by
  rcases h with h | h | h
  · cases h <;> exact .expr _ (by constructor)
  · exact .literal _ h
  · cases h with
    | list _ h => exact .list _ h
    | tuple _ h => exact .tuple _ h

omit U in
theorem mkIn_ok {l : Val} {rs : List Val} (hl : ColOrFn l) (hr : ∀ r ∈ rs, Element r) :
    mkCondition l (.op .in_) (.list rs) = .ok (.cond l .in_ (.list rs)) := by
  have h1 : l.isColOrFn = true := by cases hl <;> rfl
  have h2 : isScalar (.list rs) = .ok true := isScalar_true_iff.2 (.inr (.list _ hr))
  have h3 : (Val.list rs).isColOrFn = false := rfl
  simp [mkCondition, checkCondition, h1, ensure, asOp, checkUnary, isUnary, checkRhs, h2, h3]

omit U in
theorem colOrFn_truthy {l : Val} (h : ColOrFn l) : l.truthy = true := by cases h <;> rfl

theorem wf_bool_items {cls o k cs} (h : WF (.boolCond cls o k cs)) : ∀ c ∈ cs, WF c := by
  cases h with
  | literal _ h => cases h
  | boolCond _ _ _ _ h => exact h

/-- What the optimiser does with one condition. -/
theorem optimizeCondition_spec {c : Val} (hw : WF c) :
    (∃ l rs, Mergeable c l rs ∧ ColOrFn l ∧ (∀ r ∈ rs, Element r) ∧
      optimizeCondition c = .ok (some (.cond l .in_ (.list rs)))) ∨
    ((¬ ∃ l rs, Mergeable c l rs) ∧ optimizeCondition c = .ok none) := by
  by_cases hor : ∃ cls k l r rest, c = .boolCond cls .or k (.cond l .eq r :: rest)
  · obtain ⟨cls, k, l, r, rest, rfl⟩ := hor
    have hit := wf_bool_items hw
    have hl := (wf_cond_parts (hit _ (List.mem_cons_self ..))).1
    have hr := (wf_cond_parts (hit _ (List.mem_cons_self ..))).2
    cases hc : collectRhs l rest with
    | none =>
      right
      refine ⟨?_, by simp [optimizeCondition, hc]⟩
      rintro ⟨l', rs, _, _, _, _, rs', he, _, hp⟩
      cases he
      rw [(collectRhs_iff (colOrFn_truthy hl)).2 hp] at hc
      cases hc
    | some rs =>
      left
      have hp := (collectRhs_iff (colOrFn_truthy hl)).1 hc
      have hes : ∀ x ∈ r :: rs, Element x := by
        simp only [List.mem_cons, forall_eq_or_imp]
        refine ⟨rhs_element hr, ?_⟩
        intro x hx
        obtain ⟨y, hy, l', rfl, _⟩ := hp.mem_right x hx
        exact rhs_element (wf_cond_parts (hit _ (List.mem_cons_of_mem _ hy))).2
      exact ⟨l, r :: rs, ⟨cls, k, r, rest, rs, rfl, rfl, hp⟩, hl, hes, by simp [optimizeCondition, hc, mkIn_ok hl hes]⟩
  · right
    constructor
    · rintro ⟨l, rs, cls, k, r, rest, rs', he, _⟩
      exact hor ⟨cls, k, l, r, rest, he⟩
    · unfold optimizeCondition
      split
      · rename_i cls k cs
        split
        · rename_i l r rest
          exact absurd ⟨cls, k, l, r, rest, rfl⟩ hor
        · rfl
      · rfl

/-- What the loop does. -/
theorem optimizeLoop_ok : ∀ {group : List Val}, (∀ c ∈ group, WF c) →
    ∃ new opt, optimizeLoop group = .ok (new, opt) ∧ Paired Rewritten group new ∧
      (opt = true ↔ ∃ c ∈ group, ∃ l rs, Mergeable c l rs) ∧
      (∀ c' ∈ new, c' ∈ group ∨ ∃ l rs, c' = .cond l .in_ (.list rs) ∧ ColOrFn l ∧ ∀ r ∈ rs, Element r)
  | [], _ => ⟨[], false, rfl, .nil, by simp, by simp⟩
  | c :: cs, h => by
    simp only [List.mem_cons, forall_eq_or_imp] at h
    obtain ⟨new, opt, h1, h2, h3, h4⟩ := optimizeLoop_ok h.2
    rcases optimizeCondition_spec h.1 with ⟨l, rs, hm, hl, hes, ho⟩ | ⟨hn, ho⟩
    · refine ⟨_ :: new, true, by simp [optimizeLoop, ho, h1], .cons _ _ _ _ (.inl ⟨l, rs, hm, rfl⟩) h2, ?_, ?_⟩
      · simp only [true_iff]; exact ⟨c, List.mem_cons_self .., l, rs, hm⟩
      · simp only [List.mem_cons, forall_eq_or_imp]
        refine ⟨.inr ⟨l, rs, rfl, hl, hes⟩, ?_⟩
        intro x hx
        rcases h4 x hx with h | h
        · exact .inl (.inr h)
        · exact .inr h
    · refine ⟨c :: new, opt, by simp [optimizeLoop, ho, h1], .cons _ _ _ _ (.inr ⟨hn, rfl⟩) h2, ?_, ?_⟩
      · rw [h3]; simp only [List.mem_cons, exists_eq_or_imp]
        exact ⟨.inr, fun h => h.resolve_left hn⟩
      · simp only [List.mem_cons, forall_eq_or_imp]
        refine ⟨.inl (.inl trivial), ?_⟩
        intro x hx
        rcases h4 x hx with h | h
        · exact .inl (.inr h)
        · exact .inr h

/-! ### C30 -/

/-- **C30** (never raises; when it returns None): on constructed conditions the optimiser does not raise, and
returns None exactly when no top-level condition is an OR of `=` conditions on one left-hand side. -/
theorem C30_total_and_none_iff (group : List Val) (hb : ∀ c ∈ group, Built c) :
    ∃ r, optimize group = .ok r ∧ (r = none ↔ ¬ ∃ c ∈ group, ∃ l rs, Mergeable c l rs) := by
  obtain ⟨new, opt, h1, h2, h3, _⟩ := optimizeLoop_ok fun c hc => built_wf (hb c hc)
  refine ⟨if opt then some new else none, by simp [optimize, h1], ?_⟩
  rw [← h3]
  cases opt <;> simp

theorem optimize_some {group new : List Val} (hb : ∀ c ∈ group, Built c) (h : optimize group = .ok (some new)) :
    Paired Rewritten group new ∧
      (∀ c' ∈ new, c' ∈ group ∨ ∃ l rs, c' = .cond l .in_ (.list rs) ∧ ColOrFn l ∧ ∀ r ∈ rs, Element r) := by
  obtain ⟨new', opt, h1, h2, h3, h4⟩ := optimizeLoop_ok fun c hc => built_wf (hb c hc)
  simp only [optimize, h1, ok_bind, Except.ok.injEq] at h
  cases opt <;> simp at h
  subst h
  exact ⟨h2, h4⟩

/-- **C30** (shape): the result has the same number of conditions in the same order; exactly the ORs of `=`
conditions on one left-hand side are replaced, each by one `IN` with the values in order. -/
theorem C30_shape (group new : List Val) (hb : ∀ c ∈ group, Built c) (h : optimize group = .ok (some new)) :
    Paired Rewritten group new := (optimize_some hb h).1

/-- **C30** (validity): every condition of the result validates (if those of the input do), and the replaced
ones are accepted by the constructor. -/
theorem C30_valid (group new : List Val) (hb : ∀ c ∈ group, Built c ∧ c.validate = .ok ())
    (h : optimize group = .ok (some new)) (c' : Val) (hc : c' ∈ new) :
    c'.validate = .ok () ∧ (c' ∈ group ∨ ∃ l rs, mkCondition l (.op .in_) (.list rs) = .ok c') := by
  rcases (optimize_some (fun c hc => (hb c hc).1) h).2 c' hc with hm | ⟨l, rs, rfl, hl, hes⟩
  · exact ⟨(hb _ hm).2, .inl hm⟩
  · have hk := mkIn_ok hl hes
    refine ⟨?_, .inr ⟨l, rs, hk⟩⟩
    simp only [mkCondition, bind_eq_ok] at hk
    obtain ⟨o, ho, _⟩ := hk
    simp [Val.validate, ho]

/-- **C30** (nothing left): the optimiser has nothing to do on its own output. -/
theorem C30_idempotent (group new : List Val) (hb : ∀ c ∈ group, Built c) (h : optimize group = .ok (some new)) :
    optimize new = .ok none := by
  have hp := (optimize_some hb h).1
  have key : ∀ {group new : List Val}, (∀ c ∈ group, Built c) → Paired Rewritten group new →
      optimizeLoop new = .ok (new, false) := by
    intro group new hb hp
    induction hp with
    | nil => rfl
    | cons c c' cs cs' h1 _ ih =>
      simp only [List.mem_cons, forall_eq_or_imp] at hb
      have i := ih hb.2
      have ho : optimizeCondition c' = .ok none := by
        rcases h1 with ⟨l, rs, _, rfl⟩ | ⟨hn, rfl⟩
        · rfl
        · rcases optimizeCondition_spec (built_wf hb.1) with ⟨l, rs, hm, _⟩ | ⟨_, ho⟩
          · exact absurd ⟨l, rs, hm⟩ hn
          · exact ho
      simp [optimizeLoop, ho, i]
  simp [optimize, key hb hp]

/-! ### C29 -/

omit U in
theorem evalAny_merged {D : Type} (I : Interp D) {l : Val} {rest rs : List Val}
    (hp : Paired (fun x r => ∃ l', x = Val.cond l' .eq r ∧ pyEq l' l = true) rest rs)
    (ha : ∀ l' r', Val.cond l' .eq r' ∈ rest → pyEq l' l = true → I.val l' = I.val l) :
    I.evalAny rest = Tri.any (rs.map fun r => I.eq (I.val l) (I.val r)) := by
  induction hp with
  | nil => simp [Interp.evalAny, Tri.any]
  | cons x r rest rs h _ ih =>
    obtain ⟨l', rfl, hp⟩ := h
    have hv := ha l' r (List.mem_cons_self ..) hp
    simp only [Interp.evalAny, Interp.eval, Interp.atom, List.map_cons, Tri.any, hv]
    rw [ih fun l'' r'' hm hq => ha l'' r'' (List.mem_cons_of_mem _ hm) hq]

omit U in
theorem rewritten_eval {D : Type} (I : Interp D) {c c' : Val} (h : Rewritten c c') (ha : EqualSidesAgree I [c]) :
    I.eval c' = I.eval c := by
  rcases h with ⟨l, rs, ⟨cls, k, r, rest, rs', rfl, rfl, hp⟩, rfl⟩ | ⟨_, rfl⟩
  · rw [Interp.eval, Interp.eval, Interp.atom, Interp.evalAny, Interp.eval, Interp.atom]
    rw [evalAny_merged I hp fun l' r' hm hq =>
      ha cls k _ l r l' r' (List.mem_singleton.2 rfl) (List.mem_cons_self ..) (List.mem_cons_of_mem _ hm) hq]
    rfl
  · rfl

omit U in
theorem paired_evalAll {D : Type} (I : Interp D) {group new : List Val} (h : Paired Rewritten group new)
    (ha : EqualSidesAgree I group) : I.evalAll new = I.evalAll group := by
  induction h with
  | nil => rfl
  | cons c c' cs cs' h1 _ ih =>
    rw [Interp.evalAll, Interp.evalAll, ih fun cls k cs l r l' r' hm => ha cls k cs l r l' r' (List.mem_cons_of_mem _ hm),
      rewritten_eval I h1 fun cls k cs l r l' r' hm => by
        rw [List.mem_singleton] at hm
        exact ha cls k cs l r l' r' (hm ▸ List.mem_cons_self ..)]

/-- **C29**: on every row and under every interpretation in which equal left-hand sides denote the same value, the
optimised list has the same three-valued truth value as the original. -/
theorem C29_same_meaning {D : Type} (I : Interp D) (group new : List Val) (hb : ∀ c ∈ group, Built c)
    (h : optimize group = .ok (some new)) (ha : EqualSidesAgree I group) :
    I.evalAll new = I.evalAll group := paired_evalAll I (C30_shape group new hb h) ha

/-- **C29** (columns): if the left-hand sides in the ORs are columns, it suffices that the value of a column depends
only on its name and the alias of its entity. -/
theorem C29_columns_same_meaning {D : Type} (I : Interp D) (group new : List Val) (hb : ∀ c ∈ group, Built c)
    (h : optimize group = .ok (some new))
    (hcol : ∀ cls k cs l r, Val.boolCond cls .or k cs ∈ group → Val.cond l .eq r ∈ cs → ∃ c, l = .column c)
    (hval : ∀ c c' : ColumnObj, c.name = c'.name → c.entity.map (·.alias) = c'.entity.map (·.alias) →
      I.val (.column c) = I.val (.column c')) :
    I.evalAll new = I.evalAll group := by
  apply C29_same_meaning I group new hb h
  intro cls k cs l r l' r' h1 h2 h3 hp
  obtain ⟨c, rfl⟩ := hcol cls k cs l r h1 h2
  obtain ⟨c', rfl⟩ := hcol cls k cs l' r' h1 h3
  simp only [pyEq, ColumnObj.pyEq, Bool.and_eq_true, beq_iff_eq] at hp
  refine hval _ _ hp.1.1.1 ?_
  have he := hp.1.1.2
  cases h1 : c'.entity <;> cases h2 : c.entity <;> simp [h1, h2, optEq, EntityObj.pyEq] at he ⊢
  exact he.1.1.2

/-- **C29** (queries): the query that is printed differs from the given one at most in its WHERE list, which has the
same meaning. -/
theorem C29_query_same_meaning {D : Type} (I : Interp D) (q q' : Query) (k : SeqKind) (xs : List Val)
    (hw : SeqOf q.body.where_ k xs) (hb : ∀ c ∈ xs, Built c) (ha : EqualSidesAgree I xs)
    (h : q.optimize = .ok q') :
    matchOf q' = matchOf q ∧ (∀ f : Field, f ≠ .where_ → f.get q'.body = f.get q.body) ∧
    ∃ k' ys, SeqOf q'.body.where_ k' ys ∧ I.evalAll ys = I.evalAll xs := by
  have e : q.optimize = (do
      let o ← Verif.optimize xs
      match o with
      | some new => q.withBody { q.body with where_ := .list new }
      | none => .ok q) := by
    unfold Query.optimize
    cases hq : q.body.where_ <;> rw [hq] at hw <;> cases hw <;> rfl
  rw [e, bind_eq_ok] at h
  obtain ⟨o, ho, h⟩ := h
  cases o with
  | none =>
    cases h
    exact ⟨rfl, fun _ _ => rfl, k, xs, hw, rfl⟩
  | some new =>
    have hq : q'.body = { q.body with where_ := .list new } ∧ matchOf q' = matchOf q := by
      cases q with
      | base m b =>
        simp only [Query.withBody, mkQuery] at h
        split at h <;> cases h
        exact ⟨rfl, rfl⟩
      | nested i b =>
        simp only [Query.withBody, mkNested] at h
        split at h <;> cases h
        exact ⟨rfl, rfl⟩
    refine ⟨hq.2, ?_, .list, new, ?_, C29_same_meaning I xs new hb ho ha⟩
    · intro f hf; rw [hq.1]; cases f <;> first | rfl | exact absurd rfl hf
    · rw [hq.1]; exact .list _

end

/-! ### Concrete cases -/

section Examples
open Ex

/-- `Or([a = 1, a = 2])` and `b = 3`. -/
def Ex.orGroup : List Val :=
  [.boolCond .or .or .list [.cond (col c!"a") .eq (.int 1), .cond (col c!"a") .eq (.int 2)],
   .cond (col c!"b") .eq (.int 3)]

theorem Ex.cond_built (n : Str) (v : Int) (hc : mkColumn (.str n) .none = .ok (col n)) :
    Built (.cond (col n) .eq (.int v)) :=
  .condition _ (.op .eq) (.int v) _ (col_built n hc) (.op _) (.literal _ (.int _)) rfl

theorem Ex.orGroup_built : ∀ c ∈ orGroup, Built c := by
  intro c hc
  simp only [orGroup, List.mem_cons, List.not_mem_nil, or_false] at hc
  rcases hc with rfl | rfl
  · refine .or (.list [.cond (col c!"a") .eq (.int 1), .cond (col c!"a") .eq (.int 2)]) _ (.list _ ?_) rfl
    intro x hx
    simp only [List.mem_cons, List.not_mem_nil, or_false] at hx
    rcases hx with rfl | rfl <;> exact cond_built _ _ rfl
  · exact cond_built _ _ rfl

/-- C29/C30: that group meets the hypotheses and becomes `a IN [1, 2]`, `b = 3`. -/
example : (∀ c ∈ orGroup, Built c ∧ c.validate = .ok ()) ∧
    optimize orGroup = .ok (some [.cond (col c!"a") .in_ (.list [.int 1, .int 2]), .cond (col c!"b") .eq (.int 3)]) := by
  refine ⟨fun c hc => ⟨orGroup_built c hc, ?_⟩, rfl⟩
  simp only [orGroup, List.mem_cons, List.not_mem_nil, or_false] at hc
  rcases hc with rfl | rfl <;> rfl

/-- C29: its left-hand sides agree under every interpretation. -/
example {D : Type} (I : Interp D) : EqualSidesAgree I orGroup := by
  intro cls k cs l r l' r' h1 h2 h3 _
  simp only [orGroup, List.mem_cons, Val.boolCond.injEq, reduceCtorEq, List.not_mem_nil, or_false] at h1
  obtain ⟨_, _, _, rfl⟩ := h1
  simp only [List.mem_cons, Val.cond.injEq, List.not_mem_nil, or_false] at h2 h3
  rcases h2 with ⟨rfl, _⟩ | ⟨rfl, _⟩ <;> rcases h3 with ⟨rfl, _⟩ | ⟨rfl, _⟩ <;> rfl

/-- `toString(1) = 'x' OR toString(True) = 'true'`. -/
def Ex.boolVsInt : List Val :=
  let f (p : Val) : Val := .curried true c!"toString" .absent [] .list [p] none
  [.boolCond .or .or .list [.cond (f (.int 1)) .eq (.str c!"x"), .cond (f (.bool true)) .eq (.str c!"true")]]

/-- **C29**: the proviso is needed. Python's `1 == True` makes the optimiser merge conditions on different
functions: `toString(1) = 'x' OR toString(True) = 'true'` (true for the obvious meaning of `toString`) becomes
`toString(1) IN ['x', 'true']`, which is false. -/
theorem C29_proviso_needed : ∃ (I : Interp Val) (group new : List Val), optimize group = .ok (some new) ∧
    I.evalAll group = .yes ∧ I.evalAll new = .no := by
  let I : Interp Val := ⟨fun v => match v with
      | .curried _ _ _ _ _ [.bool true] _ => .str c!"true"
      | .curried _ _ _ _ _ [.int 1] _ => .str c!"1"
      | v => v,
    fun a b => match a, b with
      | .str s, .str t => if s = t then .yes else .no
      | _, _ => .unknown, fun _ _ _ => .unknown⟩
  exact ⟨I, boolVsInt, _, rfl, rfl, rfl⟩

end Examples

end Verif
