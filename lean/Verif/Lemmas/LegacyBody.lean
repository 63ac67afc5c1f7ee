import Verif.Lemmas.Legacy
import Verif.Props.Setters

/-!
# Lemmas: conversion of whole legacy bodies
-/

namespace Verif

open Spec

variable [U : PyUnicode] [D : PyDecimal]

omit U D in
theorem asList_iff {v w : Val} : tupleAsList v = w ↔ AsList v w := by
  constructor
  · rintro rfl
    unfold tupleAsList
    split
    · exact .tuple
    · rename_i h; exact .other h
  · rintro (_ | h)
    · rfl
    · unfold tupleAsList
      split
      · exact absurd rfl (h _)
      · rfl

theorem aggregates_iff : ∀ {vs xs : List Val}, parseAggregations vs = .ok xs ↔ Aggregates vs xs
  | [], xs => ⟨fun h => by cases h; exact .nil, fun h => by cases h; rfl⟩
  | v :: vs, xs => by
    simp only [parseAggregations, bind_eq_ok, itemsOf_iff, converts_iff, aggregates_iff (vs := vs)]
    constructor
    · rintro ⟨items, h1, x, h2, xs', h3, h4⟩; cases h4; exact .cons h1 h2 h3
    · intro h
      cases h with
      | cons h1 h2 h3 => exact ⟨_, h1, _, h2, _, h3, rfl⟩

theorem convertsItems_iff : ∀ {vs xs : List Val}, parseExps (vs.map tupleAsList) = .ok xs ↔ ConvertsItems vs xs
  | [], xs => ⟨fun h => by cases h; exact .nil, fun h => by cases h; rfl⟩
  | v :: vs, xs => by
    simp only [List.map_cons, parseExps, bind_eq_ok, converts_iff, convertsItems_iff (vs := vs)]
    constructor
    · rintro ⟨x, h2, xs', h3, h4⟩; cases h4; exact .cons (asList_iff.1 rfl) h2 h3
    · intro h
      cases h with
      | cons h1 h2 h3 => rw [asList_iff.2 h1]; exact ⟨_, h2, _, h3, rfl⟩

theorem selectOf_iff {b : LegacyBody} {xs : List Val} : legacySelect b = .ok xs ↔ SelectOf b xs := by
  simp only [legacySelect, bind_eq_ok, itemsAt_iff, aggregates_iff, convertsItems_iff]
  constructor
  · rintro ⟨as, h1, xs', h2, ss, h3, ys, h4, h5⟩; cases h5; exact .mk h1 h2 h3 h4
  · rintro ⟨h1, h2, h3, h4⟩; exact ⟨_, h1, _, h2, _, h3, _, h4, rfl⟩

omit U D in
theorem wrapList_other {v : Val} (h : ∀ gs, v ≠ .list gs) : wrapList v = if v.truthy then .list [v] else v := by
  unfold wrapList
  split
  · exact absurd rfl (h _)
  · rfl

theorem convertsItems_single {v x : Val} : ConvertsItems [v] [x] ↔ ∃ w, AsList v w ∧ Converts w x := by
  constructor
  · intro h
    cases h with
    | cons h1 h2 h3 => exact ⟨_, h1, h2⟩
  · rintro ⟨w, h1, h2⟩; exact .cons h1 h2 .nil

theorem groupbyOf_iff {b : LegacyBody} {xs : List Val} : legacyGroupby b = .ok xs ↔ GroupbyOf b xs := by
  simp only [legacyGroupby, bind_eq_ok, convertsItems_iff, itemsOf_iff]
  constructor
  · rintro ⟨gs, h1, h2⟩
    rcases getD_cases b c!"groupby" (.list []) with h | ⟨h, e⟩
    · by_cases hl : ∃ gs, b.getD c!"groupby" (.list []) = .list gs
      · obtain ⟨gs', hl⟩ := hl
        rw [hl] at h h1
        cases h1
        exact .list h h2
      · have hl : ∀ gs, b.getD c!"groupby" (.list []) ≠ .list gs := fun gs h => hl ⟨gs, h⟩
        rw [wrapList_other hl] at h1
        split at h1
        · rename_i ht
          cases h1
          cases h2 with
          | cons h3 h4 h5 => cases h5; exact .single h hl (truthy_true_iff.1 ht) h3 h4
        · rename_i ht
          have ht := truthy_false_iff.1 (Bool.not_eq_true _ ▸ ht)
          have : gs = [] := by
            generalize b.getD c!"groupby" (.list []) = v at *
            cases ht <;> cases h1 <;> rfl
          subst this
          cases h2
          exact .empty h hl h1
    · rw [e] at h1
      cases h1; cases h2
      exact .missing h
  · intro h
    cases h with
    | missing h => rw [has_not_getD h]; exact ⟨[], .list, .nil⟩
    | list h1 h2 => rw [has_getD h1]; exact ⟨_, .list, h2⟩
    | single h1 h2 h3 h4 h5 =>
      rw [has_getD h1, wrapList_other h2, if_pos (truthy_true_iff.2 h3)]
      exact ⟨_, .list, .cons h4 h5 .nil⟩
    | empty h1 h2 h3 =>
      rw [has_getD h1, wrapList_other h2, if_neg]
      · exact ⟨_, h3, .nil⟩
      · rw [truthy_true_iff, Classical.not_not]
        generalize hx : ([] : List Val) = xs at h3
        cases h3
        · exact absurd rfl (h2 _)
        · subst hx; exact .tuple
        · rename_i s; cases s with
          | nil => exact .str
          | cons => cases hx
        · rename_i bs; cases bs with
          | nil => exact .bytes
          | cons => cases hx

theorem havingEntry_iff {v : Val} {cs : List Val} : legacyEntry havingGroup v = .ok cs ↔ ∃ c, HavingEntry v c ∧ cs = [c] := by
  simp only [legacyEntry, bind_eq_ok, itemsOf_iff]
  constructor
  · rintro ⟨xs, h1, h2⟩
    split at h2
    · rename_i hs
      obtain ⟨c, hc, rfl⟩ := map_list_ok.1 h2
      exact ⟨c, .condition h1 (conditionShape_iff.1 hs) (conditionOf_iff.1 hc), rfl⟩
    · rename_i hs
      have hs : ¬ ConditionShape xs := fun h => hs (conditionShape_iff.2 h)
      simp only [bind_eq_ok, havingGroup, map_list_ok] at h2
      obtain ⟨ds, h2, c, hm, rfl⟩ := h2
      rw [mkOr, mkBool_ok_iff] at hm
      obtain ⟨k, ys, hy, hlen, _, rfl⟩ := hm
      cases hy
      exact ⟨_, .group h1 hs (groupOf_iff.1 h2) hlen, rfl⟩
  · rintro ⟨c, h, rfl⟩
    cases h with
    | condition h1 h2 h3 =>
      refine ⟨_, h1, ?_⟩
      rw [if_pos (conditionShape_iff.2 h2), conditionOf_iff.2 h3]; rfl
    | @group xs ds h1 h2 h3 h4 =>
      refine ⟨_, h1, ?_⟩
      rw [if_neg (fun h => h2 (conditionShape_iff.1 h)), groupOf_iff.2 h3]
      have hm : mkOr (.list ds) = .ok (.boolCond .or .or .list ds) :=
        (mkBool_ok_iff ..).2 ⟨.list, ds, .list _, h4, groupOf_cond h3, rfl⟩
      simp only [ok_bind, havingGroup]
      rw [hm]; rfl

theorem havingEntries_iff : ∀ {vs cs : List Val}, legacyEntries havingGroup vs = .ok cs ↔ HavingEntries vs cs
  | [], cs => ⟨fun h => by cases h; exact .nil, fun h => by cases h; rfl⟩
  | v :: vs, cs => by
    simp only [legacyEntries, bind_eq_ok, havingEntry_iff, havingEntries_iff (vs := vs)]
    constructor
    · rintro ⟨_, ⟨c, h1, rfl⟩, cs', h3, h4⟩; cases h4; exact .cons h1 h3
    · intro h
      cases h with
      | cons h1 h3 => exact ⟨_, ⟨_, h1, rfl⟩, _, h3, rfl⟩

/-! ### The ordering -/

omit U D in
theorem startsWith_dash {s : Str} : startsWith s c!"-" = true ↔ ∃ r, s = '-' :: r := by
  cases s with
  | nil => simp [startsWith]
  | cons c s =>
    simp only [startsWith, List.isPrefixOf_cons_cons, List.isPrefixOf_nil_left, Bool.and_true, beq_iff_eq]
    exact ⟨fun h => ⟨s, by rw [h]⟩, fun ⟨r, h⟩ => by cases h; rfl⟩

omit U D in
theorem dashed_iff {s t : Str} : (startsWith s c!"-" = true ∧ lstripP (· == '-') s = t) ↔ Dashed s t := by
  rw [startsWith_dash]
  constructor
  · rintro ⟨⟨r, rfl⟩, rfl⟩
    obtain ⟨a, h1, h2, h3⟩ := dropWhile_split (· == '-') r
    refine ⟨a.length, ?_, ?_⟩
    · have ha : a = List.replicate a.length '-' := List.eq_replicate_iff.2 ⟨rfl, fun c hc => by simpa using h2 c hc⟩
      simp only [lstripP, List.dropWhile_cons, beq_self_eq_true, if_true, List.replicate_succ, List.cons_append, List.cons.injEq, true_and]
      rw [← ha]; exact h1
    · intro q hq
      simp only [lstripP, List.dropWhile_cons, beq_self_eq_true, if_true] at hq
      simpa using h3 _ _ hq
  · rintro ⟨n, rfl, h⟩
    refine ⟨⟨List.replicate n '-' ++ t, by simp [List.replicate_succ]⟩, ?_⟩
    refine dropWhile_all ?_ ?_
    · intro c hc; simp [List.eq_of_mem_replicate hc]
    · intro c r hr
      simp only [beq_eq_false_iff_ne]
      rintro rfl; exact h r hr

omit U D in
theorem map_pair_ok {x : Except Err Val} {d : Direction} {p : Val × Direction} :
    x.map (fun q => (q, d)) = .ok p ↔ x = .ok p.1 ∧ p.2 = d := by
  obtain ⟨q, d'⟩ := p
  cases x with
  | error e => exact ⟨fun h => (by cases h), fun ⟨h, _⟩ => (by cases h)⟩
  | ok c => exact ⟨fun h => by cases h; exact ⟨rfl, rfl⟩, fun ⟨h, h'⟩ => by cases h; cases h'; rfl⟩

theorem orderStep_iff {part : Option Val} {v x : Val} {d : Direction} : (orderStep part v).1 = .ok (x, d) ↔
    OrderItem v x d ∨ ((∀ s, v ≠ .str s) ∧ (∀ ys, v ≠ .list ys) ∧ part = some x ∧ d = .asc) := by
  have dash : ∀ {xs : List Val}, (∀ s rest, xs = .str s :: rest → ¬ startsWith s c!"-" = true) → ¬ DashedList (.list xs) := by
    intro xs h hd
    cases hd with
    | mk => exact h _ _ rfl (startsWith_dash.2 ⟨_, rfl⟩)
  unfold orderStep
  split
  · simp only [reduceCtorEq, false_iff, not_or, not_and]
    refine ⟨?_, ?_⟩
    · intro h
      cases h with
      | listAsc _ h => rw [← converts_iff] at h; cases h
    · intro _ h; exact absurd rfl (h [])
  · rename_i s rest
    split
    · rename_i hs
      simp only [map_pair_ok, converts_iff]
      constructor
      · rintro ⟨h, rfl⟩; exact .inl (.listDesc (dashed_iff.1 ⟨hs, rfl⟩) h)
      · rintro (h | ⟨_, h, _⟩)
        · cases h with
          | listAsc h => obtain ⟨r, rfl⟩ := startsWith_dash.1 hs; exact absurd (by constructor) h
          | listDesc h1 h2 => rw [(dashed_iff.2 h1).2]; exact ⟨h2, rfl⟩
        · exact absurd rfl (h _)
    · rename_i hs
      simp only [map_pair_ok, converts_iff]
      constructor
      · rintro ⟨h, rfl⟩
        refine .inl (.listAsc (dash ?_) h)
        intro s' rest' e; cases e; exact hs
      · rintro (h | ⟨_, h, _⟩)
        · cases h with
          | listAsc h1 h2 => exact ⟨h2, rfl⟩
          | listDesc h1 h2 => exact absurd (dashed_iff.2 h1).1 hs
        · exact absurd rfl (h _)
  · rename_i xs h1 h2
    simp only [map_pair_ok, converts_iff]
    constructor
    · rintro ⟨h, rfl⟩
      refine .inl (.listAsc (dash ?_) h)
      rintro s' rest' rfl; exact absurd rfl (h2 _ _)
    · rintro (h | ⟨_, h, _⟩)
      · cases h with
        | listAsc h1 h2 => exact ⟨h2, rfl⟩
        | listDesc => exact absurd rfl (h2 _ _)
      · exact absurd rfl (h _)
  · rename_i s
    split
    · rename_i hs
      simp only [map_pair_ok, converts_iff]
      constructor
      · rintro ⟨h, rfl⟩; exact .inl (.desc (dashed_iff.1 ⟨hs, rfl⟩) h)
      · rintro (h | ⟨h, _⟩)
        · cases h with
          | asc h => obtain ⟨r, rfl⟩ := startsWith_dash.1 hs; exact absurd rfl (h _)
          | desc h1 h2 => rw [(dashed_iff.2 h1).2]; exact ⟨h2, rfl⟩
        · exact absurd rfl (h _)
    · rename_i hs
      simp only [map_pair_ok, converts_iff]
      constructor
      · rintro ⟨h, rfl⟩
        refine .inl (.asc ?_ h)
        rintro r rfl; exact hs (startsWith_dash.2 ⟨_, rfl⟩)
      · rintro (h | ⟨h, _⟩)
        · cases h with
          | asc h1 h2 => exact ⟨h2, rfl⟩
          | desc h1 h2 => exact absurd (dashed_iff.2 h1).1 hs
        · exact absurd rfl (h _)
  · rename_i h1 h2 h3 h4
    have hs : ∀ s, v ≠ .str s := h4
    have hl : ∀ ys, v ≠ .list ys := h3
    cases part with
    | none =>
      simp only [reduceCtorEq, false_and, and_false, or_false, false_iff]
      intro h
      cases h with
      | asc | desc => exact absurd rfl (hs _)
      | listAsc | listDesc => exact absurd rfl (hl _)
    | some p =>
      constructor
      · intro h; cases h; exact .inr ⟨hs, hl, rfl, rfl⟩
      · rintro (h | ⟨_, _, h, rfl⟩)
        · cases h with
          | asc | desc => exact absurd rfl (hs _)
          | listAsc | listDesc => exact absurd rfl (hl _)
        · cases h; rfl

omit U D in
theorem mkOrderBy_iff {x y : Val} {d : Direction} : mkOrderBy x (.direction d) = .ok y ↔ ColOrFn x ∧ y = .orderby x d := by
  simp only [mkOrderBy, bind_eq_ok, ensure_eq_ok, isColOrFn_iff]
  exact ⟨fun ⟨_, h1, h2⟩ => by cases h2; exact ⟨h1, rfl⟩, fun ⟨h1, h2⟩ => ⟨(), h1, by rw [h2]⟩⟩

theorem orderLoop_iff : ∀ {os : List Val} {part : Option Val} {xs : List Val}, (orderLoop part os).1 = .ok xs ↔ OrderItems part os xs
  | [], part, xs => ⟨fun h => by cases h; exact .nil, fun h => by cases h; rfl⟩
  | o :: os, part, xs => by
    have key : (orderLoop part (o :: os)).1 = .ok xs ↔ ∃ x d ys, (orderStep part o).1 = .ok (x, d) ∧ ColOrFn x ∧
        (orderLoop (some x) os).1 = .ok ys ∧ xs = .orderby x d :: ys := by
      simp only [orderLoop]
      split
      · rename_i e o' h
        simp only [h, reduceCtorEq, false_and, exists_false]
      · rename_i p d o' h
        split
        · rename_i e hm
          simp only [h, reduceCtorEq, Except.ok.injEq, Prod.mk.injEq, false_iff]
          rintro ⟨x, d', ys, ⟨rfl, rfl⟩, hc, _⟩
          rw [mkOrderBy_iff.2 ⟨hc, rfl⟩] at hm; cases hm
        · rename_i y hm
          obtain ⟨hc, rfl⟩ := mkOrderBy_iff.1 hm
          simp only [h, Except.ok.injEq, Prod.mk.injEq]
          constructor
          · intro hl
            cases ho : (orderLoop (some p) os).1 with
            | error e => rw [ho] at hl; cases hl
            | ok ys => rw [ho] at hl; cases hl; exact ⟨p, d, ys, ⟨rfl, rfl⟩, hc, ho, rfl⟩
          · rintro ⟨x, d', ys, ⟨rfl, rfl⟩, _, ho, rfl⟩
            rw [ho]; rfl
    rw [key]
    simp only [orderStep_iff, orderLoop_iff (os := os)]
    constructor
    · rintro ⟨x, d, ys, h1 | ⟨h1, h2, rfl, rfl⟩, h3, h4, rfl⟩
      · exact .cons h1 h3 h4
      · exact .again h1 h2 h3 h4
    · intro h
      cases h with
      | cons h1 h2 h3 => exact ⟨_, _, _, .inl h1, h2, h3, rfl⟩
      | again h1 h2 h3 h4 => exact ⟨_, _, _, .inr ⟨h1, h2, rfl, rfl⟩, h3, h4, rfl⟩

theorem legacyOrder_iff {v : Val} {xs : List Val} (ht : ¬ Falsy v) : (legacyOrder v).1 = .ok xs ↔ OrderOf v (.list xs) := by
  unfold legacyOrder
  split
  · rename_i os
    simp only [orderLoop_iff]
    constructor
    · intro h
      exact .list (by rintro rfl; exact ht .list) h
    · intro h
      cases h with
      | list _ h => exact h
      | single _ h => exact absurd rfl (h os)
  · rename_i h
    simp only [orderLoop_iff]
    constructor
    · intro h'; exact .single ht h h'
    · intro h'
      cases h' with
      | list => exact absurd rfl (h _)
      | single _ _ h => exact h

/-! ### The query -/

omit U D in
theorem roundRat_not_nan (neg : Bool) (n d : Nat) : roundRat neg n d ≠ .nan := by
  unfold roundRat mkDbl
  split
  · intro h; cases h
  · dsimp only
    split <;> (intro h; cases h)

omit U D in
theorem ratio_pos (d : Dbl) : 0 < d.ratio.2 := by
  unfold Dbl.ratio scale2
  split
  · exact Nat.one_pos
  · exact Nat.mul_pos Nat.one_pos (Nat.two_pow_pos _)

theorem conditionOf_cond {xs : List Val} {c : Val} (h : ConditionOf xs c) : Cond c := by
  cases h with
  | mk _ _ _ h => cases h; constructor

theorem whereEntries_cond {vs cs : List Val} (h : WhereEntries vs cs) : ∀ c ∈ cs, Cond c := by
  induction h with
  | nil => intro c hc; cases hc
  | cons h _ ih =>
    intro c hc
    rcases List.mem_append.1 hc with hc | hc
    · cases h with
      | condition _ _ h => cases List.mem_singleton.1 hc; exact conditionOf_cond h
      | group => cases List.mem_singleton.1 hc; constructor
      | single _ _ h => exact groupOf_cond h c hc
      | empty => cases hc
    · exact ih c hc

theorem whereOf_cond {b : LegacyBody} {e : Str} {cs : List Val} (h : WhereOf b e cs) : ∀ c ∈ cs, Cond c := by
  have bound : ∀ {col : Str} {o : Op} {v : Val} {xs : List Val}, BoundOf col o v xs → ∀ c ∈ xs, Cond c := by
    intro col o v xs h c hc
    cases h with
    | absent => cases hc
    | date => cases List.mem_singleton.1 hc; constructor
  cases h with
  | mk _ h1 h2 _ h3 _ h4 =>
    intro c hc
    simp only [List.mem_append] at hc
    rcases hc with ((hc | hc) | hc) | hc
    · cases h1 with
      | absent | other => cases hc
      | one | many => cases List.mem_singleton.1 hc; constructor
    · cases h2 with
      | none => cases hc
      | both _ _ h1 _ h2 =>
        rcases List.mem_append.1 hc with hc | hc
        · exact bound h1 c hc
        · exact bound h2 c hc
    · cases h3 with
      | absent | other => cases hc
      | one | many => cases List.mem_singleton.1 hc; constructor
    · exact whereEntries_cond h4 c hc

theorem havingEntries_cond {vs cs : List Val} (h : HavingEntries vs cs) : ∀ c ∈ cs, Cond c := by
  induction h with
  | nil => intro c hc; cases hc
  | cons h _ ih =>
    intro c hc
    rcases List.mem_cons.1 hc with rfl | hc
    · cases h with
      | condition _ _ h => exact conditionOf_cond h
      | group => constructor
    · exact ih c hc

omit U D in
theorem floatOf_iff [N : PyNumberText] {v : Val} {f : PyFloat} : toFloat v = .ok f ↔ FloatOf v f := by
  have conv : ∀ {i : Int}, intToFloat i = .ok f ↔ ∃ d, roundRat (decide (i < 0)) i.natAbs 1 = .fin d ∧ f = .fin d := by
    intro i
    unfold intToFloat
    split
    · rename_i h; rw [h]; simp
    · rename_i f' h
      constructor
      · intro e
        cases e
        cases hf : roundRat (decide (i < 0)) i.natAbs 1 with
        | fin d => exact ⟨d, rfl, rfl⟩
        | inf b => exact absurd hf (h b)
        | nan => exact absurd hf (roundRat_not_nan _ _ _)
      · rintro ⟨d, h1, rfl⟩; rw [h1]
  constructor
  · intro h
    unfold toFloat at h
    split at h
    · cases h; exact .float
    · obtain ⟨d, h1, rfl⟩ := conv.1 h; exact .int (.int _) h1
    · rename_i b
      obtain ⟨d, h1, rfl⟩ := conv.1 h
      exact .int (n := .bool b) (.bool _) (by cases b <;> exact h1)
    · split at h <;> cases h
      exact .str (by assumption)
    · split at h <;> cases h
      exact .bytes (by assumption)
    · cases h
  · intro h
    cases h with
    | float => rfl
    | int h1 h2 =>
      cases h1 with
      | int i => exact conv.2 ⟨_, h2, rfl⟩
      | bool b => cases b <;> exact conv.2 ⟨_, h2, rfl⟩
    | str h => simp only [toFloat, h]
    | bytes h => simp only [toFloat, h]

omit U D in
theorem trunc_iff {d : Dbl} {i : Int} : d.trunc = i ↔ ∃ a : Nat, a * d.ratio.2 ≤ d.ratio.1 ∧ d.ratio.1 < (a + 1) * d.ratio.2 ∧
    i = (if d.neg then -(a : Int) else a) := by
  have hp : 0 < d.ratio.2 := ratio_pos d
  constructor
  · rintro rfl
    exact ⟨d.ratio.1 / d.ratio.2, Nat.div_mul_le_self _ _, by rw [Nat.mul_comm]; exact Nat.lt_mul_div_succ _ hp, rfl⟩
  · rintro ⟨a, h1, h2, rfl⟩
    have : d.ratio.1 / d.ratio.2 = a := by
      apply Nat.le_antisymm
      · exact Nat.le_of_lt_succ ((Nat.div_lt_iff_lt_mul hp).2 h2)
      · exact (Nat.le_div_iff_mul_le hp).2 h1
    simp only [Dbl.trunc, this]

omit U D in
theorem intOf_iff [N : PyNumberText] {v : Val} {i : Int} : toInt v = .ok i ↔ IntOf v i := by
  constructor
  · intro h
    unfold toInt at h
    split at h
    · cases h; exact .int (n := .int _) (.int _)
    · rename_i b; cases h; exact .int (n := .bool b) (.bool b)
    · cases h
      obtain ⟨a, h1, h2, h3⟩ := trunc_iff.1 rfl
      rw [h3]; exact .float h1 h2
    · cases h
    · cases h
    · split at h <;> cases h
      exact .str (by assumption)
    · split at h <;> cases h
      exact .bytes (by assumption)
    · cases h
  · intro h
    cases h with
    | int h1 => cases h1 <;> rfl
    | float h1 h2 => exact congrArg Except.ok (trunc_iff.2 ⟨_, h1, h2, rfl⟩)
    | str h => simp only [toInt, h]
    | bytes h => simp only [toInt, h]

omit U D in
theorem notBelow_iff {f : PyFloat} : f.leZero = false ↔ NotBelow f := by
  constructor
  · intro h
    cases f with
    | fin d =>
      simp only [PyFloat.leZero, Bool.or_eq_false_iff, beq_eq_false_iff_ne] at h
      exact .fin h.1 h.2
    | inf b => cases b <;> first | exact .inf | cases h
    | nan => exact .nan
  · intro h
    cases h with
    | fin h1 h2 => simp [PyFloat.leZero, h1, h2]
    | inf => rfl
    | nan => rfl

omit U D in
/-- The entity of the query. -/
theorem legacyEntity_iff [N : PyNumberText] {v e : Val} {n : Str} :
    (∃ s, legacySample v = .ok s ∧ mkEntity (.str n) .none s .none = .ok e) ↔
      OptNewline EntityName n ∧ ∃ s, SampleOf v s ∧ e = .entity ⟨n, none, s, none⟩ := by
  have hs : ∀ {s : Option PyFloat}, (∃ w, legacySample v = .ok w ∧ checkSample w .invalidEntity = .ok s) ↔ SampleOf v s := by
    intro s
    by_cases hv : v = .none
    · subst hv
      constructor
      · rintro ⟨w, h1, h2⟩; cases h1; cases h2; exact .absent
      · intro h
        cases h with
        | absent => exact ⟨_, rfl, rfl⟩
        | rate h => exact absurd (floatOf_iff.2 h) (by intro h; cases h)
    · have hl : legacySample v = (toFloat v).map .float := by cases v <;> first | exact absurd rfl hv | rfl
      rw [hl]
      constructor
      · rintro ⟨w, h1, h2⟩
        cases hf : toFloat v with
        | error e => rw [hf] at h1; cases h1
        | ok f =>
          rw [hf] at h1; cases h1
          simp only [checkSample] at h2
          split at h2 <;> cases h2
          rename_i hz
          exact .rate (floatOf_iff.1 hf) (notBelow_iff.1 (by simpa using hz))
      · intro h
        cases h with
        | absent => exact absurd rfl hv
        | rate h1 h2 =>
          refine ⟨.float _, by rw [floatOf_iff.2 h1]; rfl, ?_⟩
          simp only [checkSample, notBelow_iff.2 h2]; rfl
  simp only [mkEntity, asStr, checkEntityAlias, checkDataModel, bind_eq_ok, ensure_eq_ok, entityNameRe_iff]
  constructor
  · rintro ⟨w, h1, n', hn, _, hnm, s, h2, al, hal, dm, hdm, he⟩
    cases hn; cases hal; cases hdm; cases he
    exact ⟨hnm, s, hs.1 ⟨w, h1, h2⟩, rfl⟩
  · rintro ⟨hnm, s, h, rfl⟩
    obtain ⟨w, h1, h2⟩ := hs.2 h
    exact ⟨w, h1, n, rfl, (), hnm, s, h2, none, rfl, none, rfl, rfl⟩

omit D in
/-- Setters on a query over an entity. -/
theorem set_base_iff {f : Field} {e : EntityObj} {b : Body} {v : Val} {q : Query} :
    setField f (.base (.entity e) b) v = .ok q ↔ ∃ x, Accepts f v x ∧ q = .base (.entity e) (putField f b x) := by
  rw [setField_eq]
  simp only [bind_eq_ok, storedValue_iff, Query.withBody, mkQuery, Val.isMatch, if_true, Except.ok.injEq, Query.body, eq_comm (b := q)]

omit D in
theorem arrayJoin_iff {e : EntityObj} {b : Body} {v : Val} {q : Query} (h0 : b.arrayJoin = .none) :
    legacyArrayJoin (.base (.entity e) b) v = .ok q ↔ ∃ x, ArrayJoinOf v x ∧ q = .base (.entity e) { b with arrayJoin := x } := by
  have hb : { b with arrayJoin := .none } = b := by rw [← h0]
  unfold legacyArrayJoin
  split
  · rename_i ht
    have ht := truthy_true_iff.1 ht
    simp only [bind_eq_ok]
    constructor
    · rintro ⟨c, h1, h2⟩
      have h3 := h1
      simp only [mkColumn, bind_eq_ok] at h3
      obtain ⟨s, hs, _⟩ := h3
      have : v = .str s := by cases v <;> simp [asStr] at hs; rw [hs]
      subst this
      obtain ⟨c', hc, rfl⟩ := columnFor_iff.1 h1
      obtain ⟨x, hx, rfl⟩ := (set_base_iff (f := .arrayJoin)).1 h2
      generalize hw : Val.list [.column c'] = w at hx
      cases hx with
      | arrayJoin cs _ =>
        rw [← hw]
        exact ⟨_, .column (by rintro rfl; exact ht .str) hc, rfl⟩
    · rintro ⟨x, hx, rfl⟩
      cases hx with
      | absent h => exact absurd h ht
      | column hs hc =>
        exact ⟨_, columnFor_iff.2 ⟨_, hc, rfl⟩, (set_base_iff (f := .arrayJoin)).2 ⟨_, .arrayJoin [_] (by simp), rfl⟩⟩
  · rename_i ht
    have ht := truthy_false_iff.1 (Bool.not_eq_true _ ▸ ht)
    constructor
    · intro h; cases h; exact ⟨.none, .absent ht, by rw [hb]⟩
    · rintro ⟨x, hx, rfl⟩
      cases hx with
      | absent => rw [hb]
      | column hs hc => cases ht; exact absurd rfl hs

omit D in
theorem limitby_iff [N : PyNumberText] {e : EntityObj} {b : Body} {v : Val} {q : Query} (h0 : b.limitby = .none) :
    legacyLimitby (.base (.entity e) b) v = .ok q ↔ ∃ x, LimitByOf v x ∧ q = .base (.entity e) { b with limitby := x } := by
  have hb : { b with limitby := .none } = b := by rw [← h0]
  unfold legacyLimitby
  split
  · rename_i ht
    have ht := truthy_true_iff.1 ht
    simp only [bind_eq_ok]
    constructor
    · rintro ⟨⟨limit, name⟩, h1, c, h2, n, h3, l, h4, h5⟩
      have h6 := h2
      simp only [mkColumn, bind_eq_ok] at h6
      obtain ⟨s, hs, _⟩ := h6
      have : name = .str s := by cases name <;> simp [asStr] at hs; rw [hs]
      subst this
      obtain ⟨c', hc, rfl⟩ := columnFor_iff.1 h2
      simp only [unpackTwo, bind_eq_ok, itemsOf_iff] at h1
      obtain ⟨xs, h1, h1'⟩ := h1
      split at h1' <;> cases h1'
      obtain ⟨k, cs, i, hk, _, hi, lo, hi', rfl⟩ := (C07_limitby_accepts_iff _ _ _).1 h4
      generalize hw : Val.list [.column c'] = w at hk
      generalize hys : cs.map Val.column = ys at hk
      cases hk
      · cases hw
        cases cs with
        | nil => cases hys
        | cons c0 cs =>
          cases cs with
          | cons => simp at hys
          | nil =>
            simp only [List.map_cons, List.map_nil, List.cons.injEq, Val.column.injEq, and_true] at hys
            subst hys
            cases hi
            obtain ⟨x, hx, rfl⟩ := (set_base_iff (f := .limitby) (v := .limitby .list [c0] (.int n))).1 h5
            cases hx
            exact ⟨_, .pair ht h1 hc (intOf_iff.1 h3) lo hi', rfl⟩
      · cases hw
    · rintro ⟨x, hx, rfl⟩
      cases hx with
      | absent h => exact absurd h ht
      | @pair limit s c n _ h1 hc h3 lo hi =>
        exact ⟨(limit, .str s), by simp only [unpackTwo, itemsOf_iff.2 h1, ok_bind], .column c, columnFor_iff.2 ⟨c, hc, rfl⟩, n, intOf_iff.2 h3, _,
          (C07_limitby_accepts_iff _ _ _).2 ⟨.list, [c], .int n, .list _, by simp, .int n, lo, hi, rfl⟩,
          (set_base_iff (f := .limitby) (v := .limitby .list [c] (.int n))).2 ⟨_, .limitby _ _ _, rfl⟩⟩
  · rename_i ht
    have ht := truthy_false_iff.1 (Bool.not_eq_true _ ▸ ht)
    constructor
    · intro h; cases h; exact ⟨.none, .absent ht, by rw [hb]⟩
    · rintro ⟨x, hx, rfl⟩
      cases hx with
      | absent => rw [hb]
      | pair h => exact absurd ht h

omit D in
theorem extra_iff {f : Field} {e : EntityObj} {b : Body} {v : Val} {q : Query} (h0 : f.get b = .none) :
    legacyExtra (setField f) (.base (.entity e) b) v = .ok q ↔ ∃ x, OptionalClause f v x ∧ q = .base (.entity e) (putField f b x) := by
  have hb : putField f b .none = b := by rw [← h0]; cases f <;> rfl
  unfold legacyExtra
  split
  · constructor
    · intro h; cases h; exact ⟨.none, .inl ⟨rfl, rfl⟩, by rw [hb]⟩
    · rintro ⟨x, ⟨_, rfl⟩ | ⟨h, _⟩, rfl⟩
      · rw [hb]
      · exact absurd rfl h
  · rename_i hv
    rw [set_base_iff]
    constructor
    · rintro ⟨x, hx, rfl⟩; exact ⟨x, .inr ⟨hv, hx⟩, rfl⟩
    · rintro ⟨x, ⟨rfl, _⟩ | ⟨_, hx⟩, rfl⟩
      · exact absurd rfl hv
      · exact ⟨x, hx, rfl⟩

theorem jsonToSnql_ok [N : PyNumberText] {b b' : LegacyBody} {e : Str} {req : RequestObj} (h : jsonToSnql b e = (.ok req, b')) :
    ∃ q q', legacyStart b e = .ok q ∧ legacyFinish b e q' = .ok req ∧
      ((Falsy (b.get c!"orderby") ∧ q' = q ∧ b' = b) ∨
       (¬ Falsy (b.get c!"orderby") ∧ (∃ obs, (legacyOrder (b.get c!"orderby")).1 = .ok obs ∧ q.setOrderby (.list obs) = .ok q') ∧
         b' = { b with entries := updateEntry c!"orderby" (legacyOrder (b.get c!"orderby")).2 b.entries })) := by
  unfold jsonToSnql at h
  split at h
  · cases h
  · rename_i q hq
    split at h
    · rename_i ht
      have ht := truthy_true_iff.1 ht
      simp only [Prod.mk.injEq] at h
      obtain ⟨h1, h2⟩ := h
      cases ho : (legacyOrder (b.get c!"orderby")).1 with
      | error e => rw [ho] at h1; cases h1
      | ok obs =>
        rw [ho] at h1
        cases hs : q.setOrderby (.list obs) with
        | error e => simp only [Except.bind, hs] at h1; cases h1
        | ok q' =>
          simp only [Except.bind, hs] at h1
          exact ⟨q, q', hq, h1, .inr ⟨ht, ⟨obs, rfl, hs⟩, h2.symm⟩⟩
    · rename_i ht
      have ht := truthy_false_iff.1 (Bool.not_eq_true _ ▸ ht)
      simp only [Prod.mk.injEq] at h
      exact ⟨q, q, hq, h.1, .inl ⟨ht, rfl, h.2.symm⟩⟩

/-- The query before its `ORDER BY` clause. -/
theorem legacyStart_iff [N : PyNumberText] {b : LegacyBody} {e : Str} {q : Query} : legacyStart b e = .ok q ↔
    OptNewline EntityName e ∧ ∃ s, SampleOf (b.get c!"sample") s ∧ ∃ sel, (SelectOf b sel ∧ sel ≠ [] ∧ ∀ x ∈ sel, Selectable x) ∧
    ∃ aj, ArrayJoinOf (b.get c!"arrayjoin") aj ∧ ∃ gs, (GroupbyOf b gs ∧ ∀ x ∈ gs, Selectable x) ∧ ∃ ws, WhereOf b e ws ∧
    ∃ hs, (∃ vs, ItemsAt b c!"having" vs ∧ HavingEntries vs hs) ∧
    q = .base (.entity ⟨e, none, s, none⟩)
      { select := .list sel, arrayJoin := aj, groupby := .list gs, where_ := .list ws, having := .list hs } := by
  have hset : ∀ {f : Field} {en : EntityObj} {c : Body} {v x : Val}, Accepts f v x →
      setField f (.base (.entity en) c) v = .ok (.base (.entity en) (putField f c x)) := fun h => set_base_iff.2 ⟨_, h, rfl⟩
  constructor
  · intro h
    simp only [legacyStart, bind_eq_ok, selectOf_iff, groupbyOf_iff, whereOf_iff] at h
    obtain ⟨smp, hsm, en, hen, q0, h0, sel, hsel, q1, h1, q2, h2, gs, hgs, q3, h3, ws, hws, q4, h4, hs, hhs, h5⟩ := h
    obtain ⟨hn, s, hs', rfl⟩ := legacyEntity_iff.1 ⟨smp, hsm, hen⟩
    cases h0
    obtain ⟨aj, haj, rfl⟩ := (arrayJoin_iff rfl).1 h1
    obtain ⟨x, hx, rfl⟩ := (set_base_iff (f := .select)).1 h2
    cases hx with | select _ n2 n3 =>
    obtain ⟨x, hx, rfl⟩ := (set_base_iff (f := .groupby)).1 h3
    cases hx with | groupby _ n4 =>
    obtain ⟨x, hx, rfl⟩ := (set_base_iff (f := .where_)).1 h4
    cases hx with | where_ _ n5 =>
    obtain ⟨x, hx, rfl⟩ := (set_base_iff (f := .having)).1 h5
    cases hx with | having _ n6 =>
    simp only [legacyHaving, bind_eq_ok, itemsAt_iff, havingEntries_iff] at hhs
    exact ⟨hn, s, hs', sel, ⟨hsel, n2, n3⟩, aj, haj, gs, ⟨hgs, n4⟩, ws, hws, hs, hhs, rfl⟩
  · rintro ⟨hn, s, hs', sel, ⟨hsel, n2, n3⟩, aj, haj, gs, ⟨hgs, n4⟩, ws, hws, hs, hhs, rfl⟩
    obtain ⟨smp, hsm, hen⟩ := legacyEntity_iff.2 ⟨hn, s, hs', rfl⟩
    have h5 : legacyHaving b = .ok hs := by simp only [legacyHaving, bind_eq_ok, itemsAt_iff, havingEntries_iff]; exact hhs
    have n5 : ∀ x ∈ ws, Cond x := whereOf_cond hws
    have n6 : ∀ x ∈ hs, Cond x := havingEntries_cond hhs.choose_spec.2
    simp only [legacyStart, bind_eq_ok]
    exact ⟨smp, hsm, _, hen, _, rfl, sel, selectOf_iff.2 hsel, _, (arrayJoin_iff rfl).2 ⟨aj, haj, rfl⟩, _, hset (f := .select) (.select _ n2 n3),
      gs, groupbyOf_iff.2 hgs, _, hset (f := .groupby) (.groupby _ n4), ws, whereOf_iff.2 hws, _, hset (f := .where_) (.where_ _ n5),
      hs, h5, hset (f := .having) (.having _ n6)⟩

theorem orderItems_ordering {p : Option Val} {vs xs : List Val} (h : OrderItems p vs xs) : ∀ x ∈ xs, Ordering x := by
  induction h with
  | nil => intro x hx; cases hx
  | cons _ _ _ ih =>
    intro x hx
    rcases List.mem_cons.1 hx with rfl | hx
    · constructor
    · exact ih x hx
  | again _ _ _ _ ih =>
    intro x hx
    rcases List.mem_cons.1 hx with rfl | hx
    · constructor
    · exact ih x hx

/-- The `ORDER BY` clause of the query. -/
theorem legacyOrder_step [N : PyNumberText] {b : LegacyBody} {e : Str} {en : EntityObj} {c : Body} (h0 : c.orderby = .none) {req : RequestObj}
    (hs : legacyStart b e = .ok (.base (.entity en) c)) :
    (∃ b', jsonToSnql b e = (.ok req, b')) ↔
      ∃ x, OrderOf (b.get c!"orderby") x ∧ legacyFinish b e (.base (.entity en) { c with orderby := x }) = .ok req := by
  have hc : { c with orderby := .none } = c := by rw [← h0]
  constructor
  · rintro ⟨b', h⟩
    obtain ⟨q, q', h1, h2, h3⟩ := jsonToSnql_ok h
    rw [hs] at h1; cases h1
    rcases h3 with ⟨hf, rfl, _⟩ | ⟨hf, ⟨obs, ho, hs'⟩, _⟩
    · exact ⟨.none, .absent hf, by rw [hc]; exact h2⟩
    · obtain ⟨x, hx, rfl⟩ := (set_base_iff (f := .orderby)).1 hs'
      cases hx
      exact ⟨_, (legacyOrder_iff hf).1 ho, h2⟩
  · rintro ⟨x, hx, h2⟩
    by_cases hf : Falsy (b.get c!"orderby")
    · have hx : x = .none := by
        generalize b.get c!"orderby" = w at *
        cases hx with
        | absent => rfl
        | list h => cases hf; exact absurd rfl h
        | single h => exact absurd hf h
      subst hx
      rw [hc] at h2
      refine ⟨b, ?_⟩
      simp only [jsonToSnql, hs, truthy_false_iff.2 hf, h2]
      rfl
    · have key : ∀ {xs : List Val}, OrderOf (b.get c!"orderby") (.list xs) → ∀ y ∈ xs, Ordering y := by
        intro xs h
        generalize b.get c!"orderby" = w at *
        cases h with
        | list _ h => exact orderItems_ordering h
        | single _ _ h => exact orderItems_ordering h
      obtain ⟨xs, rfl⟩ : ∃ xs, x = .list xs := by
        generalize b.get c!"orderby" = w at *
        cases hx with
        | absent h => exact absurd h hf
        | list => exact ⟨_, rfl⟩
        | single => exact ⟨_, rfl⟩
      have ho := (legacyOrder_iff hf).2 hx
      have hset : Query.setOrderby (.base (.entity en) c) (.list xs) = .ok (.base (.entity en) { c with orderby := .list xs }) :=
        (set_base_iff (f := .orderby)).2 ⟨_, .orderby xs (key hx), rfl⟩
      refine ⟨(jsonToSnql b e).2, Prod.ext ?_ rfl⟩
      simp only [jsonToSnql, hs, truthy_true_iff.2 hf, if_true, ho, Except.bind, hset, h2]

omit U D in
theorem inPlaceOf_iff {v d x : Val} : (if v.truthy then v else d) = x ↔ InPlaceOf v d x := by
  by_cases h : Falsy v
  · simp [InPlaceOf, h, truthy_false_iff.2 h, eq_comm]
  · simp [InPlaceOf, h, truthy_true_iff.2 h, eq_comm]

omit U D in
theorem legacyTenants_iff {d x : Data} : legacyTenants d = x ↔
    (EmptyData d ∧ x = .dict [(c!"legacy", .val (.str c!"legacy"))]) ∨ (¬ EmptyData d ∧ x = d) := by
  unfold legacyTenants
  split
  · rename_i v
    by_cases h : Falsy v
    · have : EmptyData (.val v) := .val h
      simp [this, truthy_false_iff.2 h, eq_comm]
    · have : ¬ EmptyData (.val v) := by rintro ⟨⟩; contradiction
      simp [this, truthy_true_iff.2 h, eq_comm]
  · simp [EmptyData.list, eq_comm]
  · simp [EmptyData.dict, eq_comm]
  · rename_i h1 h2 h3
    have : ¬ EmptyData d := by
      rintro (_ | _ | _)
      · exact h1 _ rfl
      · exact h2 rfl
      · exact h3 rfl
    simp [this, eq_comm]

/-- The whole conversion. -/
theorem requestOf_iff [N : PyNumberText] {b : LegacyBody} {e : Str} {req : RequestObj} :
    (∃ b', jsonToSnql b e = (.ok req, b')) ↔ RequestOf b e req := by
  constructor
  · rintro ⟨b', h⟩
    obtain ⟨q, _, h1, _, _⟩ := jsonToSnql_ok h
    obtain ⟨hn, s, hs, sel, hsel, aj, haj, gs, hgs, ws, hws, hs', ⟨vs, hvs, hhv⟩, rfl⟩ := legacyStart_iff.1 h1
    obtain ⟨ob, hob, hfin⟩ := (legacyOrder_step rfl h1).1 ⟨b', h⟩
    simp only [legacyFinish, legacyExtras, bind_eq_ok] at hfin
    obtain ⟨q3, h4, q7, ⟨q4, h5, q5, h6, q6, h7, h8⟩, h9⟩ := hfin
    obtain ⟨lb, hlb, rfl⟩ := (limitby_iff rfl).1 h4
    obtain ⟨li, hli, rfl⟩ := (extra_iff (f := .limit) rfl).1 h5
    obtain ⟨off, hoff, rfl⟩ := (extra_iff (f := .offset) rfl).1 h6
    obtain ⟨gr, hgr, rfl⟩ := (extra_iff (f := .granularity) rfl).1 h7
    obtain ⟨to, hto, rfl⟩ := (extra_iff (f := .totals) rfl).1 h8
    cases h9
    exact {
      name := hn
      query := ⟨_, s, _, valueAt_iff.1 rfl, hs, rfl,
        { select := ⟨sel, rfl, hsel⟩, groupby := ⟨gs, rfl, hgs⟩, arrayJoin := ⟨_, valueAt_iff.1 rfl, haj⟩, where_ := ⟨ws, rfl, hws⟩,
          having := ⟨vs, hs', hvs, rfl, hhv⟩, orderby := ⟨_, valueAt_iff.1 rfl, hob⟩, limitby := ⟨_, valueAt_iff.1 rfl, hlb⟩,
          limit := ⟨_, valueAt_iff.1 rfl, hli⟩, offset := ⟨_, valueAt_iff.1 rfl, hoff⟩, granularity := ⟨_, valueAt_iff.1 rfl, hgr⟩,
          totals := ⟨_, valueAt_iff.1 rfl, hto⟩ }⟩
      dataset := ⟨_, _, valueAt_iff.1 rfl, inPlaceOf_iff.1 rfl, rfl⟩
      appId := ⟨_, _, valueAt_iff.1 rfl, inPlaceOf_iff.1 rfl, rfl⟩
      flags := ⟨_, rfl, rfl, rfl, ⟨_, valueAt_iff.1 rfl, inPlaceOf_iff.1 rfl⟩, ⟨_, valueAt_iff.1 rfl, inPlaceOf_iff.1 rfl⟩,
        ⟨_, valueAt_iff.1 rfl, inPlaceOf_iff.1 rfl⟩, ⟨_, valueAt_iff.1 rfl, inPlaceOf_iff.1 rfl⟩⟩
      tenants := legacyTenants_iff.1 rfl
      parentApi := rfl }
  · rintro ⟨hn, ⟨v, s, c, hv, hs, hq, fb⟩, ⟨dv, dx, hdv, hdx, hd⟩, ⟨av, ax, hav, hax, ha⟩,
      ⟨f, hf, hfl, hft, ⟨v1, hv1, hf1⟩, ⟨v2, hv2, hf2⟩, ⟨v3, hv3, hf3⟩, ⟨v4, hv4, hf4⟩⟩, hten, hpar⟩
    obtain ⟨⟨sel, hsel, hsel'⟩, ⟨gs, hgs, hgs'⟩, ⟨ajv, hajv, haj⟩, ⟨ws, hws, hws'⟩, ⟨vs, hs', hvs, hhv, hhv'⟩, ⟨ov, hov, hob⟩,
      ⟨lbv, hlbv, hlb⟩, ⟨lv, hlv, hli⟩, ⟨ofv, hofv, hof⟩, ⟨gv, hgv, hgr⟩, ⟨tv, htv, hto⟩⟩ := fb
    rw [← valueAt_iff] at hv hdv hav hv1 hv2 hv3 hv4 hajv hov hlbv hlv hofv hgv htv
    subst hv hdv hav hv1 hv2 hv3 hv4 hajv hov hlbv hlv hofv hgv htv
    have h1 := legacyStart_iff.2 ⟨hn, s, hs, sel, hsel', _, haj, gs, hgs', ws, hws', hs', ⟨vs, hvs, hhv'⟩, rfl⟩
    rw [legacyOrder_step rfl h1]
    refine ⟨_, hob, ?_⟩
    simp only [legacyFinish, legacyExtras, bind_eq_ok]
    refine ⟨_, (limitby_iff rfl).2 ⟨_, hlb, rfl⟩, _, ⟨_, (extra_iff (f := .limit) rfl).2 ⟨_, hli, rfl⟩, _, (extra_iff (f := .offset) rfl).2 ⟨_, hof, rfl⟩,
      _, (extra_iff (f := .granularity) rfl).2 ⟨_, hgr, rfl⟩, (extra_iff (f := .totals) rfl).2 ⟨_, hto, rfl⟩⟩, ?_⟩
    have e1 := inPlaceOf_iff.2 hdx
    have e2 := inPlaceOf_iff.2 hax
    have e3 := inPlaceOf_iff.2 hf1
    have e4 := inPlaceOf_iff.2 hf2
    have e5 := inPlaceOf_iff.2 hf3
    have e6 := inPlaceOf_iff.2 hf4
    have e7 := legacyTenants_iff.2 hten
    obtain ⟨rds, rap, rq, rfl', rpa, rte⟩ := req
    obtain ⟨c1, c2, c3, c4, c5, c6, c7, c8, c9, c10, c11⟩ := c
    obtain ⟨f1, f2, f3, f4, f5, f6⟩ := f
    simp only at *
    subst hsel hgs hws hhv hd ha hf hfl hft hq hpar
    simp only [legacyRequest, legacyFlags, foundFlag, orElse, e1, e2, e3, e4, e5, e6, e7, putField]

end Verif
