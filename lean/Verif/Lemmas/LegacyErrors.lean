import Verif.Lemmas.LegacyBody
import Verif.Props.Errors
import Verif.Spec.LegacyErrors

/-!
# Lemmas: how the conversion of a legacy body fails
-/

namespace Verif
open Spec

/-- A computation that fails with exceptions of one kind only. -/
def FailsBy (P : Err → Prop) {α : Type} (x : Except Err α) : Prop := ∀ e, x = .error e → P e

theorem FailsBy.ok {P : Err → Prop} {α : Type} {a : α} : FailsBy P (.ok a : Except Err α) := nofun

theorem FailsBy.bind {P : Err → Prop} {α β : Type} {x : Except Err α} {f : α → Except Err β} (h : FailsBy P x)
    (hf : ∀ a, x = .ok a → FailsBy P (f a)) : FailsBy P (x >>= f) := by
  intro e he
  rcases bind_eq_error.1 he with h' | ⟨a, h1, h2⟩
  · exact h e h'
  · exact hf a h1 e h2

theorem FailsBy.bind' {P : Err → Prop} {α β : Type} {x : Except Err α} {f : α → Except Err β} (h : FailsBy P x)
    (hf : ∀ a, x = .ok a → FailsBy P (f a)) : FailsBy P (x.bind f) := FailsBy.bind h hf

theorem FailsBy.map {P : Err → Prop} {α β : Type} {x : Except Err α} {f : α → β} (h : FailsBy P x) : FailsBy P (x.map f) := by
  intro e he
  cases x with
  | ok a => cases he
  | error e' => cases he; exact h _ rfl

theorem failsBy_of_ok {P : Err → Prop} {α : Type} {x : Except Err α} (h : ∃ a, x = .ok a) : FailsBy P x := by
  obtain ⟨a, rfl⟩ := h; exact .ok

section
variable [U : PyUnicode] [D : PyDecimal]

omit U D in
theorem announced_expression : Announced .invalidExpression := by simp [Announced]
omit U D in
theorem announced_column : Announced .invalidColumn := by simp [Announced]
omit U D in
theorem announced_function : Announced .invalidFunction := by simp [Announced]
omit U D in
theorem announced_condition : Announced .invalidCondition := by simp [Announced]
omit U D in
theorem announced_query : Announced .invalidQuery := by simp [Announced]

omit D in
theorem mkColumn_announced {n x : Val} : FailsBy Announced (mkColumn n x) := by
  intro e h
  rw [(C59_expressions e).2.2.2.2.2.2.2.1 _ _ h]; exact announced_column

omit D in
theorem mkFunction_announced {f p a : Val} : FailsBy Announced (mkFunction f p a) := by
  intro e h
  rcases (C59_functions f .none p a e).2.2.1 h with rfl | rfl
  · exact announced_function
  · exact announced_expression

omit U D in
theorem mkCondition_announced {l o r : Val} : FailsBy Announced (mkCondition l o r) := by
  intro e h
  rcases (C59_conditions l o r e).1 h with rfl | rfl
  · exact announced_condition
  · exact announced_expression

omit D in
theorem parseExpText_announced {s : Str} : FailsBy Announced (parseExpText s) := by
  unfold parseExpText
  split
  · exact .ok
  · split
    · exact .ok
    · exact mkColumn_announced

omit U D in
theorem legacyAlias_ok {rest : List Val} (h : AliasShape rest) : ∃ a, legacyAlias rest = .ok a := by
  cases h with
  | none => exact ⟨_, rfl⟩
  | falsy h =>
    simp only [legacyAlias, stripAlias, truthy_false_iff.2 h]
    exact ⟨_, rfl⟩
  | text =>
    simp only [legacyAlias, stripAlias, textMethod, ok_bind]
    split <;> exact ⟨_, rfl⟩

omit U in
theorem conditionParts_announced {lhs : Except Err Val} {op : Val} {o : Op} {rest : List Val} (hl : FailsBy Announced lhs) (ho : OpFor op o)
    (hr : op = .str Op.isNull.value ∨ op = .str Op.isNotNull.value ∨ rest ≠ []) : FailsBy Announced (conditionParts lhs op rest) := by
  refine hl.bind fun l _ => .bind ?_ fun r _ => .bind ?_ fun _ _ => .ok
  · unfold conditionRhs
    split
    · exact .ok
    · rename_i hn
      cases rest with
      | nil =>
        rcases hr with h | h | h
        · exact absurd (isNullText_iff.2 (.inl h)) hn
        · exact absurd (isNullText_iff.2 (.inr h)) hn
        · exact absurd rfl h
      | cons => exact .ok
  · exact failsBy_of_ok ⟨o, opOf_iff.2 ho⟩

omit U D in
theorem opFunction_ok {o : Op} (h : o ≠ .not) : ∃ f, opFunction o = .ok f := by
  cases o <;> first | exact absurd rfl h | exact ⟨_, rfl⟩

omit D in
theorem legacyCall_announced {f : Str} {args alias : Val} {children : Except Err Val} (hc : FailsBy Announced children) :
    FailsBy Announced (legacyCall (.str f) args alias children) := by
  refine .bind .ok fun _ _ => ?_
  split
  · exact mkFunction_announced
  · split
    · exact mkFunction_announced
    · exact hc.bind fun _ _ => mkFunction_announced

theorem parseExps_announced : ∀ {ys : List Val}, (∀ y ∈ ys, FailsBy Announced (parseExp y)) → FailsBy Announced (parseExps ys)
  | [], _ => by rw [parseExps]; exact .ok
  | y :: ys, h => by
    rw [parseExps]
    exact (h y (by simp)).bind fun _ _ => (parseExps_announced fun y hy => h y (by simp [hy])).bind fun _ _ => .ok

theorem parseExp_announced_aux : ∀ (n : Nat) (v : Val), sizeOf v ≤ n → ExpShape v → FailsBy Announced (parseExp v)
  | 0, v, hn, _ => by cases v <;> simp at hn
  | n + 1, v, hn, h => by
    cases h with
    | text => rw [parseExp]; exact parseExpText_announced
    | scalar h1 h2 =>
      cases v <;> first
        | (exact absurd rfl (h1 _); done)
        | (exact absurd rfl (h2 _); done)
        | (rw [parseExp] <;> first | exact .ok | nofun)
    | @condition a c o hc ho ha =>
      have iha := parseExp_announced_aux n a (by simp at hn; omega) ha
      rw [parseExp]
      · simp only [legacyList, conditionShape_iff.2 hc, if_true]
        refine (conditionParts_announced iha .text (.inr (.inr (by simp)))).bind fun x hx => ?_
        obtain ⟨l, o', r⟩ := x
        refine .bind (failsBy_of_ok ?_) fun _ _ => mkFunction_announced
        simp only [conditionParts_iff] at hx
        have : o' = o := by
          have h2 := hx.2.1
          have := opOf_iff.2 h2
          rw [opOf_iff.2 (OpFor.text (o := o))] at this
          cases this; rfl
        rw [this]
        exact opFunction_ok ho
      · nofun
    | @call f args rest hc hal harg =>
      obtain ⟨al, hal⟩ := legacyAlias_ok hal
      have hc' : isLegacyCondition (.str f :: args :: rest) = false := by
        rw [← Bool.not_eq_true]; exact fun h => hc (conditionShape_iff.1 h)
      by_cases hl : ∃ ys, args = .list ys
      · obtain ⟨ys, rfl⟩ := hl
        rw [parseExp]
        simp only [legacyList, hc', hal, ok_bind]
        refine legacyCall_announced (FailsBy.map (parseExps_announced fun y hy => ?_))
        have hs : sizeOf y ≤ n := by
          have := List.sizeOf_lt_of_mem hy
          simp at hn; omega
        cases harg with
        | none h => cases h; cases hy
        | list h => exact parseExp_announced_aux n y hs (h y hy)
        | one _ h => exact absurd rfl (h _)
      · have hl : ∀ ys, args ≠ .list ys := fun ys h => hl ⟨ys, h⟩
        rw [parseExp]
        · simp only [legacyList, hc', hal, ok_bind]
          refine legacyCall_announced ?_
          split
          · rename_i ht
            refine FailsBy.map (parseExp_announced_aux n args (by simp at hn; omega) ?_)
            cases harg with
            | none h => exact absurd h (truthy_true_iff.1 ht)
            | list h => exact absurd rfl (hl _)
            | one h _ => exact h
          · exact .ok
        · exact hl

theorem parseExp_announced {v : Val} (h : ExpShape v) : FailsBy Announced (parseExp v) := parseExp_announced_aux _ v (Nat.le_refl _) h

/-! ### Conditions -/

theorem parseConditionItems_announced {xs : List Val} (h : ConditionItems xs) : FailsBy Announced (parseConditionItems xs) := by
  cases h with
  | mk ha ho hr => exact (conditionParts_announced (parseExp_announced ha) ho hr).bind fun _ _ => mkCondition_announced

theorem parseConditions_announced : ∀ {xs : List Val}, (∀ x ∈ xs, ∃ ys, ItemsOf x ys ∧ ConditionItems ys) → FailsBy Announced (parseConditions xs)
  | [], _ => .ok
  | x :: xs, h => by
    obtain ⟨ys, h1, h2⟩ := h x (by simp)
    refine .bind ?_ fun _ _ => (parseConditions_announced fun x hx => h x (by simp [hx])).bind fun _ _ => .ok
    rw [parseCondition, itemsOf_iff.2 h1]
    exact parseConditionItems_announced h2

omit D in
theorem mkOr_announced {v : Val} : FailsBy Announced (mkOr v) := by
  intro e h
  rw [(C59_expressions e).2.2.2.2.2.2.2.2.2.2.2.2.2.1 _ h]; exact announced_condition

omit D in
theorem whereGroup_announced {cs : List Val} : FailsBy Announced (whereGroup cs) := by
  unfold whereGroup
  split
  · exact .map mkOr_announced
  · exact .ok

omit D in
theorem havingGroup_announced {cs : List Val} : FailsBy Announced (havingGroup cs) := .map mkOr_announced

theorem legacyEntry_announced {g : List Val → Except Err (List Val)} (hg : ∀ cs, FailsBy Announced (g cs)) {v : Val} (h : EntryShape v) :
    FailsBy Announced (legacyEntry g v) := by
  cases h with
  | condition h1 h2 h3 =>
    rw [legacyEntry, itemsOf_iff.2 h1]
    simp only [ok_bind, conditionShape_iff.2 h2, if_true]
    exact .map (parseConditionItems_announced h3)
  | @group xs h1 h2 h3 =>
    have h2' : isLegacyCondition xs = false := by rw [← Bool.not_eq_true]; exact fun h => h2 (conditionShape_iff.1 h)
    rw [legacyEntry, itemsOf_iff.2 h1]
    simp only [ok_bind, h2']
    exact (parseConditions_announced h3).bind fun _ _ => hg _

theorem legacyEntries_announced {g : List Val → Except Err (List Val)} (hg : ∀ cs, FailsBy Announced (g cs)) : ∀ {vs : List Val},
    (∀ v ∈ vs, EntryShape v) → FailsBy Announced (legacyEntries g vs)
  | [], _ => .ok
  | v :: vs, h => (legacyEntry_announced hg (h v (by simp))).bind fun _ _ =>
      (legacyEntries_announced hg fun v hv => h v (by simp [hv])).bind fun _ _ => .ok

omit U in
theorem extensionCondition_announced {c v : Val} {a : Bool} : FailsBy Announced (extensionCondition c v a) := by
  unfold extensionCondition
  split
  · split
    · exact .map mkCondition_announced
    · exact .map mkCondition_announced
  · split
    · exact .map mkCondition_announced
    · exact .ok

theorem extension_announced {s : Str} {v : Val} {a : Bool} : FailsBy Announced (extension s v a) := by
  unfold extension
  split
  · exact mkColumn_announced.bind fun _ _ => extensionCondition_announced
  · exact .ok

theorem timeCondition_announced {c : Str} {o : Op} {v : Val} (h : Falsy v ∨ ∃ s t, v = .str s ∧ LegacyDate s t) :
    FailsBy Announced (timeCondition c o v) := by
  unfold timeCondition
  split
  · rename_i ht
    refine mkColumn_announced.bind fun _ _ => .bind ?_ fun _ _ => mkCondition_announced.bind fun _ _ => .ok
    rcases h with h | ⟨s, t, hv, h⟩
    · exact absurd h (truthy_true_iff.1 ht)
    · exact failsBy_of_ok ⟨_, parseDate_iff.2 ⟨s, t, hv, h, rfl⟩⟩
  · exact .ok

/-! ### The clauses -/

theorem parseAggregations_announced : ∀ {xs : List Val}, (∀ x ∈ xs, ∃ ys, ItemsOf x ys ∧ ExpShape (.list ys)) →
    FailsBy Announced (parseAggregations xs)
  | [], _ => .ok
  | x :: xs, h => by
    obtain ⟨ys, h1, h2⟩ := h x (by simp)
    rw [parseAggregations, itemsOf_iff.2 h1]
    exact (parseExp_announced h2).bind fun _ _ => (parseAggregations_announced fun x hx => h x (by simp [hx])).bind fun _ _ => .ok

theorem parseItems_announced {xs : List Val} (h : ∀ x ∈ xs, ∃ w, AsList x w ∧ ExpShape w) :
    FailsBy Announced (parseExps (xs.map tupleAsList)) := by
  refine parseExps_announced fun y hy => ?_
  obtain ⟨x, hx, rfl⟩ := List.mem_map.1 hy
  obtain ⟨w, h1, h2⟩ := h x hx
  rw [asList_iff.2 h1]
  exact parseExp_announced h2

theorem legacySelect_announced {b : LegacyBody}
    (ha : ∃ xs, ItemsAt b c!"aggregations" xs ∧ ∀ x ∈ xs, ∃ ys, ItemsOf x ys ∧ ExpShape (.list ys))
    (hs : ∃ xs, ItemsAt b c!"selected_columns" xs ∧ ∀ x ∈ xs, ∃ w, AsList x w ∧ ExpShape w) : FailsBy Announced (legacySelect b) := by
  obtain ⟨as, ha, ha'⟩ := ha
  obtain ⟨ss, hs, hs'⟩ := hs
  rw [legacySelect, itemsAt_iff.2 ha, itemsAt_iff.2 hs]
  exact (parseAggregations_announced ha').bind fun _ _ => (parseItems_announced hs').bind fun _ _ => .ok

theorem legacyGroupby_announced {b : LegacyBody} (h : ∀ v, Has b c!"groupby" v → GroupbyShape v) : FailsBy Announced (legacyGroupby b) := by
  unfold legacyGroupby
  have key : ∀ xs, (wrapList (b.getD c!"groupby" (.list []))).iter = .ok xs → (∀ x ∈ xs, ∃ w, AsList x w ∧ ExpShape w) →
      FailsBy Announced ((wrapList (b.getD c!"groupby" (.list []))).iter >>= fun gs => parseExps (gs.map tupleAsList)) := by
    intro xs h1 h2
    rw [h1]
    exact parseItems_announced h2
  by_cases hh : ∃ v, Has b c!"groupby" v
  · obtain ⟨v, hv⟩ := hh
    have hg := has_getD hv (.list [])
    cases h v hv with
    | list h => exact key _ (by rw [hg]; rfl) h
    | single h1 h2 h3 h4 =>
      refine key [v] ?_ ?_
      · rw [hg, wrapList_other h1, if_pos (truthy_true_iff.2 h2)]; rfl
      · intro x hx
        rw [List.mem_singleton.1 hx]
        exact ⟨_, h3, h4⟩
    | empty h1 =>
      refine key [] ?_ nofun
      rw [hg]
      generalize hx : ([] : List Val) = xs at h1
      cases h1 <;> first | rfl | (subst hx; rfl) | skip
      · rename_i s; cases s <;> first | rfl | cases hx
      · rename_i s; cases s <;> first | rfl | cases hx
  · exact key [] (by rw [has_not_getD (fun w hw => hh ⟨w, hw⟩)]; rfl) nofun

omit D in
theorem mkOrderBy_announced {x d : Val} : FailsBy Announced (mkOrderBy x d) := by
  intro e h
  rw [(C59_expressions e).2.2.2.2.2.2.2.2.2.2.2.2.2.2.1 _ _ h]; exact announced_expression

theorem orderStep_announced {p : Option Val} {v : Val} (h : OrderShape v) : FailsBy Announced (orderStep p v).1 := by
  cases h with
  | text =>
    simp only [orderStep]
    split <;> exact .map (parseExp_announced .text)
  | @list xs h1 h2 =>
    have : (orderStep p (.list xs)).1 = (parseExp (.list xs)).map fun p => (p, .asc) := by
      cases xs with
      | nil => cases h2; rename_i h; exact absurd rfl (h _)
      | cons x rest =>
        by_cases hx : ∃ s, x = .str s
        · obtain ⟨s, rfl⟩ := hx
          simp only [orderStep]
          split
          · rename_i hs
            obtain ⟨r, rfl⟩ := startsWith_dash.1 hs
            exact absurd .mk h1
          · rfl
        · rw [orderStep]
          · nofun
          · intro s r h; cases h; exact hx ⟨_, rfl⟩
    rw [this]
    exact .map (parseExp_announced h2)
  | dashed h1 h2 =>
    obtain ⟨h3, h4⟩ := dashed_iff.2 h1
    simp only [orderStep, h3, if_true, h4]
    exact .map (parseExp_announced h2)

theorem orderLoop_cons_announced {p : Option Val} {v : Val} {vs : List Val} (h : FailsBy Announced (orderStep p v).1)
    (h' : ∀ x, FailsBy Announced (orderLoop (some x) vs).1) : FailsBy Announced (orderLoop p (v :: vs)).1 := by
  intro e he
  rw [orderLoop] at he
  split at he
  · rename_i e' o' heq
    cases he
    exact h _ (by rw [heq])
  · split at he
    · rename_i hm
      cases he
      exact mkOrderBy_announced _ hm
    · exact FailsBy.map (h' _) e he

theorem orderLoop_announced : ∀ {vs : List Val} {x : Val}, (∀ w ∈ vs, OrderShape w ∨ ((∀ s, w ≠ .str s) ∧ ∀ xs, w ≠ .list xs)) →
    FailsBy Announced (orderLoop (some x) vs).1
  | [], _, _ => .ok
  | v :: vs, x, h => by
    refine orderLoop_cons_announced ?_ fun x => orderLoop_announced fun w hw => h w (by simp [hw])
    rcases h v (by simp) with hv | ⟨h1, h2⟩
    · exact orderStep_announced hv
    · rw [orderStep]
      · exact .ok
      · exact h2 _
      · exact fun _ _ => h2 _
      · exact h2
      · exact h1

theorem legacyOrder_announced {v : Val} (ht : ¬ Falsy v) (h : OrderingShape v) : FailsBy Announced (legacyOrder v).1 := by
  cases h with
  | absent h => exact absurd h ht
  | text => exact orderLoop_cons_announced (orderStep_announced .text) fun _ => .ok
  | list h1 h2 => exact orderLoop_cons_announced (orderStep_announced h1) fun _ => orderLoop_announced h2

omit D in
theorem withBody_announced {q : Query} {b : Body} : FailsBy Announced (q.withBody b) := by
  intro e h
  cases q with
  | nested =>
    simp only [Query.withBody, mkNested] at h
    split at h <;> cases h
    exact announced_query
  | base m _ =>
    simp only [Query.withBody, mkQuery] at h
    split at h <;> cases h
    exact announced_query

omit D in
theorem setters_announced {q : Query} {v : Val} : FailsBy Announced (q.setSelect v) ∧ FailsBy Announced (q.setGroupby v) ∧
    FailsBy Announced (q.setArrayJoin v) ∧ FailsBy Announced (q.setWhere v) ∧ FailsBy Announced (q.setHaving v) ∧
    FailsBy Announced (q.setOrderby v) ∧ FailsBy Announced (q.setLimitby v) := by
  have key : ∀ {c : Bool} {b : Body}, FailsBy Announced (if c then .error .invalidQuery else q.withBody b) := by
    intro c b
    cases c
    · exact withBody_announced
    · intro e h; cases h; exact announced_query
  refine ⟨key, key, key, key, key, key, ?_⟩
  unfold Query.setLimitby
  split
  · exact withBody_announced
  · intro e h; cases h; exact announced_query

omit D in
theorem extras_announced {b : LegacyBody} {q : Query} : FailsBy Announced (legacyExtras b q) := by
  have key : ∀ {set : Query → Val → Except Err Query}, (∀ q v, FailsBy Announced (set q v)) → ∀ q v, FailsBy Announced (legacyExtra set q v) := by
    intro set h q v
    unfold legacyExtra
    split
    · exact .ok
    · exact h q v
  have mk : ∀ {x : Except Err Val} {f : Val → Except Err Query}, (∀ e, x = .error e → e = .invalidExpression) →
      (∀ l, FailsBy Announced (f l)) → FailsBy Announced (x >>= f) :=
    fun h hf => FailsBy.bind (fun e he => by rw [h e he]; exact announced_expression) fun l _ => hf l
  refine .bind (key (fun q v => mk (fun e => (C59_expressions e).1 v) fun _ => withBody_announced) _ _) fun _ _ =>
    .bind (key (fun q v => mk (fun e => (C59_expressions e).2.1 v) fun _ => withBody_announced) _ _) fun _ _ =>
    .bind (key (fun q v => mk (fun e => (C59_expressions e).2.2.1 v) fun _ => withBody_announced) _ _) fun _ _ =>
    key (fun q v => mk (fun e => (C59_expressions e).2.2.2.1 v) fun _ => withBody_announced) _ _

omit D in
theorem limitby_announced [N : PyNumberText] {q : Query} {v : Val} (h : Falsy v ∨ ∃ limit name n, ItemsOf v [limit, name] ∧ IntOf limit n) :
    FailsBy Announced (legacyLimitby q v) := by
  unfold legacyLimitby
  split
  · rename_i ht
    rcases h with h | ⟨limit, name, n, h1, h2⟩
    · exact absurd h (truthy_true_iff.1 ht)
    · rw [unpackTwo, itemsOf_iff.2 h1]
      refine .bind .ok fun p hp => ?_
      cases hp
      refine mkColumn_announced.bind fun _ _ => .bind (failsBy_of_ok ⟨n, intOf_iff.2 h2⟩) fun _ _ => .bind ?_ fun _ _ => setters_announced.2.2.2.2.2.2
      intro e he
      rw [(C59_expressions e).2.2.2.2.2.2.2.2.2.2.2.2.2.2.2.1 _ _ he]; exact announced_expression
  · exact .ok

theorem legacyWhere_announced [N : PyNumberText] {b : LegacyBody} {entity : Str} (h : BodyShape b entity) : FailsBy Announced (legacyWhere b entity) := by
  obtain ⟨cs, hc, hc'⟩ := h.conditions
  unfold legacyWhere
  refine extension_announced.bind fun _ _ => .bind ?_ fun _ _ => extension_announced.bind fun _ _ => .bind (failsBy_of_ok ⟨_, itemsAt_iff.2 hc⟩) fun x hx =>
    .bind (legacyEntries_announced (fun _ => whereGroup_announced) ?_) fun _ _ => .ok
  · unfold legacyTimes
    split
    · exact .ok
    · rename_i c ht
      have hd := h.dates c (timeColumn_iff.1 ht)
      obtain ⟨v, hv, h1⟩ := hd c!"from_date" (by simp)
      obtain ⟨w, hw, h2⟩ := hd c!"to_date" (by simp)
      rw [valueAt_iff.2 hv, valueAt_iff.2 hw]
      exact (timeCondition_announced h1).bind fun _ _ => (timeCondition_announced h2).bind fun _ _ => .ok
  · rw [itemsAt_iff.2 hc] at hx
    cases hx
    exact hc'

/-- What follows the entity. -/
theorem start_announced [N : PyNumberText] {b : LegacyBody} {entity : Str} (h : BodyShape b entity) {e : Err} (he : legacyStart b entity = .error e) :
    Announced e ∨ ∃ s, legacySample (b.get c!"sample") = .ok s ∧ mkEntity (.str entity) .none s .none = .error e := by
  unfold legacyStart at he
  rcases bind_eq_error.1 he with he | ⟨s, hs, he⟩
  · obtain ⟨v, hv, h1⟩ := h.sample
    rw [valueAt_iff.2 hv] at he
    rcases h1 with rfl | ⟨f, hf⟩
    · cases he
    · have hl : ∃ s, legacySample v = .ok s := by
        by_cases hn : v = .none
        · subst hn; exact ⟨_, rfl⟩
        · have hl : legacySample v = (toFloat v).map .float := by cases v <;> first | exact absurd rfl hn | rfl
          rw [hl, floatOf_iff.2 hf]; exact ⟨_, rfl⟩
      obtain ⟨s, hs⟩ := hl
      rw [hs] at he; cases he
  rcases bind_eq_error.1 he with he | ⟨en, hen, he⟩
  · exact .inr ⟨s, hs, he⟩
  refine .inl ?_
  revert he
  refine (FailsBy.bind (α := Query) ?_ fun q0 _ => (legacySelect_announced h.aggregations h.selected).bind fun _ _ => .bind ?_ fun _ _ =>
    setters_announced.1.bind fun _ _ => (legacyGroupby_announced h.groupby).bind fun _ _ => setters_announced.2.1.bind fun _ _ =>
    (legacyWhere_announced h).bind fun _ _ => setters_announced.2.2.2.1.bind fun _ _ => .bind ?_ fun _ _ => setters_announced.2.2.2.2.1) e
  · intro e h
    unfold mkQuery at h
    split at h <;> cases h
    exact announced_query
  · unfold legacyArrayJoin
    split
    · exact mkColumn_announced.bind fun _ _ => setters_announced.2.2.1
    · exact .ok
  · obtain ⟨cs, hc, hc'⟩ := h.having
    rw [legacyHaving, itemsAt_iff.2 hc]
    exact legacyEntries_announced (fun _ => havingGroup_announced) hc'

theorem conversion_announced [N : PyNumberText] {b : LegacyBody} {entity : Str} (h : BodyShape b entity) {e : Err}
    (he : (jsonToSnql b entity).1 = .error e) :
    Announced e ∨ ∃ s, legacySample (b.get c!"sample") = .ok s ∧ mkEntity (.str entity) .none s .none = .error e := by
  have hfin : ∀ q, FailsBy Announced (legacyFinish b entity q) := by
    intro q
    obtain ⟨v, hv, h1⟩ := h.limitby
    refine FailsBy.bind ?_ fun _ _ => extras_announced.bind fun _ _ => .ok
    rw [valueAt_iff.2 hv]
    exact limitby_announced h1
  unfold jsonToSnql at he
  split at he
  · rename_i e' hs
    cases he
    exact start_announced h hs
  · split at he
    · rename_i ht
      obtain ⟨v, hv, h1⟩ := h.orderby
      rw [valueAt_iff.2 hv] at he ht
      exact .inl ((legacyOrder_announced (truthy_true_iff.1 ht) h1).bind' (fun _ _ => setters_announced.2.2.2.2.2.1.bind' fun _ _ => hfin _) e he)
    · exact .inl (hfin _ e he)

/-! ### Convertible bodies are of the right shape -/

omit U D in
theorem aliasItem_shape {rest : List Val} {a : Val} (h : AliasItem rest a) : AliasShape rest := by
  cases h with
  | none => exact .none
  | falsy h => exact .falsy h
  | quoted => exact .text
  | text => exact .text

omit U D in
theorem compares_not {o : Op} {f : Str} (h : Compares o f) : o ≠ .not := by cases h <;> nofun

theorem converts_shape {v x : Val} (h : Converts v x) : ExpShape v := by
  apply Converts.rec (motive_1 := fun v _ _ => ExpShape v) (motive_2 := fun vs _ _ => ∀ y ∈ vs, ExpShape y) (t := h)
  case empty => exact .text
  case quoted => intros; exact .text
  case column => intros; exact .text
  case scalar => intro v x h1 h2 _; exact .scalar h1 h2
  case condition =>
    intro a op c l r x o f hs _ ho _ hc _ ih
    cases hs with
    | mk h1 h2 =>
      cases ho with
      | text => exact .condition (.mk h1 h2) (compares_not hc) ih
  case emptyCall => intro f n args al x rest h1 h2 h3 _ _ _; exact .call h1 (aliasItem_shape h2) (.none h3)
  case noCall => intro f args al x rest h1 h2 h3 _ _; exact .call h1 (aliasItem_shape h2) (.none h3)
  case call => intro f ys zs al x rest h1 h2 _ _ _ ih; exact .call h1 (aliasItem_shape h2) (.list ih)
  case callOne => intro f y z al x rest h1 h2 _ h4 _ _ ih; exact .call h1 (aliasItem_shape h2) (.one ih h4)
  case bracketed => intro f y al x rest h1 h2 h3 _ _ _ _; exact .call h1 (aliasItem_shape h2) (.none h3)
  case nil => nofun
  case cons =>
    intro x y xs ys _ _ h1 h2 z hz
    rcases List.mem_cons.1 hz with rfl | hz
    · exact h1
    · exact h2 z hz

theorem conditionOf_shape {xs : List Val} {c : Val} (h : ConditionOf xs c) : ConditionItems xs := by
  cases h with
  | mk h1 h2 h3 h4 =>
    refine .mk (converts_shape h1) h2 ?_
    cases h3 with
    | null h => rcases h with rfl | rfl <;> simp
    | value => simp

theorem groupOf_shape {vs cs : List Val} (h : GroupOf vs cs) : ∀ x ∈ vs, ∃ ys, ItemsOf x ys ∧ ConditionItems ys := by
  induction h with
  | nil => nofun
  | cons h1 h2 _ ih =>
    intro x hx
    rcases List.mem_cons.1 hx with rfl | hx
    · exact ⟨_, h1, conditionOf_shape h2⟩
    · exact ih x hx

theorem whereEntries_shape {vs cs : List Val} (h : WhereEntries vs cs) : ∀ x ∈ vs, EntryShape x := by
  induction h with
  | nil => nofun
  | cons h1 _ ih =>
    intro x hx
    rcases List.mem_cons.1 hx with rfl | hx
    · cases h1 with
      | condition h1 h2 h3 => exact .condition h1 h2 (conditionOf_shape h3)
      | group h1 h2 h3 => exact .group h1 h2 (groupOf_shape h3)
      | single h1 h2 h3 => exact .group h1 h2 (groupOf_shape h3)
      | empty h1 => exact .group h1 nofun nofun
    · exact ih x hx

theorem havingEntries_shape {vs cs : List Val} (h : HavingEntries vs cs) : ∀ x ∈ vs, EntryShape x := by
  induction h with
  | nil => nofun
  | cons h1 _ ih =>
    intro x hx
    rcases List.mem_cons.1 hx with rfl | hx
    · cases h1 with
      | condition h1 h2 h3 => exact .condition h1 h2 (conditionOf_shape h3)
      | group h1 h2 h3 => exact .group h1 h2 (groupOf_shape h3)
    · exact ih x hx

theorem aggregates_shape {vs xs : List Val} (h : Aggregates vs xs) : ∀ x ∈ vs, ∃ ys, ItemsOf x ys ∧ ExpShape (.list ys) := by
  induction h with
  | nil => nofun
  | cons h1 h2 _ ih =>
    intro x hx
    rcases List.mem_cons.1 hx with rfl | hx
    · exact ⟨_, h1, converts_shape h2⟩
    · exact ih x hx

theorem convertsItems_shape {vs xs : List Val} (h : ConvertsItems vs xs) : ∀ x ∈ vs, ∃ w, AsList x w ∧ ExpShape w := by
  induction h with
  | nil => nofun
  | cons h1 h2 _ ih =>
    intro x hx
    rcases List.mem_cons.1 hx with rfl | hx
    · exact ⟨_, h1, converts_shape h2⟩
    · exact ih x hx

theorem orderItem_shape {v x : Val} {d : Direction} (h : OrderItem v x d) : OrderShape v := by
  cases h with
  | asc => exact .text
  | desc => exact .text
  | listAsc h1 h2 => exact .list h1 (converts_shape h2)
  | listDesc h1 h2 => exact .dashed h1 (converts_shape h2)

theorem orderItems_shape {p : Option Val} {vs xs : List Val} (h : OrderItems p vs xs) :
    ∀ w ∈ vs, OrderShape w ∨ ((∀ s, w ≠ .str s) ∧ ∀ xs, w ≠ .list xs) := by
  induction h with
  | nil => nofun
  | cons h1 _ _ ih =>
    intro x hx
    rcases List.mem_cons.1 hx with rfl | hx
    · exact .inl (orderItem_shape h1)
    · exact ih x hx
  | again h1 h2 _ _ ih =>
    intro x hx
    rcases List.mem_cons.1 hx with rfl | hx
    · exact .inr ⟨h1, h2⟩
    · exact ih x hx

theorem orderOf_shape {v x : Val} (h : OrderOf v x) : OrderingShape v := by
  cases h with
  | absent h => exact .absent h
  | list h1 h2 =>
    cases h2 with
    | nil => exact absurd rfl h1
    | cons h3 _ h4 => exact .list (orderItem_shape h3) (orderItems_shape h4)
  | single h1 h2 h3 =>
    cases h3 with
    | cons h3 _ _ =>
      cases h3 with
      | asc => exact .text
      | desc => exact .text
      | listAsc => exact absurd rfl (h2 _)
      | listDesc => exact absurd rfl (h2 _)

omit U D in
theorem has_unique {b : LegacyBody} {key : Str} {v w : Val} (h : Has b key v) (h' : Has b key w) : v = w := by
  have h1 := lookup_has.2 h
  rw [lookup_has.2 h'] at h1
  cases h1; rfl

theorem requestOf_shape [N : PyNumberText] {b : LegacyBody} {entity : Str} {req : RequestObj} (h : RequestOf b entity req) :
    BodyShape b entity := by
  obtain ⟨v, s, c, hv, hs, _, hb⟩ := h.query
  refine ⟨⟨v, hv, ?_⟩, ?_, ?_, ?_, ?_, ?_, ?_, ?_, ?_⟩
  · cases hs with
    | absent => exact .inl rfl
    | rate h _ => exact .inr ⟨_, h⟩
  · obtain ⟨xs, _, hx, _⟩ := hb.select
    cases hx with
    | mk h1 h2 _ _ => exact ⟨_, h1, aggregates_shape h2⟩
  · obtain ⟨xs, _, hx, _⟩ := hb.select
    cases hx with
    | mk _ _ h1 h2 => exact ⟨_, h1, convertsItems_shape h2⟩
  · intro w hw
    obtain ⟨xs, _, hx, _⟩ := hb.groupby
    cases hx with
    | missing h => exact absurd hw (h w)
    | list h1 h2 => rw [has_unique hw h1]; exact .list (convertsItems_shape h2)
    | single h1 h2 h3 h4 h5 => rw [has_unique hw h1]; exact .single h2 h3 h4 (converts_shape h5)
    | empty h1 _ h3 => rw [has_unique hw h1]; exact .empty h3
  · intro c hc key hk
    obtain ⟨xs, _, hx⟩ := hb.where_
    cases hx with
    | mk _ _ h1 _ _ _ _ =>
      have bound : ∀ {c : Str} {o : Op} {v : Val} {xs : List Val}, BoundOf c o v xs → Falsy v ∨ ∃ s t, v = .str s ∧ LegacyDate s t := by
        intro c o v xs h
        cases h with
        | absent h => exact .inl h
        | date h => exact .inr ⟨_, _, rfl, h⟩
      cases h1 with
      | none h => exact absurd hc (h c)
      | both _ h2 h3 h4 h5 =>
        simp only [List.mem_cons, List.not_mem_nil, or_false] at hk
        rcases hk with rfl | rfl
        · exact ⟨_, h2, bound h3⟩
        · exact ⟨_, h4, bound h5⟩
  · obtain ⟨xs, _, hx⟩ := hb.where_
    cases hx with
    | mk _ _ _ _ _ h1 h2 => exact ⟨_, h1, whereEntries_shape h2⟩
  · obtain ⟨vs, xs, h1, _, h2⟩ := hb.having
    exact ⟨vs, h1, havingEntries_shape h2⟩
  · obtain ⟨v, h1, h2⟩ := hb.orderby
    exact ⟨v, h1, orderOf_shape h2⟩
  · obtain ⟨v, h1, h2⟩ := hb.limitby
    refine ⟨v, h1, ?_⟩
    generalize c.limitby = x at h2
    cases h2 with
    | absent h => exact .inl h
    | pair _ h3 _ h5 _ _ => exact .inr ⟨_, _, _, h3, h5⟩

end

end Verif
