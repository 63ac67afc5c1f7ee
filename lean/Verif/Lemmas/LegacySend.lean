import Verif.Lemmas.LegacyBody
import Verif.Props.Total
import Verif.Props.Columns
import Verif.Spec.LegacySend

/-!
# What legacy bodies of plain data are converted to
-/

namespace Verif
open Spec

variable [U : PyUnicode] [D : PyDecimal]

/-- A value made by the SDK without parts that have no text; if it is a column, one without an entity. -/
structure Fit (x : Val) : Prop where
  built : Built x
  clean : Clean x
  free : ∀ c, x = .column c → c.entity = none

omit U D in
theorem clean_leaf {v : Val} (hc : v.children = []) (h1 : ∀ bs, v ≠ .bytes bs) (h2 : ∀ t, v ≠ .datetime t) (h3 : ∀ b, v ≠ .extrapolate b) :
    Clean v := by
  rw [clean_iff, hc]
  exact ⟨not_unprintable h1 h2 h3, by simp⟩

omit D in
theorem good_literal {v : Val} (h : Literal v) (hc : Clean v) : Fit v :=
  ⟨.literal _ h, hc, by rintro c rfl; cases h⟩

omit D in
theorem good_str (s : Str) : Fit (.str s) := good_literal (.str s) (clean_leaf rfl (by simp) (by simp) (by simp))

omit D in
theorem good_tuple {ys : List Val} (h : ∀ y ∈ ys, Fit y) : Fit (.tuple ys) :=
  ⟨.tuple _ fun y hy => (h y hy).built, by
    rw [clean_iff]; exact ⟨not_unprintable (by simp) (by simp) (by simp), fun y hy => (h y hy).clean⟩, by simp⟩

omit U in
theorem plainData_item {v x : Val} (h : PlainData v) (hx : x ∈ v.children) : PlainData x := by
  cases h with
  | list xs h => exact h x hx
  | tuple xs h => exact h x hx
  | _ => simp [Val.children] at hx

mutual
theorem scalarOf_good {keep : Prop} : ∀ {v x : Val}, PlainData v → ScalarOf keep v x → Fit x
  | _, _, h, .date hk hd => by
    cases h with
    | text _ h =>
      obtain ⟨n, h1, h2⟩ := h _ hd
      refine good_literal (.datetime _) ?_
      rw [clean_iff]
      refine ⟨?_, by simp [Val.children]⟩
      rintro (⟨bs, h, _⟩ | ⟨t, h, h'⟩ | ⟨b, h⟩) <;> cases h
      exact h' ⟨n, h1, h2⟩
  | _, _, _, .text _ => good_str _
  | _, _, h, .list hs => good_tuple (scalarsOf_good (fun x hx => plainData_item h hx) hs)
  | _, _, h, .tuple hs => good_tuple (scalarsOf_good (fun x hx => plainData_item h hx) hs)
  | _, _, h, .other h1 h2 h3 => by
    cases h with
    | null => exact good_literal .none (clean_leaf rfl (by simp) (by simp) (by simp))
    | bool b => exact good_literal (.bool b) (clean_leaf rfl (by simp) (by simp) (by simp))
    | int i => exact good_literal (.int i) (clean_leaf rfl (by simp) (by simp) (by simp))
    | float f => exact good_literal (.float f) (clean_leaf rfl (by simp) (by simp) (by simp))
    | text s _ => exact absurd rfl (h1 s)
    | list xs _ => exact absurd rfl (h2 xs)
    | tuple xs _ => exact absurd rfl (h3 xs)

theorem scalarsOf_good {keep : Prop} : ∀ {vs xs : List Val}, (∀ v ∈ vs, PlainData v) → ScalarsOf keep vs xs → ∀ x ∈ xs, Fit x
  | _, _, _, .nil => by simp
  | _, _, h, .cons h1 h2 => by
    intro x hx
    rcases List.mem_cons.1 hx with rfl | hx
    · exact scalarOf_good (h _ (List.mem_cons_self ..)) h1
    · exact scalarsOf_good (fun v hv => h v (List.mem_cons_of_mem _ hv)) h2 x hx
end

omit D in
theorem columnFor_good {s : Str} {c : ColumnObj} (h : ColumnFor s c) : Fit (.column c) :=
  ⟨.column _ _ _ (.literal _ (.str s)) (.literal _ .none) (columnFor_iff.2 ⟨c, h, rfl⟩), clean_leaf rfl (by simp) (by simp) (by simp), by
    intro c' hc; cases hc; cases h <;> rfl⟩

omit U D in
theorem aliasFor_literal {v : Val} {a : Option Str} (h : AliasFor v a) : Literal v := by
  cases h with
  | none => exact .none
  | text _ _ => exact .str _

omit D in
theorem functionFor_good {f : Str} {k : SeqKind} {ps : List Val} {al x : Val} (hk : k = .list ∨ k = .tuple ∨ (k = .absent ∧ ps = [])) (hp : ∀ p ∈ ps, Fit p)
    (h : FunctionFor f k ps al x) : Fit x := by
  have ha : Literal al := by obtain ⟨_, ha, _⟩ := h; exact aliasFor_literal ha
  refine ⟨?_, ?_, ?_⟩
  · rcases hk with rfl | rfl | ⟨rfl, rfl⟩
    · exact .function _ _ _ _ (.literal _ (.str f)) (.list ps fun p h => (hp p h).built) (.literal _ ha) ((mkFunction_seq rfl).2 h)
    · exact .function _ _ _ _ (.literal _ (.str f)) (.tuple ps fun p h => (hp p h).built) (.literal _ ha) ((mkFunction_seq rfl).2 h)
    · exact .function _ _ _ _ (.literal _ (.str f)) (.literal _ .none) (.literal _ ha) (mkFunction_none.2 h)
  · obtain ⟨_, _, _⟩ := h
    rw [clean_iff]
    exact ⟨not_unprintable (by simp) (by simp) (by simp), fun p h => (hp p (by simpa [Val.children] using h)).clean⟩
  · obtain ⟨_, _, _⟩ := h
    simp

theorem rhsFor_good {l op r : Val} {rest : List Val} (hr : ∀ x ∈ rest, PlainData x) (h : RhsFor l op rest r) : Fit r := by
  cases h with
  | null _ => exact good_literal .none (clean_leaf rfl (by simp) (by simp) (by simp))
  | value _ _ h => exact scalarOf_good (hr _ (List.mem_cons_self ..)) h

/-- Plain data, or a text, or a list that is plain data but for a text at its head. -/
def HeadFree (v : Val) : Prop := (∃ s, v = .str s) ∨ (∃ s rest, v = .list (.str s :: rest) ∧ ∀ x ∈ rest, PlainData x) ∨ PlainData v

omit U in
theorem weak_list {v : Val} {rest : List Val} (h : HeadFree (.list (v :: rest))) : HeadFree v ∧ ∀ x ∈ rest, PlainData x := by
  rcases h with ⟨s, h⟩ | ⟨s, r, h, hr⟩ | h
  · cases h
  · cases h; exact ⟨.inl ⟨s, rfl⟩, hr⟩
  · exact ⟨.inr (.inr (plainData_item h (List.mem_cons_self ..))), fun x hx => plainData_item h (List.mem_cons_of_mem _ hx)⟩

mutual
theorem converts_good : ∀ {v x : Val}, HeadFree v → Converts v x → Fit x
  | _, _, _, .empty => good_str _
  | _, _, _, .quoted _ => good_str _
  | _, _, _, .column _ _ h => columnFor_good h
  | _, _, h, .scalar h1 h2 hs => by
    rcases h with ⟨s, h⟩ | ⟨s, rest, h, _⟩ | h
    · exact absurd h (h1 s)
    · exact absurd h (h2 _)
    · exact scalarOf_good h hs
  | _, _, h, .condition _ ha _ hr _ hf => by
    obtain ⟨hw, hrest⟩ := weak_list h
    have hl := converts_good hw ha
    have hr' := rhsFor_good (fun x hx => hrest x (List.mem_cons_of_mem _ hx)) hr
    refine functionFor_good (by simp) ?_ hf
    simp only [List.mem_cons, List.not_mem_nil, or_false, forall_eq_or_imp, forall_eq]
    exact ⟨hl, hr'⟩
  | _, _, _, .emptyCall _ _ _ _ _ hf => functionFor_good (by simp) (by simp) hf
  | _, _, _, .noCall _ _ _ _ hf => functionFor_good (by simp) (by simp) hf
  | _, _, h, .call _ _ _ hc hf => by
    have hy := (weak_list h).2 _ (List.mem_cons_self ..)
    exact functionFor_good (by simp) (convertsAll_good (fun y hm => .inr (.inr (plainData_item hy hm))) hc) hf
  | _, _, h, .callOne _ _ _ _ hc hf => by
    have hy := (weak_list h).2 _ (List.mem_cons_self ..)
    have := converts_good (.inr (.inr hy)) hc
    exact functionFor_good (by simp) (by simpa using this) hf
  | _, _, _, .bracketed _ _ _ _ _ _ hf => functionFor_good (by simp) (by simp) hf

theorem convertsAll_good : ∀ {vs xs : List Val}, (∀ v ∈ vs, HeadFree v) → ConvertsAll vs xs → ∀ x ∈ xs, Fit x
  | _, _, _, .nil => by simp
  | _, _, h, .cons h1 h2 => by
    intro x hx
    rcases List.mem_cons.1 hx with rfl | hx
    · exact converts_good (h _ (List.mem_cons_self ..)) h1
    · exact convertsAll_good (fun v hv => h v (List.mem_cons_of_mem _ hv)) h2 x hx
end

/-! ### Conditions -/

omit U in
theorem legacyDate_long {s : Str} {t : Datetime} (h : LegacyDate s t) : 2 ≤ s.length := by
  have key : ∀ {s : Str} {y m d h mi sc : Nat}, MomentText s y m d h mi sc → 2 ≤ s.length := by
    rintro s y m d h mi sc ⟨ty, tm, td, mark, th, tmi, ts, rfl, _⟩
    simp only [List.length_append, List.length_cons]
    omega
  cases h with
  | plain h => exact key h
  | fraction h => have := key h; simp only [List.length_append]; omega
  | zone h => have := key h; simp only [List.length_append]; omega

omit U in
theorem itemsOf_plain {v : Val} {xs : List Val} (h : PlainData v) (hi : ItemsOf v xs) : ∀ x ∈ xs, PlainData x := by
  cases hi with
  | list => exact fun x hx => plainData_item h hx
  | tuple => exact fun x hx => plainData_item h hx
  | str =>
    intro x hx
    obtain ⟨c, _, rfl⟩ := List.mem_map.1 hx
    exact .text _ fun t ht => by have := legacyDate_long ht; simp at this
  | bytes => cases h

theorem conditionOf_good {xs : List Val} {c : Val} (h : ∀ x ∈ xs, PlainData x) (hc : ConditionOf xs c) : Fit c := by
  obtain ⟨ha, ho, hr, hcond⟩ := hc
  have hl := converts_good (.inr (.inr (h _ (List.mem_cons_self ..)))) ha
  have hr' := rhsFor_good (fun x hx => h x (List.mem_cons_of_mem _ (List.mem_cons_of_mem _ hx))) hr
  have hm := conditionFor_iff.2 hcond
  refine ⟨.condition _ _ _ _ hl.built (.op _) hr'.built hm, ?_, ?_⟩
  · obtain ⟨_, _, _⟩ := hcond
    rw [clean_iff]
    refine ⟨not_unprintable (by simp) (by simp) (by simp), ?_⟩
    simp only [Val.children, List.mem_cons, List.not_mem_nil, or_false, forall_eq_or_imp, forall_eq]
    exact ⟨hl.clean, hr'.clean⟩
  · obtain ⟨_, _, _⟩ := hcond; simp

theorem groupOf_good : ∀ {vs cs : List Val}, (∀ v ∈ vs, PlainData v) → GroupOf vs cs → ∀ c ∈ cs, Fit c
  | _, _, _, .nil => by simp
  | _, _, h, .cons h1 h2 h3 => by
    intro x hx
    rcases List.mem_cons.1 hx with rfl | hx
    · exact conditionOf_good (itemsOf_plain (h _ (List.mem_cons_self ..)) h1) h2
    · exact groupOf_good (fun v hv => h v (List.mem_cons_of_mem _ hv)) h3 x hx

omit D in
theorem or_good {cs : List Val} (h : ∀ c ∈ cs, Fit c) (hc : ∀ c ∈ cs, Cond c) (hl : 2 ≤ cs.length) : Fit (.boolCond .or .or .list cs) := by
  refine ⟨.or (.list cs) _ (.list _ fun c hm => (h c hm).built) ?_, ?_, by simp⟩
  · exact (C11_boolean_accepts_iff .none _ _).2.2.2 ⟨.list, cs, .list _, hl, hc, rfl⟩
  · rw [clean_iff]
    exact ⟨not_unprintable (by simp) (by simp) (by simp), fun c hm => (h c hm).clean⟩

theorem whereEntry_good {v : Val} {cs : List Val} (h : PlainData v) (hw : WhereEntry v cs) : ∀ c ∈ cs, Fit c := by
  cases hw with
  | condition hi _ hc => simpa using conditionOf_good (itemsOf_plain h hi) hc
  | group hi _ hg hl => simpa using or_good (groupOf_good (itemsOf_plain h hi) hg) (groupOf_cond hg) hl
  | single hi _ hg => exact groupOf_good (itemsOf_plain h hi) hg
  | empty _ => simp

theorem whereEntries_good : ∀ {vs cs : List Val}, (∀ v ∈ vs, PlainData v) → WhereEntries vs cs → ∀ c ∈ cs, Fit c
  | _, _, _, .nil => by simp
  | _, _, h, .cons h1 h2 => by
    intro x hx
    rcases List.mem_append.1 hx with hx | hx
    · exact whereEntry_good (h _ (List.mem_cons_self ..)) h1 x hx
    · exact whereEntries_good (fun v hv => h v (List.mem_cons_of_mem _ hv)) h2 x hx

theorem havingEntries_good : ∀ {vs cs : List Val}, (∀ v ∈ vs, PlainData v) → HavingEntries vs cs → ∀ c ∈ cs, Fit c
  | _, _, _, .nil => by simp
  | _, _, h, .cons h1 h2 => by
    intro x hx
    rcases List.mem_cons.1 hx with rfl | hx
    · have hv := h _ (List.mem_cons_self ..)
      cases h1 with
      | condition hi _ hc => exact conditionOf_good (itemsOf_plain hv hi) hc
      | group hi _ hg hl => exact or_good (groupOf_good (itemsOf_plain hv hi) hg) (groupOf_cond hg) hl
    · exact havingEntries_good (fun v hv => h v (List.mem_cons_of_mem _ hv)) h2 x hx

/-! ### The entries of the body -/

omit U in
theorem has_plain {b : LegacyBody} (hb : PlainBody b) {k : Str} {v : Val} (h : Has b k v) : PlainData v := by
  obtain ⟨before, after, h, _⟩ := h
  exact hb k v (by rw [h]; simp)

omit U in
theorem valueAt_plain {b : LegacyBody} (hb : PlainBody b) {k : Str} {v : Val} (h : ValueAt b k v) : PlainData v := by
  rcases h with h | ⟨_, rfl⟩
  · exact has_plain hb h
  · exact .null

omit U in
theorem itemsAt_plain {b : LegacyBody} (hb : PlainBody b) {k : Str} {xs : List Val} (h : ItemsAt b k xs) : ∀ x ∈ xs, PlainData x := by
  rcases h with ⟨v, h, hi⟩ | ⟨_, rfl⟩
  · exact itemsOf_plain (has_plain hb h) hi
  · simp

omit D in
theorem plainColumn_good {s : Str} (h : ColIdent s) : Fit (plainColumn s) := columnFor_good (.plain (.inl h))

omit D in
theorem cond_good {l r : Val} {o : Op} (hl : Fit l) (hr : Fit r) (h1 : ColOrFn l) (h2 : o = .isNull ∨ o = .isNotNull → r = .none)
    (h3 : ColOrFn r ∨ Scalar r) : Fit (.cond l o r) := by
  refine ⟨.condition _ _ _ _ hl.built (.op _) hr.built (conditionFor_iff.2 (.mk h1 h2 h3)), ?_, by simp⟩
  rw [clean_iff]
  refine ⟨not_unprintable (by simp) (by simp) (by simp), ?_⟩
  simp only [Val.children, List.mem_cons, List.not_mem_nil, or_false, forall_eq_or_imp, forall_eq]
  exact ⟨hl.clean, hr.clean⟩

omit D in
theorem intLike_good {v : Val} {n : PyInt} (h : IntLike v n) : Fit v ∧ Literal v := by
  cases h with
  | int i => exact ⟨good_literal (.int i) (clean_leaf rfl (by simp) (by simp) (by simp)), .int i⟩
  | bool b => exact ⟨good_literal (.bool b) (clean_leaf rfl (by simp) (by simp) (by simp)), .bool b⟩

omit D in
theorem org_ident : ColIdent c!"org_id" := colIdent_ascii (by decide) (by decide)
omit D in
theorem project_ident : ColIdent c!"project_id" := colIdent_ascii (by decide) (by decide)

theorem whereOf_good {b : LegacyBody} {e : Str} {cs : List Val} (hb : PlainBody b) (h : WhereOf b e cs) : ∀ c ∈ cs, Fit c := by
  obtain ⟨hv, ho, hbd, hw, hp, hi, hc⟩ := h
  intro c hm
  simp only [List.mem_append] at hm
  rcases hm with ((hm | hm) | hm) | hm
  · cases ho with
    | absent _ => simp at hm
    | one _ h =>
      obtain ⟨h1, h2⟩ := intLike_good h
      simp only [List.mem_singleton] at hm; subst hm
      exact cond_good (plainColumn_good org_ident) h1 (.column _) (by rintro (h | h) <;> cases h) (.inr (.inl h2))
    | many _ hs hy hel =>
      simp only [List.mem_singleton] at hm; subst hm
      have hv' := valueAt_plain hb hv
      exact cond_good (plainColumn_good org_ident)
        (good_tuple (scalarsOf_good (fun x hx => by cases hs <;> exact plainData_item hv' hx) hy)) (.column _)
        (by rintro (h | h) <;> cases h) (.inr (.inr (.tuple _ hel)))
    | other _ _ _ => simp at hm
  · cases hbd with
    | none _ => simp at hm
    | @both tc _ _ _ _ ht hv1 h1 hv2 h2 =>
      have key : ∀ {o : Op} {v : Val} {xs : List Val}, (o = .isNull ∨ o = .isNotNull → False) → PlainData v → BoundOf tc o v xs → ∀ c ∈ xs, Fit c := by
        intro o v xs hno hv hb c hc
        cases hb with
        | absent _ => simp at hc
        | date hd =>
          simp only [List.mem_singleton] at hc; subst hc
          exact cond_good (plainColumn_good (timeColumn_ident ht)) (scalarOf_good (keep := False) hv (.date id hd)) (.column _)
            (fun h => (hno h).elim) (.inr (.inl (.datetime _)))
      rcases List.mem_append.1 hm with hm | hm
      · exact key (by rintro (h | h) <;> cases h) (valueAt_plain hb hv1) h1 c hm
      · exact key (by rintro (h | h) <;> cases h) (valueAt_plain hb hv2) h2 c hm
  · cases hp with
    | absent _ => simp at hm
    | one _ h =>
      obtain ⟨h1, h2⟩ := intLike_good h
      simp only [List.mem_singleton] at hm; subst hm
      exact cond_good (plainColumn_good project_ident) (good_tuple (by simpa using h1)) (.column _)
        (by rintro (h | h) <;> cases h) (.inr (.inr (.tuple _ (by simpa using Element.literal _ h2))))
    | many _ hs hy hel =>
      simp only [List.mem_singleton] at hm; subst hm
      have hv' := valueAt_plain hb hw
      exact cond_good (plainColumn_good project_ident)
        (good_tuple (scalarsOf_good (fun x hx => by cases hs <;> exact plainData_item hv' hx) hy)) (.column _)
        (by rintro (h | h) <;> cases h) (.inr (.inr (.tuple _ hel)))
    | other _ _ _ => simp at hm
  · exact whereEntries_good (itemsAt_plain hb hi) hc c hm

omit U in
theorem asList_plain {v w : Val} (h : PlainData v) (ha : AsList v w) : PlainData w := by
  cases ha with
  | tuple => exact .list _ fun x hx => plainData_item h hx
  | other _ => exact h

theorem convertsItems_good : ∀ {vs xs : List Val}, (∀ v ∈ vs, PlainData v) → ConvertsItems vs xs → ∀ x ∈ xs, Fit x
  | _, _, _, .nil => by simp
  | _, _, h, .cons h1 h2 h3 => by
    intro x hx
    rcases List.mem_cons.1 hx with rfl | hx
    · exact converts_good (.inr (.inr (asList_plain (h _ (List.mem_cons_self ..)) h1))) h2
    · exact convertsItems_good (fun v hv => h v (List.mem_cons_of_mem _ hv)) h3 x hx

theorem aggregates_good : ∀ {vs xs : List Val}, (∀ v ∈ vs, PlainData v) → Aggregates vs xs → ∀ x ∈ xs, Fit x
  | _, _, _, .nil => by simp
  | _, _, h, .cons h1 h2 h3 => by
    intro x hx
    rcases List.mem_cons.1 hx with rfl | hx
    · exact converts_good (.inr (.inr (.list _ (itemsOf_plain (h _ (List.mem_cons_self ..)) h1)))) h2
    · exact aggregates_good (fun v hv => h v (List.mem_cons_of_mem _ hv)) h3 x hx

theorem selectOf_good {b : LegacyBody} {xs : List Val} (hb : PlainBody b) (h : SelectOf b xs) : ∀ x ∈ xs, Fit x := by
  obtain ⟨h1, h2, h3, h4⟩ := h
  intro x hx
  rcases List.mem_append.1 hx with hx | hx
  · exact aggregates_good (itemsAt_plain hb h1) h2 x hx
  · exact convertsItems_good (itemsAt_plain hb h3) h4 x hx

theorem groupbyOf_good {b : LegacyBody} {xs : List Val} (hb : PlainBody b) (h : GroupbyOf b xs) : ∀ x ∈ xs, Fit x := by
  cases h with
  | missing _ => simp
  | list h1 h2 => exact convertsItems_good (fun v hv => plainData_item (has_plain hb h1) hv) h2
  | single h1 _ _ h2 h3 =>
    have := converts_good (.inr (.inr (asList_plain (has_plain hb h1) h2))) h3
    simpa using this
  | empty _ _ _ => simp

omit D in
theorem orderby_good {x : Val} {d : Direction} (h : Fit x) (hc : ColOrFn x) : Fit (.orderby x d) := by
  refine ⟨.orderby _ _ _ h.built (.direction d) (mkOrderBy_iff.2 ⟨hc, rfl⟩), ?_, by simp⟩
  rw [clean_iff]
  refine ⟨not_unprintable (by simp) (by simp) (by simp), ?_⟩
  simpa [Val.children] using h.clean

theorem orderItem_good {v x : Val} {d : Direction} (h : PlainData v) (ho : OrderItem v x d) : Fit x := by
  cases ho with
  | asc _ hc => exact converts_good (.inl ⟨_, rfl⟩) hc
  | desc _ hc => exact converts_good (.inl ⟨_, rfl⟩) hc
  | listAsc _ hc => exact converts_good (.inr (.inr h)) hc
  | listDesc _ hc => exact converts_good (.inr (.inl ⟨_, _, rfl, fun x hx => plainData_item h (List.mem_cons_of_mem _ hx)⟩)) hc

theorem orderItems_good : ∀ {p : Option Val} {vs xs : List Val}, (∀ x, p = some x → Fit x) → (∀ v ∈ vs, PlainData v) → OrderItems p vs xs →
    ∀ x ∈ xs, Fit x
  | _, _, _, _, _, .nil => by simp
  | _, _, _, hp, h, .cons h1 h2 h3 => by
    have hg := orderItem_good (h _ (List.mem_cons_self ..)) h1
    intro x hx
    rcases List.mem_cons.1 hx with rfl | hx
    · exact orderby_good hg h2
    · exact orderItems_good (by intro x hx; cases hx; exact hg) (fun v hv => h v (List.mem_cons_of_mem _ hv)) h3 x hx
  | _, _, _, hp, h, .again _ _ h2 h3 => by
    have hg := hp _ rfl
    intro x hx
    rcases List.mem_cons.1 hx with rfl | hx
    · exact orderby_good hg h2
    · exact orderItems_good (by intro x hx; cases hx; exact hg) (fun v hv => h v (List.mem_cons_of_mem _ hv)) h3 x hx

/-! ### The clauses -/

omit D in
theorem good_item {x : Val} (h : Fit x) (he : Expr x) : Built x ∧ Expr x ∧ ¬ ModelMismatch x :=
  ⟨h.built, he, by rintro ⟨c, e, d, s, rfl, h1, _⟩; rw [h.free c rfl] at h1; cases h1⟩

omit U D in
theorem selectable_expr {x : Val} (h : Selectable x) : Expr x := by cases h <;> constructor

omit U D in
theorem cond_expr {x : Val} (h : Cond x) : Expr x := by cases h <;> constructor

omit U D in
theorem ordering_expr {x : Val} (h : Spec.Ordering x) : Expr x := by cases h; constructor

omit D in
theorem good_clause {x : Val} (hb : Built x) (hc : x.children = []) (h1 : ∀ bs, x ≠ .bytes bs) (h2 : ∀ t, x ≠ .datetime t)
    (h3 : ∀ b, x ≠ .extrapolate b) (h4 : ∀ c, x ≠ .column c) : Fit x := ⟨hb, clean_leaf hc h1 h2 h3, fun c h => absurd h (h4 c)⟩

/-- A clause with a list of good expressions. -/
structure FitList (v : Val) : Prop where
  items : v = .none ∨ ∃ xs, v = .list xs ∧ ∀ x ∈ xs, Fit x ∧ Expr x

/-- A clause with a good expression. -/
structure FitOne (v : Val) : Prop where
  value : v = .none ∨ (Fit v ∧ Expr v)

theorem fromBody_lists [N : PyNumberText] {b : LegacyBody} {e : Str} {c : Body} (hb : PlainBody b) (h : FromBody b e c) :
    FitList c.select ∧ FitList c.groupby ∧ FitList c.arrayJoin ∧ FitList c.where_ ∧ FitList c.having ∧ FitList c.orderby := by
  obtain ⟨⟨ss, hs1, hs2, _, hs3⟩, ⟨gs, hg1, hg2, hg3⟩, ⟨av, ha1, ha2⟩, ⟨ws, hw1, hw2⟩, ⟨hvs, hs, hh1, hh2, hh3⟩, ⟨ov, ho1, ho2⟩, _, _, _, _, _⟩ := h
  refine ⟨⟨.inr ⟨ss, hs1, fun x hx => ⟨selectOf_good hb hs2 x hx, selectable_expr (hs3 x hx)⟩⟩⟩,
    ⟨.inr ⟨gs, hg1, fun x hx => ⟨groupbyOf_good hb hg2 x hx, selectable_expr (hg3 x hx)⟩⟩⟩, ⟨?_⟩,
    ⟨.inr ⟨ws, hw1, fun x hx => ⟨whereOf_good hb hw2 x hx, cond_expr (whereOf_cond hw2 x hx)⟩⟩⟩,
    ⟨.inr ⟨hs, hh2, fun x hx => ⟨havingEntries_good (itemsAt_plain hb hh1) hh3 x hx, cond_expr (havingEntries_cond hh3 x hx)⟩⟩⟩, ⟨?_⟩⟩
  · generalize c.arrayJoin = v at ha2
    cases ha2 with
    | absent _ => exact .inl rfl
    | column _ h => exact .inr ⟨_, rfl, by simpa using ⟨columnFor_good h, Expr.column _⟩⟩
  · generalize c.orderby = v at ho2
    have hv := valueAt_plain hb ho1
    cases ho2 with
    | absent _ => exact .inl rfl
    | list _ h =>
      exact .inr ⟨_, rfl, fun x hx => ⟨orderItems_good (by simp) (fun v hm => plainData_item hv hm) h x hx,
        ordering_expr (orderItems_ordering h x hx)⟩⟩
    | single _ _ h =>
      exact .inr ⟨_, rfl, fun x hx => ⟨orderItems_good (by simp) (by simpa using hv) h x hx, ordering_expr (orderItems_ordering h x hx)⟩⟩

theorem fromBody_ones [N : PyNumberText] {b : LegacyBody} {e : Str} {c : Body} (h : FromBody b e c) :
    FitOne c.limitby ∧ FitOne c.limit ∧ FitOne c.offset ∧ FitOne c.granularity ∧ FitOne c.totals := by
  obtain ⟨_, _, _, _, _, _, ⟨lv, _, hl⟩, ⟨v1, _, h1⟩, ⟨v2, _, h2⟩, ⟨v3, _, h3⟩, ⟨v4, _, h4⟩⟩ := h
  refine ⟨⟨?_⟩, ⟨?_⟩, ⟨?_⟩, ⟨?_⟩, ⟨?_⟩⟩
  · generalize c.limitby = v at hl
    cases hl with
    | absent _ => exact .inl rfl
    | @pair _ _ c n _ _ hc hn h1 h2 =>
      refine .inr ⟨good_clause ?_ rfl (by simp) (by simp) (by simp) (by simp), .limitby ..⟩
      refine .limitby (.list [.column c]) (.int n) _ (.list _ (by simpa using (columnFor_good hc).built)) (.literal _ (.int n)) ?_
      exact (C07_limitby_accepts_iff _ _ _).2 ⟨.list, [c], .int n, .list _, by simp, .int n, h1, h2, rfl⟩
  · rcases h1 with ⟨_, h⟩ | ⟨_, h⟩
    · exact .inl h
    · generalize c.limit = v at h
      cases h with
      | limit _ n hi h1 h2 =>
        exact .inr ⟨good_clause (.limit _ _ (.literal _ (intLike_good hi).2) ((C07_limit_accepts_iff _ _).2 ⟨n, hi, h1, h2, rfl⟩)) rfl
          (by simp) (by simp) (by simp) (by simp), .limit _⟩
  · rcases h2 with ⟨_, h⟩ | ⟨_, h⟩
    · exact .inl h
    · generalize c.offset = v at h
      cases h with
      | offset _ n hi h1 =>
        exact .inr ⟨good_clause (.offset _ _ (.literal _ (intLike_good hi).2) ((C07_offset_accepts_iff _ _).2 ⟨n, hi, h1, rfl⟩)) rfl
          (by simp) (by simp) (by simp) (by simp), .offset _⟩
  · rcases h3 with ⟨_, h⟩ | ⟨_, h⟩
    · exact .inl h
    · generalize c.granularity = v at h
      cases h with
      | granularity _ n hi h1 =>
        exact .inr ⟨good_clause (.granularity _ _ (.literal _ (intLike_good hi).2) ((C07_granularity_accepts_iff _ _).2 ⟨n, hi, h1, rfl⟩)) rfl
          (by simp) (by simp) (by simp) (by simp), .granularity _⟩
  · rcases h4 with ⟨_, h⟩ | ⟨_, h⟩
    · exact .inl h
    · generalize c.totals = v at h
      cases h with
      | totals t =>
        exact .inr ⟨good_clause (.totals (.bool t) _ (.literal _ (.bool t)) ((C07_totals_extrapolate_accept_iff _ _).1.2 ⟨t, rfl, rfl⟩)) rfl
          (by simp) (by simp) (by simp) (by simp), .totals _⟩

omit D in
theorem goodList_built {v : Val} (h : FitList v) : ListClauseBuilt v := by
  rcases h.items with h | ⟨xs, rfl, hx'⟩
  · exact .inl h
  · exact .inr ⟨.list, xs, .list _, fun x hx => good_item (hx' x hx).1 (hx' x hx).2⟩

omit D in
theorem goodOne_built {v : Val} (h : FitOne v) : OptClauseBuilt v := by
  rcases h.value with h | h
  · exact .inl h
  · exact .inr (good_item h.1 h.2)

theorem fromBody_built [N : PyNumberText] {b : LegacyBody} {e : Str} {c : Body} (hb : PlainBody b) (h : FromBody b e c) : BodyBuilt c := by
  obtain ⟨h1, h2, h3, h4, h5, h6⟩ := fromBody_lists hb h
  obtain ⟨g1, g2, g3, g4, g5⟩ := fromBody_ones h
  exact ⟨goodList_built h1, goodList_built h2, goodList_built h3, goodList_built h4, goodList_built h5, goodList_built h6,
    goodOne_built g1, goodOne_built g2, goodOne_built g3, goodOne_built g4, goodOne_built g5⟩

omit D in
theorem bodyBuilt_made {c : Body} (h : BodyBuilt c) : BodyMade c := by
  have l : ∀ {v : Val}, ListClauseBuilt v → v = .none ∨ ∃ k xs, SeqOf v k xs ∧ ∀ x ∈ xs, Built x ∧ Expr x := by
    rintro v (h | ⟨k, xs, h1, h2⟩)
    · exact .inl h
    · exact .inr ⟨k, xs, h1, fun x hx => ⟨(h2 x hx).1, (h2 x hx).2.1⟩⟩
  have o : ∀ {v : Val}, OptClauseBuilt v → v = .none ∨ (Built v ∧ Expr v) := by
    rintro v (h | ⟨h1, h2, _⟩)
    · exact .inl h
    · exact .inr ⟨h1, h2⟩
  constructor
  · simp only [List.mem_cons, List.not_mem_nil, or_false, forall_eq_or_imp, forall_eq]
    exact ⟨l h.select, l h.groupby, l h.arrayJoin, l h.where_, l h.having, l h.orderby⟩
  · simp only [List.mem_cons, List.not_mem_nil, or_false, forall_eq_or_imp, forall_eq]
    exact ⟨o h.limitby, o h.limit, o h.offset, o h.granularity, o h.totals⟩

theorem fromBody_clean [N : PyNumberText] {b : LegacyBody} {e : Str} {c : Body} (hb : PlainBody b) (h : FromBody b e c) :
    ∀ x, HasItem c x → Clean x := by
  obtain ⟨h1, h2, h3, h4, h5, h6⟩ := fromBody_lists hb h
  obtain ⟨g1, g2, g3, g4, g5⟩ := fromBody_ones h
  have l : ∀ {v : Val}, FitList v → ∀ k xs, SeqOf v k xs → ∀ x ∈ xs, Clean x := by
    intro v hv k xs hs x hx
    rcases hv.items with rfl | ⟨ys, rfl, h⟩
    · cases hs
    · cases hs; exact (h x hx).1.clean
  have o : ∀ {v : Val}, FitOne v → Clean v := by
    intro v hv
    rcases hv.value with rfl | h
    · exact clean_leaf rfl (by simp) (by simp) (by simp)
    · exact h.1.clean
  rintro x (⟨v, hv, k, xs, hs, hx⟩ | hx)
  · simp only [List.mem_cons, List.not_mem_nil, or_false] at hv
    rcases hv with rfl | rfl | rfl | rfl | rfl | rfl
    · exact l h1 k xs hs x hx
    · exact l h2 k xs hs x hx
    · exact l h3 k xs hs x hx
    · exact l h4 k xs hs x hx
    · exact l h5 k xs hs x hx
    · exact l h6 k xs hs x hx
  · simp only [List.mem_cons, List.not_mem_nil, or_false] at hx
    rcases hx with rfl | rfl | rfl | rfl | rfl
    · exact o g1
    · exact o g2
    · exact o g3
    · exact o g4
    · exact o g5

end Verif
