import Verif.Props.Printing
import Verif.Spec.Part
import Verif.Props.Date
import Verif.Props.Literals

/-!
# C18: serialisation fails exactly when validation fails
-/

namespace Verif
open Spec

namespace Spec

/-- `x` is in a clause of the query, at some level. -/
def InClauses (x : Val) (q : Query) : Prop := ∃ b ∈ levels q, HasItem b x

end Spec

theorem part_iff {x v : Val} : Part x v ↔ x = v ∨ ∃ c ∈ v.children, Part x c := by
  constructor
  · intro h
    cases h with
    | here => exact .inl rfl
    | list xs y hy h => exact .inr ⟨y, hy, h⟩
    | tuple xs y hy h => exact .inr ⟨y, hy, h⟩
    | init f n ik is pk ps a y hy h => exact .inr ⟨y, List.mem_append_left _ hy, h⟩
    | param f n ik is pk ps a y hy h => exact .inr ⟨y, List.mem_append_right _ hy, h⟩
    | body k ids b h => exact .inr ⟨b, List.mem_singleton.2 rfl, h⟩
    | lhs l o r h => exact .inr ⟨l, List.mem_cons_self .., h⟩
    | rhs l o r h => exact .inr ⟨r, List.mem_cons_of_mem _ (List.mem_cons_self ..), h⟩
    | item c o k cs y hy h => exact .inr ⟨y, hy, h⟩
    | ordered e d h => exact .inr ⟨e, List.mem_singleton.2 rfl, h⟩
  · rintro (rfl | ⟨c, hc, h⟩)
    · exact .here
    · cases v <;> simp only [Val.children, List.not_mem_nil, List.mem_append, List.mem_cons, or_false] at hc
      case list xs => exact .list _ _ hc h
      case tuple xs => exact .tuple _ _ hc h
      case curried f n ik is pk ps a =>
        rcases hc with hc | hc
        · exact .init _ _ _ _ _ _ _ _ hc h
        · exact .param _ _ _ _ _ _ _ _ hc h
      case lam => subst hc; exact .body _ _ _ h
      case cond =>
        rcases hc with rfl | rfl
        · exact .lhs _ _ _ h
        · exact .rhs _ _ _ h
      case boolCond => exact .item _ _ _ _ _ hc h
      case orderby => subst hc; exact .ordered _ _ h

theorem clean_iff {v : Val} : Clean v ↔ ¬ Unprintable v ∧ ∀ c ∈ v.children, Clean c := by
  constructor
  · intro h
    exact ⟨h v .here, fun c hc x hx => h x (part_iff.2 (.inr ⟨c, hc, hx⟩))⟩
  · rintro ⟨h1, h2⟩ x hx
    rcases part_iff.1 hx with rfl | ⟨c, hc, hx⟩
    · exact h1
    · exact h2 c hc x hx

/-- A computation succeeds. -/
def Succeeds {α : Type} (r : Except Err α) : Prop := ∃ a, r = .ok a

theorem succeeds_ok {α : Type} (a : α) : Succeeds (.ok a : Except Err α) := ⟨a, rfl⟩

theorem succeeds_bind {α β : Type} {r : Except Err α} {f : α → Except Err β} (hf : ∀ a, Succeeds (f a)) :
    Succeeds (r >>= f) ↔ Succeeds r := by
  cases r with
  | ok a => exact ⟨fun _ => ⟨a, rfl⟩, fun _ => hf a⟩
  | error e => exact ⟨fun ⟨_, h⟩ => by simp at h, fun ⟨_, h⟩ => by cases h⟩

theorem succeeds_bind2 {α β γ : Type} {r : Except Err α} {s : Except Err β} {f : α → β → Except Err γ}
    (hf : ∀ a b, Succeeds (f a b)) : Succeeds (r >>= fun a => s >>= f a) ↔ Succeeds r ∧ Succeeds s := by
  cases r with
  | ok a =>
    simp only [ok_bind, succeeds_bind (hf a)]
    exact ⟨fun h => ⟨⟨a, rfl⟩, h⟩, fun h => h.2⟩
  | error e => exact ⟨fun ⟨_, h⟩ => by simp at h, fun ⟨⟨_, h⟩, _⟩ => by cases h⟩

theorem translateAll_succeeds {cfg : Cfg} : ∀ {xs : List Val},
    Succeeds (translateAll cfg xs) ↔ ∀ x ∈ xs, Succeeds (translate cfg x)
  | [] => by simp [translateAll, Succeeds]
  | x :: xs => by
    simp only [translateAll, List.mem_cons, forall_eq_or_imp, ← translateAll_succeeds (xs := xs)]
    exact succeeds_bind2 fun a b => succeeds_ok _

theorem translateInits_succeeds {cfg : Cfg} : ∀ {xs : List Val}, (∀ x ∈ xs, (∃ c, x = .column c) ∨ Literal x) →
    (Succeeds (translateInits cfg xs) ↔ ∀ x ∈ xs, Succeeds (translate cfg x))
  | [], _ => by simp [translateInits, Succeeds]
  | x :: xs, h => by
    simp only [List.mem_cons, forall_eq_or_imp] at h
    have hx : (x.isColumn || isLiteral x) = true := by
      rcases h.1 with ⟨c, rfl⟩ | h
      · rfl
      · simp [isLiteral_iff.2 h]
    simp only [translateInits, hx, if_true, List.mem_cons, forall_eq_or_imp, ← translateInits_succeeds h.2]
    exact succeeds_bind2 fun a b => succeeds_ok _

theorem translateParams_succeeds {cfg : Cfg} : ∀ {xs : List Val}, (∀ x ∈ xs, Param x ∨ Scalar x) →
    (Succeeds (translateParams cfg xs) ↔ ∀ x ∈ xs, Succeeds (translate cfg x))
  | [], _ => by simp [translateParams, Succeeds]
  | x :: xs, h => by
    simp only [List.mem_cons, forall_eq_or_imp] at h
    have hx : usesParam x = .ok true := by
      unfold usesParam
      split
      · rfl
      · rename_i hp
        rcases h.1 with hpar | hs
        · exfalso; apply hp; cases hpar <;> rfl
        · exact isScalar_true_iff.2 hs
    simp only [translateParams, hx, ok_bind, if_true, List.mem_cons, forall_eq_or_imp, ← translateParams_succeeds h.2]
    exact succeeds_bind2 fun a b => succeeds_ok _

theorem scalar_element {v : Val} (h : Scalar v) : Element v := by
  rcases h with h | h
  · exact .literal _ h
  · cases h with
    | list xs h => exact .list _ h
    | tuple xs h => exact .tuple _ h

theorem colOrFn_element {v : Val} (h : ColOrFn v) : Element v := by
  cases h <;> exact .expr _ (by constructor)

theorem param_element {v : Val} (h : Param v) : Element v := by
  cases h <;> exact .expr _ (by constructor)

theorem cond_element {v : Val} (h : Cond v) : Element v := by
  cases h <;> exact .expr _ (by constructor)

/-- A value without parts that always has a text. -/
theorem leaf_succeeds {cfg : Cfg} {v : Val} {t : Str} (ht : translate cfg v = .ok t) (hc : v.children = [])
    (hu : ¬ Unprintable v) : Succeeds (translate cfg v) ↔ Clean v := by
  rw [clean_iff, hc]
  exact ⟨fun _ => ⟨hu, by simp⟩, fun _ => ⟨t, ht⟩⟩

theorem not_unprintable {v : Val} (h1 : ∀ bs, v ≠ .bytes bs) (h2 : ∀ t, v ≠ .datetime t)
    (h3 : ∀ b, v ≠ .extrapolate b) : ¬ Unprintable v := by
  rintro (⟨bs, h, _⟩ | ⟨t, h, _⟩ | ⟨b, h⟩)
  · exact h1 _ h
  · exact h2 _ h
  · exact h3 _ h

section
variable [U : PyUnicode]

/-- A built value that may be printed has a text exactly if no part is unprintable. -/
theorem wf_translate (cfg : Cfg) {v : Val} (h : WF v) : Element v → (Succeeds (translate cfg v) ↔ Clean v) := by
  induction h with
  | literal v h =>
    intro _
    cases h with
    | bytes bs =>
      rw [clean_iff]
      constructor
      · rintro ⟨t, ht⟩
        obtain ⟨s, hs, _⟩ := (C06_bytes_literal_iff cfg bs t).1 ht
        refine ⟨?_, by simp [Val.children]⟩
        rintro (⟨bs', h, hn⟩ | ⟨_, h, _⟩ | ⟨_, h⟩) <;> cases h
        exact hn ⟨s, hs⟩
      · rintro ⟨hu, _⟩
        by_cases hs : ∃ s, IsUtf8 bs s
        · obtain ⟨s, hs⟩ := hs
          exact ⟨_, (C06_bytes_literal_iff cfg bs _).2 ⟨s, hs, rfl⟩⟩
        · exact absurd (.inl ⟨bs, rfl, hs⟩) hu
    | datetime t =>
      rw [clean_iff]
      constructor
      · intro hs
        have := (C04_succeeds_iff cfg t).1.1 hs
        refine ⟨?_, by simp [Val.children]⟩
        rintro (⟨bs', h, hn⟩ | ⟨_, h, hn⟩ | ⟨_, h⟩) <;> cases h
        exact hn this
      · rintro ⟨hu, _⟩
        by_cases hs : ∃ n, utcInstant t = some n ∧ Representable n
        · exact (C04_succeeds_iff cfg t).1.2 hs
        · exact absurd (.inr (.inl ⟨t, rfl, hs⟩)) hu
    | _ => exact leaf_succeeds rfl rfl (not_unprintable (by simp) (by simp) (by simp))
  | list xs _ ih =>
    intro he
    have hel : ∀ x ∈ xs, Element x := by
      cases he with
      | literal _ h => cases h
      | expr _ h => cases h
      | list _ h => exact h
    rw [clean_iff]
    simp only [translate, allScalar_iff.2 hel, ok_bind, succeeds_bind (fun a => succeeds_ok _), translateAll_succeeds,
      Val.children]
    exact ⟨fun h => ⟨not_unprintable (by simp) (by simp) (by simp), fun x hx => (ih x hx (hel x hx)).1 (h x hx)⟩,
      fun h x hx => (ih x hx (hel x hx)).2 (h.2 x hx)⟩
  | tuple xs _ ih =>
    intro he
    have hel : ∀ x ∈ xs, Element x := by
      cases he with
      | literal _ h => cases h
      | expr _ h => cases h
      | tuple _ h => exact h
    rw [clean_iff]
    simp only [translate, allScalar_iff.2 hel, ok_bind, succeeds_bind (fun a => succeeds_ok _), translateAll_succeeds,
      Val.children]
    exact ⟨fun h => ⟨not_unprintable (by simp) (by simp) (by simp), fun x hx => (ih x hx (hel x hx)).1 (h x hx)⟩,
      fun h x hx => (ih x hx (hel x hx)).2 (h.2 x hx)⟩
  | op | boolOp | direction | dataModel | other =>
    intro he
    cases he with
    | literal _ h => cases h
    | expr _ h => cases h
  | limit | offset | granularity | totals | column | aliased | ident | entity | storage | rel | join | limitby =>
    intro _
    exact leaf_succeeds rfl rfl (not_unprintable (by simp) (by simp) (by simp))
  | extrapolate b =>
    intro _
    rw [clean_iff]
    exact ⟨fun ⟨_, h⟩ => by simp [translate] at h, fun h => absurd (.inr (.inr ⟨b, rfl⟩)) h.1⟩
  | curried isFn n ik inits pk params a _ _ hi hp _ _ _ _ ih1 ih2 =>
    intro _
    have e1 : ∀ x ∈ inits, Element x := fun x hx => by
      rcases hi x hx with ⟨c, rfl⟩ | h
      · exact .expr _ (.column _)
      · exact .literal _ h
    have e2 : ∀ x ∈ params, Element x := fun x hx => by
      rcases hp x hx with h | h
      · exact param_element h
      · exact scalar_element h
    rw [clean_iff]
    simp only [translate, succeeds_bind2 (fun a b => succeeds_ok _), translateInits_succeeds hi,
      translateParams_succeeds hp, Val.children, List.mem_append]
    constructor
    · rintro ⟨h1, h2⟩
      refine ⟨not_unprintable (by simp) (by simp) (by simp), ?_⟩
      rintro x (hx | hx)
      · exact (ih1 x hx (e1 x hx)).1 (h1 x hx)
      · exact (ih2 x hx (e2 x hx)).1 (h2 x hx)
    · rintro ⟨_, h⟩
      exact ⟨fun x hx => (ih1 x hx (e1 x hx)).2 (h x (.inl hx)), fun x hx => (ih2 x hx (e2 x hx)).2 (h x (.inr hx))⟩
  | lam k ids body _ _ hb ih =>
    intro _
    have e : Element body := by cases body <;> simp [Val.isCurried] at hb; exact .expr _ (.curried ..)
    rw [clean_iff]
    simp only [translate, succeeds_bind (fun a => succeeds_ok _), Val.children, List.mem_singleton, forall_eq, ih e]
    exact ⟨fun h => ⟨not_unprintable (by simp) (by simp) (by simp), h⟩, fun h => h.2⟩
  | cond l o r _ _ hl hu hr ih1 ih2 =>
    intro _
    have e1 := colOrFn_element hl
    have e2 : Element r := by
      rcases hr with h | h
      · exact colOrFn_element h
      · exact scalar_element h
    have hrhs : Succeeds (rhsText o r (translate cfg r)) ↔ Succeeds (translate cfg r) := by
      unfold rhsText
      by_cases hun : isUnary o = true
      · rw [hu (isUnary_iff.1 hun)]
        simp only [hun, if_true]
        exact ⟨fun _ => ⟨_, rfl⟩, fun _ => ⟨_, rfl⟩⟩
      · simp only [hun, if_false, Bool.false_eq_true]
        rcases hr with h | h
        · simp only [isColOrFn_iff.2 h, if_true, succeeds_bind (fun a => succeeds_ok _)]
        · split
          · simp only [succeeds_bind (fun a => succeeds_ok _)]
          · simp only [isScalar_true_iff.2 h, ok_bind, if_true, succeeds_bind (fun a => succeeds_ok _)]
    rw [clean_iff]
    simp only [translate, succeeds_bind2 (fun a b => succeeds_ok _), hrhs, Val.children, List.mem_cons,
      List.not_mem_nil, or_false, forall_eq_or_imp, forall_eq, ih1 e1, ih2 e2]
    exact ⟨fun h => ⟨not_unprintable (by simp) (by simp) (by simp), h.2, h.1⟩, fun h => ⟨h.2.2, h.2.1⟩⟩
  | boolCond cls o k cs _ hc _ _ _ ih =>
    intro _
    rw [clean_iff]
    simp only [translate, succeeds_bind (fun a => succeeds_ok _), translateAll_succeeds, Val.children]
    exact ⟨fun h => ⟨not_unprintable (by simp) (by simp) (by simp),
        fun x hx => (ih x hx (cond_element (hc x hx))).1 (h x hx)⟩,
      fun h x hx => (ih x hx (cond_element (hc x hx))).2 (h.2 x hx)⟩
  | orderby e d _ he ih =>
    intro _
    rw [clean_iff]
    simp only [translate, succeeds_bind (fun a => succeeds_ok _), Val.children, List.mem_singleton, forall_eq,
      ih (colOrFn_element he)]
    exact ⟨fun h => ⟨not_unprintable (by simp) (by simp) (by simp), h⟩, fun h => h.2⟩

/-- A list clause whose items are structurally sound. -/
def ListSound (v : Val) : Prop := v = .none ∨ ∃ k xs, SeqOf v k xs ∧ ∀ x ∈ xs, WF x ∧ Element x

/-- A single-value clause that is structurally sound. -/
def OptSound (v : Val) : Prop := v = .none ∨ (WF v ∧ Element v)

/-- All clauses are structurally sound. -/
def BodySound (b : Body) : Prop :=
  (∀ v ∈ [b.select, b.groupby, b.arrayJoin, b.where_, b.having, b.orderby], ListSound v) ∧
  (∀ v ∈ [b.limitby, b.limit, b.offset, b.granularity, b.totals], OptSound v)

theorem listClause_succeeds {cfg : Cfg} {kw sep : Str} {v : Val} (h : ListSound v) :
    Succeeds (listClause cfg kw sep v) ↔ ∀ k xs, SeqOf v k xs → ∀ x ∈ xs, Clean x := by
  rcases h with rfl | ⟨k, xs, hs, hx⟩
  · exact ⟨fun _ k xs hs => (by cases hs), fun _ => ⟨_, rfl⟩⟩
  · have hiff : (∀ k xs, SeqOf v k xs → ∀ x ∈ xs, Clean x) ↔ ∀ x ∈ xs, Clean x :=
      ⟨fun h => h k xs hs, fun h k' xs' hs' => hs.unique hs' ▸ h⟩
    rw [hiff]
    unfold listClause
    split
    · simp only [Val.iter, hs.seq, ok_bind, succeeds_bind (fun a => succeeds_ok _), translateAll_succeeds]
      exact ⟨fun h x hxs => (wf_translate cfg (hx x hxs).1 (hx x hxs).2).1 (h x hxs),
        fun h x hxs => (wf_translate cfg (hx x hxs).1 (hx x hxs).2).2 (h x hxs)⟩
    · rename_i ht
      have : xs = [] := by
        cases hs <;> simpa [Val.truthy] using ht
      subst this
      exact ⟨fun _ => by simp, fun _ => ⟨_, rfl⟩⟩

omit U in
theorem clean_none : Clean .none := by
  rw [clean_iff]
  exact ⟨not_unprintable (by simp) (by simp) (by simp), by simp [Val.children]⟩

theorem optClause_succeeds {cfg : Cfg} {kw : Str} {v : Val} (h : OptSound v) :
    Succeeds (optClause cfg kw v) ↔ Clean v := by
  by_cases hv : v = .none
  · subst hv; exact ⟨fun _ => clean_none, fun _ => ⟨_, rfl⟩⟩
  · have hw := h.resolve_left hv
    have he : optClause cfg kw v = (do let t ← translate cfg v; .ok (kw ++ [' '] ++ t)) := by
      cases v <;> first | exact absurd rfl hv | rfl
    rw [he, succeeds_bind (fun a => succeeds_ok _)]
    exact wf_translate cfg hw.1 hw.2

omit U in
theorem succeeds_seq {α β : Type} {r : Except Err α} {f : α → Except Err β} {P : Prop}
    (hf : ∀ a, Succeeds (f a) ↔ P) : Succeeds (r >>= f) ↔ Succeeds r ∧ P := by
  cases r with
  | ok a => simp only [ok_bind, hf a]; exact ⟨fun h => ⟨⟨a, rfl⟩, h⟩, fun h => h.2⟩
  | error e => exact ⟨fun ⟨_, h⟩ => by simp at h, fun ⟨⟨_, h⟩, _⟩ => by cases h⟩

theorem bodyClauses_succeeds {cfg : Cfg} {b : Body} (h : BodySound b) :
    Succeeds (bodyClauses cfg b) ↔ ∀ x, HasItem b x → Clean x := by
  obtain ⟨hl, ho⟩ := h
  simp only [List.mem_cons, List.not_mem_nil, or_false, forall_eq_or_imp, forall_eq] at hl ho
  obtain ⟨l1, l2, l3, l4, l5, l6⟩ := hl
  obtain ⟨o1, o2, o3, o4, o5⟩ := ho
  have : Succeeds (bodyClauses cfg b) ↔
      Succeeds (listClause cfg c!"SELECT" c!", " b.select) ∧ Succeeds (listClause cfg c!"BY" c!", " b.groupby) ∧
      Succeeds (listClause cfg c!"ARRAY JOIN" c!", " b.arrayJoin) ∧
      Succeeds (listClause cfg c!"WHERE" c!" AND " b.where_) ∧
      Succeeds (listClause cfg c!"HAVING" c!" AND " b.having) ∧
      Succeeds (listClause cfg c!"ORDER BY" c!", " b.orderby) ∧ Succeeds (optClause cfg c!"LIMIT" b.limitby) ∧
      Succeeds (optClause cfg c!"LIMIT" b.limit) ∧ Succeeds (optClause cfg c!"OFFSET" b.offset) ∧
      Succeeds (optClause cfg c!"GRANULARITY" b.granularity) ∧ Succeeds (optClause cfg c!"TOTALS" b.totals) := by
    unfold bodyClauses
    repeat (refine succeeds_seq fun _ => ?_)
    exact succeeds_bind fun _ => succeeds_ok _
  rw [this, listClause_succeeds l1, listClause_succeeds l2, listClause_succeeds l3, listClause_succeeds l4,
    listClause_succeeds l5, listClause_succeeds l6, optClause_succeeds o1, optClause_succeeds o2,
    optClause_succeeds o3, optClause_succeeds o4, optClause_succeeds o5]
  simp only [HasItem, List.mem_cons, List.not_mem_nil, or_false]
  constructor
  · rintro ⟨c1, c2, c3, c4, c5, c6, c7, c8, c9, c10, c11⟩ x (⟨v, hv, k, xs, hs, hx⟩ | hx)
    · rcases hv with rfl | rfl | rfl | rfl | rfl | rfl
      · exact c1 k xs hs x hx
      · exact c2 k xs hs x hx
      · exact c3 k xs hs x hx
      · exact c4 k xs hs x hx
      · exact c5 k xs hs x hx
      · exact c6 k xs hs x hx
    · rcases hx with rfl | rfl | rfl | rfl | rfl <;> assumption
  · intro hc
    refine ⟨?_, ?_, ?_, ?_, ?_, ?_, hc _ (.inr (.inl rfl)), hc _ (.inr (.inr (.inl rfl))),
      hc _ (.inr (.inr (.inr (.inl rfl)))), hc _ (.inr (.inr (.inr (.inr (.inl rfl))))),
      hc _ (.inr (.inr (.inr (.inr (.inr rfl)))))⟩ <;> intro k xs hs x hx
    · exact hc x (.inl ⟨_, .inl rfl, k, xs, hs, hx⟩)
    · exact hc x (.inl ⟨_, .inr (.inl rfl), k, xs, hs, hx⟩)
    · exact hc x (.inl ⟨_, .inr (.inr (.inl rfl)), k, xs, hs, hx⟩)
    · exact hc x (.inl ⟨_, .inr (.inr (.inr (.inl rfl))), k, xs, hs, hx⟩)
    · exact hc x (.inl ⟨_, .inr (.inr (.inr (.inr (.inl rfl)))), k, xs, hs, hx⟩)
    · exact hc x (.inl ⟨_, .inr (.inr (.inr (.inr (.inr rfl)))), k, xs, hs, hx⟩)

/-- The match of the innermost query is an entity, a storage or a join. -/
def MatchOk : Query → Prop
  | .base m _ => m.isMatch = true
  | .nested q _ => MatchOk q

theorem validated_match {q : Query} (h : q.validate = .ok ()) : MatchOk q := by
  induction q with
  | base m b =>
    have := (base_validate_iff.1 h).2.2.1
    simp only [validateMatchBase, bind_eq_ok] at this
    obtain ⟨_, _, h⟩ := this
    cases m <;> simp only [reduceCtorEq] at h <;> rfl
  | nested q b ih => exact ih (nested_validate_iff.1 h).1

theorem printQuery_succeeds {q : Query} : ∀ {sep : Str}, (∀ b ∈ levels q, BodySound b) → MatchOk q →
    (Succeeds (printQuery sep q) ↔ ∀ x, InClauses x q → Clean x) := by
  induction q with
  | base m b =>
    intro sep hb hm
    have ht : ∃ t, translate ⟨m.isJoin, false⟩ m = .ok t := by
      simp only [MatchOk] at hm
      cases m <;> simp [Val.isMatch] at hm <;> exact ⟨_, rfl⟩
    obtain ⟨t, ht⟩ := ht
    simp only [printQuery, ht, ok_bind, succeeds_bind (fun a => succeeds_ok _),
      bodyClauses_succeeds (hb b (by simp [levels])), InClauses, levels, List.mem_singleton]
    exact ⟨fun h x ⟨b', hb, hx⟩ => h x (hb ▸ hx), fun h x hx => h x ⟨b, rfl, hx⟩⟩
  | nested q b ih =>
    intro sep hb hm
    simp only [printQuery, succeeds_bind2 (fun a b => succeeds_ok _),
      bodyClauses_succeeds (hb b (by simp [levels])), ih (fun b' h => hb b' (by simp [levels, h])) hm,
      InClauses, levels, List.mem_cons]
    constructor
    · rintro ⟨h1, h2⟩ x ⟨b', rfl | hb', hx⟩
      · exact h2 x hx
      · exact h1 x ⟨b', hb', hx⟩
    · intro h
      exact ⟨fun x ⟨b', hb', hx⟩ => h x ⟨b', .inr hb', hx⟩, fun x hx => h x ⟨b, .inl rfl, hx⟩⟩

/-- The clauses hold None, lists or tuples of SDK-made expressions, or SDK-made expressions. -/
structure Spec.BodyMade (b : Body) : Prop where
  lists : ∀ v ∈ [b.select, b.groupby, b.arrayJoin, b.where_, b.having, b.orderby],
    v = .none ∨ ∃ k xs, SeqOf v k xs ∧ ∀ x ∈ xs, Built x ∧ Expr x
  single : ∀ v ∈ [b.limitby, b.limit, b.offset, b.granularity, b.totals], v = .none ∨ (Built v ∧ Expr v)

theorem made_sound {b : Body} (h : BodyMade b) : BodySound b := by
  constructor
  · intro v hv
    rcases h.lists v hv with h | ⟨k, xs, hs, hx⟩
    · exact .inl h
    · exact .inr ⟨k, xs, hs, fun x hm => ⟨built_wf (hx x hm).1, .expr _ (hx x hm).2⟩⟩
  · intro v hv
    rcases h.single v hv with h | h
    · exact .inl h
    · exact .inr ⟨built_wf h.1, .expr _ h.2⟩

/-- **C18** (failure): what validation raises, `serialize` and `print` raise. -/
theorem C18_invalid_raises (q : Query) (e : Err) (h : q.validate = .error e) :
    q.serialize = .error e ∧ q.print = .error e := by
  simp [Query.serialize, Query.print, h]

/-- **C18** (`print`): a valid query made of SDK expressions is printed exactly if no part of a clause is
unprintable. -/
theorem C18_print_iff (q : Query) (hb : ∀ b ∈ levels q, BodyMade b) (hv : q.validate = .ok ()) :
    (∃ t, q.print = .ok t) ↔ ∀ x, InClauses x q → Clean x := by
  simp only [Query.print, hv, ok_bind]
  exact printQuery_succeeds (fun b h => made_sound (hb b h)) (validated_match hv)

omit U in
theorem mergeable_parts {c l : Val} {rs : List Val} (h : Mergeable c l rs) :
    (∃ cls o k cs r, c = .boolCond cls o k cs ∧ .cond l .eq r ∈ cs) ∧
    ∀ r ∈ rs, ∃ cls o k cs l', c = .boolCond cls o k cs ∧ .cond l' .eq r ∈ cs := by
  obtain ⟨cls, k, r₀, rest, rs', rfl, rfl, hp⟩ := h
  refine ⟨⟨_, _, _, _, _, rfl, List.mem_cons_self ..⟩, ?_⟩
  intro r hr
  simp only [List.mem_cons] at hr
  rcases hr with rfl | hr
  · exact ⟨_, _, _, _, _, rfl, List.mem_cons_self ..⟩
  · have : ∃ l', .cond l' .eq r ∈ rest := by
      induction hp with
      | nil => cases hr
      | cons x y xs ys hxy _ ih =>
        rcases List.mem_cons.1 hr with rfl | hr
        · obtain ⟨l', rfl, _⟩ := hxy
          exact ⟨l', List.mem_cons_self ..⟩
        · obtain ⟨l', h⟩ := ih hr
          exact ⟨l', List.mem_cons_of_mem _ h⟩
    obtain ⟨l', hl⟩ := this
    exact ⟨_, _, _, _, _, rfl, List.mem_cons_of_mem _ hl⟩

theorem rewritten_all {xs new : List Val}
    (sound : ∀ {c c' : Val}, WF c → Element c → Rewritten c c' → (WF c' ∧ Element c') ∧ (Clean c → Clean c'))
    (hrew : Paired Rewritten xs new) (hxs : ∀ x ∈ xs, Built x ∧ Expr x) (hxc : ∀ x ∈ xs, Clean x) :
    ∀ x' ∈ new, (WF x' ∧ Element x') ∧ Clean x' := by
  induction hrew with
  | nil => simp
  | cons c c' cs cs' h1 _ ih =>
    simp only [List.mem_cons, forall_eq_or_imp] at hxs hxc ⊢
    obtain ⟨r1, r2⟩ := sound (built_wf hxs.1.1) (.expr _ hxs.1.2) h1
    exact ⟨⟨r1, r2 hxc.1⟩, ih hxs.2 hxc.2⟩

theorem wf_cond_inv {l r : Val} {o : Op} (h : WF (.cond l o r)) : WF l ∧ WF r ∧ ColOrFn l ∧
    (ColOrFn r ∨ Scalar r) := by
  cases h with
  | literal _ h => cases h
  | cond _ _ _ h1 h2 h3 _ h4 => exact ⟨h1, h2, h3, h4⟩

/-- What the optimiser puts in is sound, and clean if the original is. -/
theorem rewritten_sound {c c' : Val} (hw : WF c) (he : Element c) (h : Rewritten c c') :
    (WF c' ∧ Element c') ∧ (Clean c → Clean c') := by
  rcases h with ⟨l, rs, hm, rfl⟩ | ⟨_, rfl⟩
  · obtain ⟨⟨cls, o, k, cs, r, hc, hl⟩, hr⟩ := mergeable_parts hm
    have hwl := wf_cond_inv (wf_bool_items (hc ▸ hw) _ hl)
    have hwr : ∀ r ∈ rs, WF r ∧ Element r := by
      intro r hrm
      obtain ⟨_, _, _, _, _, rfl, hl⟩ := hr r hrm
      have := wf_cond_inv (wf_bool_items hw _ hl)
      refine ⟨this.2.1, ?_⟩
      rcases this.2.2.2 with h | h
      · exact colOrFn_element h
      · exact scalar_element h
    refine ⟨⟨.cond _ _ _ hwl.1 (.list _ fun r hr => (hwr r hr).1) hwl.2.2.1 (by rintro (h | h) <;> cases h)
      (.inr (.inr (.list _ fun r hr => (hwr r hr).2))), .expr _ (.cond ..)⟩, ?_⟩
    intro hcl
    have part : ∀ {y}, y ∈ cs → ∀ x, Part x y → ¬ Unprintable x := fun {y} hy x hx =>
      hcl x (hc ▸ .item _ _ _ _ _ hy hx)
    rw [clean_iff]
    refine ⟨not_unprintable (by simp) (by simp) (by simp), ?_⟩
    simp only [Val.children, List.mem_cons, List.not_mem_nil, or_false, forall_eq_or_imp, forall_eq]
    refine ⟨fun x hx => part hl x (.lhs _ _ _ hx), ?_⟩
    rw [clean_iff]
    refine ⟨not_unprintable (by simp) (by simp) (by simp), ?_⟩
    intro r hrm x hx
    obtain ⟨_, _, _, _, _, hc', hl⟩ := hr r hrm
    exact hcl x (hc' ▸ .item _ _ _ _ _ hl (.rhs _ _ _ hx))
  · exact ⟨⟨hw, he⟩, id⟩

/-- **C18** (`serialize`): a valid query made of SDK expressions, no part of which is unprintable, is
serialised. -/
theorem C18_valid_serialises (q : Query) (hb : ∀ b ∈ levels q, BodyMade b) (hv : q.validate = .ok ())
    (hc : ∀ x, InClauses x q → Clean x) : ∃ t, q.serialize = .ok t := by
  have hq : q.body ∈ levels q := by cases q <;> simp [levels, Query.body]
  have hmade := hb _ hq
  have ho : ∃ o, q.optimize = .ok o := by
    unfold Query.optimize
    have hw := hmade.lists q.body.where_ (by simp)
    rcases hw with hw | ⟨k, xs, hs, hx⟩
    · rw [hw]; exact ⟨_, rfl⟩
    · obtain ⟨r, hr, _⟩ := C30_total_and_none_iff xs (fun c hc => (hx c hc).1)
      have hset : ∃ o, q.withBody { q.body with where_ := .list (r.getD []) } = .ok o := by
        cases q with
        | base m b =>
          have := validated_match hv
          simp only [MatchOk] at this
          exact ⟨_, by simp only [Query.withBody, mkQuery, this, if_true]; rfl⟩
        | nested i b =>
          have := (nested_validate_iff.1 hv).1
          exact ⟨_, by simp only [Query.withBody, mkNested, this]; rfl⟩
      generalize q.body.where_ = w at hs
      cases r with
      | none => cases hs <;> exact ⟨q, by simp [Val.iter, Val.seq?, hr]⟩
      | some new =>
        obtain ⟨o, ho⟩ := hset
        cases hs <;> exact ⟨o, by simp [Val.iter, Val.seq?, hr]; exact ho⟩
  obtain ⟨o, ho⟩ := ho
  simp only [Query.serialize, hv, ok_bind, ho]
  have hs := validated_allShaped hv
  obtain ⟨w, rfl, hw⟩ := optimize_put (hs _ hq) ho
  have hput : (∀ x, HasItem (putWhere w q).body x → Clean x) ∧ BodySound (putWhere w q).body := by
    have e1 : (putWhere w q).body = { q.body with where_ := w } := by cases q <;> rfl
    have hso := made_sound hmade
    have hcl : ∀ x, HasItem q.body x → Clean x := fun x hx => hc x ⟨_, hq, hx⟩
    rw [e1]
    rcases hw with rfl | ⟨k, xs, new, hk, hopt, rfl, _⟩
    · exact ⟨hcl, hso⟩
    · have hxs : ∀ x ∈ xs, Built x ∧ Expr x := by
        rcases hmade.lists q.body.where_ (by simp) with h | ⟨k', xs', hk', h⟩
        · rw [h] at hk; cases hk
        · rw [hk.unique hk']; exact h
      have hrew := (optimize_some (fun c hc => (hxs c hc).1) hopt).1
      have key : ∀ x' ∈ new, (WF x' ∧ Element x') ∧ Clean x' :=
        rewritten_all rewritten_sound hrew hxs fun x hx =>
          hcl x (.inl ⟨q.body.where_, by simp, k, xs, hk, hx⟩)
      constructor
      · rintro x (⟨v, hv, k', ys, hs', hx⟩ | hx)
        · simp only [List.mem_cons, List.not_mem_nil, or_false] at hv
          rcases hv with rfl | rfl | rfl | rfl | rfl | rfl
          · exact hcl x (.inl ⟨_, by simp, k', ys, hs', hx⟩)
          · exact hcl x (.inl ⟨q.body.groupby, by simp, k', ys, hs', hx⟩)
          · exact hcl x (.inl ⟨q.body.arrayJoin, by simp, k', ys, hs', hx⟩)
          · cases hs'; exact (key x hx).2
          · exact hcl x (.inl ⟨q.body.having, by simp, k', ys, hs', hx⟩)
          · exact hcl x (.inl ⟨q.body.orderby, by simp, k', ys, hs', hx⟩)
        · exact hcl x (.inr hx)
      · constructor
        · intro v hv
          simp only [List.mem_cons, List.not_mem_nil, or_false] at hv
          rcases hv with rfl | rfl | rfl | rfl | rfl | rfl
          · exact hso.1 _ (by simp)
          · exact hso.1 _ (by simp)
          · exact hso.1 _ (by simp)
          · exact .inr ⟨_, _, .list new, fun x hx => (key x hx).1⟩
          · exact hso.1 _ (by simp)
          · exact hso.1 _ (by simp)
        · exact hso.2
  refine (printQuery_succeeds (q := putWhere w q) ?_ ?_).2 ?_
  · intro b hbl
    cases q with
    | base m b' =>
      simp only [putWhere, levels, List.mem_singleton] at hbl
      subst hbl; exact hput.2
    | nested i b' =>
      simp only [putWhere, levels, List.mem_cons] at hbl
      rcases hbl with rfl | hbl
      · exact hput.2
      · exact made_sound (hb b (by simp [levels, hbl]))
  · have := validated_match hv
    cases q <;> exact this
  · rintro x ⟨b, hbl, hx⟩
    cases q with
    | base m b' =>
      simp only [putWhere, levels, List.mem_singleton] at hbl
      subst hbl; exact hput.1 x hx
    | nested i b' =>
      simp only [putWhere, levels, List.mem_cons] at hbl
      rcases hbl with rfl | hbl
      · exact hput.1 x hx
      · exact hc x ⟨b, by simp [levels, hbl], hx⟩

end

section Examples
open Ex

/-- C18: a query that is rejected: no select. -/
example : (Query.base (.entity events) {}).validate = .error .invalidQuery ∧
    (Query.base (.entity events) {}).serialize = .error .invalidQuery := ⟨rfl, rfl⟩

theorem Ex.inner_made : ∀ b ∈ levels inner, @BodyMade asciiUnicode b := by
  intro b hb
  simp only [inner, levels, List.mem_singleton] at hb
  subst hb
  constructor
  · intro v hv
    simp only [body, List.mem_cons, List.not_mem_nil, or_false] at hv
    rcases hv with rfl | rfl | rfl | rfl | rfl | rfl
    · refine .inr ⟨_, _, .list _, ?_⟩
      intro x hx
      simp only [List.mem_cons, List.not_mem_nil, or_false] at hx
      rcases hx with rfl | rfl
      · exact ⟨col_built _ rfl, .column _⟩
      · exact ⟨count_built, .curried ..⟩
    all_goals exact .inl rfl
  · intro v hv
    simp only [body, List.mem_cons, List.not_mem_nil, or_false] at hv
    rcases hv with rfl | rfl | rfl | rfl | rfl <;> exact .inl rfl

/-- C18: the hypotheses of the theorems hold for the example subquery. -/
example : (∀ b ∈ levels inner, @BodyMade asciiUnicode b) ∧ inner.validate = .ok () ∧
    inner.serialize = .ok c!"MATCH (events) SELECT a, count(x) AS `n`" := ⟨inner_made, rfl, rfl⟩

/-- C18: and its clauses are clean. -/
example : ∀ x, InClauses x inner → Clean x :=
  (C18_print_iff inner inner_made rfl).1 ⟨_, rfl⟩

/-- C18: a valid query with undecodable bytes is not serialised. -/
example : failing.validate = .ok () ∧ failing.serialize = .error .unicodeDecodeError := ⟨rfl, rfl⟩

end Examples

end Verif
