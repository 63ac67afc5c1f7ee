import Verif.Lemmas.ValInd
import Verif.Lemmas.WF
import Verif.Spec.Columns

/-!
# The column finder
-/

namespace Verif
open Spec

theorem findInAll_mem {c : ColumnObj} : ∀ {xs : List Val} {cs : List ColumnObj},
    (∀ x ∈ xs, ∀ cs, findColumns x = .ok cs → (c ∈ cs ↔ Occurs c x)) →
    findInAll xs = .ok cs → (c ∈ cs ↔ ∃ x ∈ xs, Occurs c x)
  | [], cs, _, h => by simp [findInAll] at h; subst h; simp
  | x :: xs, cs, ih, h => by
    simp only [findInAll, bind_eq_ok] at h
    obtain ⟨a, ha, b, hb, h⟩ := h
    cases h
    simp only [List.mem_cons, forall_eq_or_imp] at ih
    simp only [List.mem_append, ih.1 _ ha, findInAll_mem ih.2 hb, List.mem_cons, exists_eq_or_imp]

theorem occurs_expr {c : ColumnObj} {v : Val} (h : Occurs c v) : v.isExpression = true := by
  cases h <;> rfl

theorem findInExprs_mem {c : ColumnObj} : ∀ {xs : List Val} {cs : List ColumnObj},
    (∀ x ∈ xs, ∀ cs, findColumns x = .ok cs → (c ∈ cs ↔ Occurs c x)) →
    findInExprs xs = .ok cs → (c ∈ cs ↔ ∃ x ∈ xs, Occurs c x)
  | [], cs, _, h => by simp [findInExprs] at h; subst h; simp
  | x :: xs, cs, ih, h => by
    simp only [List.mem_cons, forall_eq_or_imp] at ih
    simp only [findInExprs] at h
    split at h
    · simp only [bind_eq_ok] at h
      obtain ⟨a, ha, b, hb, h⟩ := h
      cases h
      simp only [List.mem_append, ih.1 _ ha, findInExprs_mem ih.2 hb, List.mem_cons, exists_eq_or_imp]
    · rename_i hx
      have : ¬ Occurs c x := fun ho => hx (occurs_expr ho)
      simp only [findInExprs_mem ih.2 h, List.mem_cons, exists_eq_or_imp, this, false_or]

theorem isUnary_iff {o : Op} : isUnary o = true ↔ o = .isNull ∨ o = .isNotNull := by
  cases o <;> simp [isUnary]

/-- The finder is exact. -/
theorem findColumns_mem {c : ColumnObj} (v : Val) :
    ∀ cs, findColumns v = .ok cs → (c ∈ cs ↔ Occurs c v) := by
  induction v using Val.childInd with
  | step v ih =>
    intro cs h
    have triv : (∀ x, ¬ Occurs c x → findColumns x = .ok [] → True) := fun _ _ _ => True.intro
    cases v <;> simp only [findColumns, reduceCtorEq, Except.ok.injEq] at h
    case column d =>
      subst h; simp only [List.mem_singleton]
      exact ⟨by rintro rfl; exact .column, by intro h; cases h; rfl⟩
    case aliased d a =>
      subst h; simp only [List.mem_singleton]
      exact ⟨by rintro rfl; exact .aliased a, by intro h; cases h; rfl⟩
    case curried f n ik is pk ps a =>
      simp only [bind_eq_ok] at h
      obtain ⟨x, hx, y, hy, h⟩ := h
      cases h
      simp only [Val.children, List.mem_append] at ih
      rw [List.mem_append, findInExprs_mem (fun z hz => ih z (.inl hz)) hx,
        findInExprs_mem (fun z hz => ih z (.inr hz)) hy]
      constructor
      · rintro (⟨z, hz, ho⟩ | ⟨z, hz, ho⟩)
        · exact .init _ _ _ _ _ _ _ z hz ho
        · exact .param _ _ _ _ _ _ _ z hz ho
      · intro h
        cases h with
        | init _ _ _ _ _ _ _ z hz ho => exact .inl ⟨z, hz, ho⟩
        | param _ _ _ _ _ _ _ z hz ho => exact .inr ⟨z, hz, ho⟩
    case lam k is b =>
      rw [ih b (by simp [Val.children]) cs h]
      exact ⟨.lam k is b, by intro h; cases h; assumption⟩
    case cond l o r =>
      simp only [bind_eq_ok] at h
      obtain ⟨x, hx, h⟩ := h
      have il := ih l (by simp [Val.children]) x hx
      split at h
      · rename_i hr
        simp only [Bool.and_eq_true, Bool.not_eq_true'] at hr
        obtain ⟨y, hy, h⟩ := bind_eq_ok.1 h
        cases h
        have ir := ih r (by simp [Val.children]) y hy
        rw [List.mem_append, il, ir]
        constructor
        · rintro (h | h)
          · exact .condL _ _ _ h
          · refine .condR _ _ _ ?_ ?_ h
            · rintro rfl; simp [isUnary] at hr
            · rintro rfl; simp [isUnary] at hr
        · intro h
          cases h with
          | condL _ _ _ h => exact .inl h
          | condR _ _ _ _ _ h => exact .inr h
      · rename_i hr
        cases h
        rw [il]
        constructor
        · exact .condL _ _ _
        · intro h
          cases h with
          | condL _ _ _ h => exact h
          | condR _ _ _ h1 h2 h =>
            exfalso; apply hr
            have hu : isUnary o = false := by
              cases hh : isUnary o with
              | false => rfl
              | true => rcases isUnary_iff.1 hh with h' | h'
                        · exact absurd h' h1
                        · exact absurd h' h2
            simp [hu, occurs_expr h]
    case boolCond cls o k xs =>
      rw [findInAll_mem (fun z hz => ih z (by simpa [Val.children] using hz)) h]
      constructor
      · rintro ⟨z, hz, ho⟩; exact .bool _ _ _ _ z hz ho
      · intro h; cases h with
        | bool _ _ _ _ z hz ho => exact ⟨z, hz, ho⟩
    case orderby e d =>
      rw [ih e (by simp [Val.children]) cs h]
      exact ⟨.orderby e d, by intro h; cases h; assumption⟩
    case limitby k cols n =>
      subst h
      exact ⟨.limitby _ _ _, by intro h; cases h; assumption⟩
    case list xs =>
      obtain ⟨_, _, h⟩ := bind_eq_ok.1 h
      cases h; simp only [List.not_mem_nil, false_iff]; intro h; cases h
    case tuple xs =>
      obtain ⟨_, _, h⟩ := bind_eq_ok.1 h
      cases h; simp only [List.not_mem_nil, false_iff]; intro h; cases h
    all_goals (subst h; simp only [List.not_mem_nil, false_iff]; intro h; cases h)

theorem searchTerms_mem {c : ColumnObj} {v : Val} {cs : List ColumnObj} (h : searchTerms v = .ok cs) :
    c ∈ cs ↔ OccursInList c v := by
  unfold searchTerms at h
  split at h
  · obtain ⟨xs, hx, h⟩ := bind_eq_ok.1 h
    rw [findInAll_mem (fun x _ => findColumns_mem x) h]
    cases v <;> simp only [Val.iter, Val.seq?, reduceCtorEq, Except.ok.injEq] at hx <;> subst hx
    · constructor
      · rintro ⟨x, hx, ho⟩; simp at hx; obtain ⟨_, _, rfl⟩ := hx; cases ho
      · rintro ⟨_, _, hs, _⟩; cases hs
    · constructor
      · rintro ⟨x, hx, ho⟩; simp at hx; obtain ⟨_, _, rfl⟩ := hx; cases ho
      · rintro ⟨_, _, hs, _⟩; cases hs
    · exact ⟨fun h => ⟨_, _, .list _, h⟩, by rintro ⟨_, _, hs, h⟩; cases hs; exact h⟩
    · exact ⟨fun h => ⟨_, _, .tuple _, h⟩, by rintro ⟨_, _, hs, h⟩; cases hs; exact h⟩
  · rename_i ht
    cases h
    simp only [List.not_mem_nil, false_iff]
    rintro ⟨_, _, hs, x, hx, _⟩
    cases hs <;> (simp [Val.truthy] at ht; subst ht; simp at hx)

theorem searchOne_mem {c : ColumnObj} {v : Val} {cs : List ColumnObj} (h : searchOne v = .ok cs) :
    c ∈ cs ↔ Occurs c v := by
  unfold searchOne at h
  split at h
  · exact findColumns_mem v cs h
  · rename_i ht
    cases h
    simp only [List.not_mem_nil, false_iff]
    intro ho; cases ho <;> simp [Val.truthy] at ht

theorem searchBody_mem {c : ColumnObj} {b : Body} {cs : List ColumnObj} (h : searchBody b = .ok cs) :
    c ∈ cs ↔ OccursInBody c b := by
  simp only [searchBody, bind_eq_ok] at h
  obtain ⟨_, h1, _, h2, _, h3, _, h4, _, h5, _, h6, _, h7, _, h8, _, h9, _, h10, _, h11, h⟩ := h
  cases h
  simp only [List.mem_append, searchTerms_mem h1, searchTerms_mem h2, searchTerms_mem h3, searchTerms_mem h4,
    searchTerms_mem h5, searchTerms_mem h6, searchOne_mem h7, searchOne_mem h8, searchOne_mem h9,
    searchOne_mem h10, searchOne_mem h11, OccursInBody, or_assoc]

/-! ### Totality -/

section
variable [U : PyUnicode]

theorem findInAll_total : ∀ {xs : List Val}, (∀ x ∈ xs, ∃ cs, findColumns x = .ok cs) →
    ∃ cs, findInAll xs = .ok cs
  | [], _ => ⟨[], rfl⟩
  | x :: xs, h => by
    simp only [List.mem_cons, forall_eq_or_imp] at h
    obtain ⟨a, ha⟩ := h.1
    obtain ⟨b, hb⟩ := findInAll_total h.2
    exact ⟨a ++ b, by simp [findInAll, ha, hb]⟩

theorem findInExprs_total : ∀ {xs : List Val},
    (∀ x ∈ xs, x.isExpression = true → ∃ cs, findColumns x = .ok cs) → ∃ cs, findInExprs xs = .ok cs
  | [], _ => ⟨[], rfl⟩
  | x :: xs, h => by
    simp only [List.mem_cons, forall_eq_or_imp] at h
    obtain ⟨b, hb⟩ := findInExprs_total h.2
    unfold findInExprs
    split
    · obtain ⟨a, ha⟩ := h.1 ‹_›
      exact ⟨a ++ b, by simp [ha, hb]⟩
    · exact ⟨b, hb⟩

theorem scalar_not_expr {v : Val} (h : Scalar v) : v.isExpression = false := by
  rcases h with h | h <;> cases h <;> rfl

/-- Visitable values: expressions (except `Extrapolate`) and scalars. -/
def Visitable (v : Val) : Prop := (Expr v ∧ ∀ b, v ≠ .extrapolate b) ∨ Scalar v

theorem param_visitable {v : Val} (h : Param v) : Visitable v := by
  cases h <;> exact .inl ⟨by constructor, by simp⟩

theorem colOrFn_visitable {v : Val} (h : ColOrFn v) : Visitable v := by
  cases h <;> exact .inl ⟨by constructor, by simp⟩

theorem cond_visitable {v : Val} (h : Cond v) : Visitable v := by
  cases h <;> exact .inl ⟨by constructor, by simp⟩

theorem wf_findColumns {v : Val} (h : WF v) : Visitable v → ∃ cs, findColumns v = .ok cs := by
  induction h with
  | literal v h => intro _; cases h <;> exact ⟨[], rfl⟩
  | list xs _ _ =>
    rintro (⟨h, _⟩ | h | h)
    · cases h
    · cases h
    · cases h with
      | list _ h => exact ⟨[], by simp [findColumns, allScalar_iff.2 h]⟩
  | tuple xs _ _ =>
    rintro (⟨h, _⟩ | h | h)
    · cases h
    · cases h
    · cases h with
      | tuple _ h => exact ⟨[], by simp [findColumns, allScalar_iff.2 h]⟩
  | op => rintro (⟨h, _⟩ | h | h) <;> cases h
  | boolOp => rintro (⟨h, _⟩ | h | h) <;> cases h
  | direction => rintro (⟨h, _⟩ | h | h) <;> cases h
  | dataModel => rintro (⟨h, _⟩ | h | h) <;> cases h
  | other => rintro (⟨h, _⟩ | h | h) <;> cases h
  | extrapolate b => rintro (⟨_, h⟩ | h | h)
                     · exact absurd rfl (h b)
                     · cases h
                     · cases h
  | curried isFn n ik inits pk params a _ _ hi hp _ _ _ _ ihi ihp =>
    intro _
    obtain ⟨x, hx⟩ := findInExprs_total (xs := inits) (fun x hx he => ihi x hx (by
      rcases hi x hx with ⟨c, rfl⟩ | h
      · exact .inl ⟨.column c, by simp⟩
      · exact .inr (.inl h)))
    obtain ⟨y, hy⟩ := findInExprs_total (xs := params) (fun x hx he => ihp x hx (by
      rcases hp x hx with h | h
      · exact param_visitable h
      · exact .inr h))
    exact ⟨x ++ y, by simp [findColumns, hx, hy]⟩
  | lam k ids body _ _ hb ih =>
    intro _
    obtain ⟨x, hx⟩ := ih (colOrFn_visitable (isColOrFn_iff.1 (by simp [Val.isColOrFn, hb])))
    exact ⟨x, by simp [findColumns, hx]⟩
  | cond l o r _ _ hl _ hr ihl ihr =>
    intro _
    obtain ⟨x, hx⟩ := ihl (colOrFn_visitable hl)
    obtain ⟨y, hy⟩ := ihr (hr.elim colOrFn_visitable .inr)
    simp only [findColumns, hx, ok_bind]
    split
    · exact ⟨x ++ y, by simp [hy]⟩
    · exact ⟨x, rfl⟩
  | boolCond cls o k cs _ hc _ _ _ ih =>
    intro _
    exact findInAll_total fun x hx => ih x hx (cond_visitable (hc x hx))
  | orderby e d _ he ih => intro _; exact ih (colOrFn_visitable he)
  | _ => intro _; exact ⟨_, rfl⟩

end

end Verif
