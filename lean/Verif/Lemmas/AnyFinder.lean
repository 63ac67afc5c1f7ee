import Verif.Spec.AnyFinder
import Verif.Props.Hash
import Verif.Lemmas.Finder
import Verif.Lemmas.Names

/-!
# Lemmas about the finder for an arbitrary class
-/

namespace Verif.AnyFinder

open Spec

theorem has_iff (t : FindClass) (v : Val) : t.has v = true ↔ InClass t v := by
  constructor
  · intro h
    cases t <;> cases v <;> first
      | exact .expression h
      | (simp [FindClass.has] at h; done)
      | (simp only [FindClass.has] at h; subst h; constructor)
      | constructor
  · intro h
    cases h <;> first | rfl | assumption

theorem has_not (t : FindClass) (v : Val) : ¬ t.has v = true ↔ ¬ InClass t v := not_congr (has_iff t v)

theorem put (vs xs : List Val) (h : putIntoSet vs = .ok xs) : xs = vs ∧ ∀ v ∈ vs, ¬ Unhashable v := by
  induction vs generalizing xs with
  | nil => cases h; simp
  | cons v vs ih =>
    simp only [putIntoSet, bind, Except.bind] at h
    split at h
    · cases h
    · rename_i hv
      split at h
      · cases h
      · rename_i ys hys
        cases h
        obtain ⟨h1, h2⟩ := ih _ hys
        subst h1
        refine ⟨rfl, ?_⟩
        intro w hw
        rcases List.mem_cons.1 hw with rfl | hw
        · exact (C64_hashable _).1.1 ⟨_, hv⟩
        · exact h2 _ hw

theorem idents (is : List Str) (xs : List Val) (h : identifiersOf is = .ok xs) : xs = is.map .ident := by
  induction is generalizing xs with
  | nil => cases h; rfl
  | cons i is ih =>
    simp only [identifiersOf, mkIdentifier, asStr, ensure, bind, Except.bind] at h
    split at h
    · cases h
    · rename_i x hx
      split at h
      · cases h
      · rename_i ys hys
        cases h
        rw [ih _ hys]
        split at hx
        · cases hx
        · cases hx; rfl

/-- What is proved of a visit: the result has the outermost objects, and each of them has a hash. -/
def Good (t : FindClass) (v : Val) (xs : List Val) : Prop := ∀ y, (y ∈ xs ↔ Outermost t v y) ∧ (y ∈ xs → ¬ Unhashable y)

theorem good_self {t v xs} (hc : InClass t v) (ht : ¬ Transparent v) (hu : ∀ y, Outermost t v y → y = v) (h : putIntoSet [v] = .ok xs) :
    Good t v xs := by
  obtain ⟨rfl, h2⟩ := put _ _ h
  intro y
  refine ⟨⟨fun hy => ?_, fun hy => by simp [hu y hy]⟩, h2 y⟩
  rw [List.mem_singleton.1 hy]
  exact .self hc ht

theorem good_column (t : FindClass) (c : ColumnObj) (xs) (h : findColumn t c = .ok xs) :
    (∀ y, y ∈ xs ↔ InClass t (.column c) ∧ y = .column c) ∧ ∀ y ∈ xs, ¬ Unhashable y := by
  unfold findColumn at h
  split at h
  · rename_i hc
    obtain ⟨rfl, h2⟩ := put _ _ h
    exact ⟨fun y => by simp [(has_iff _ _).1 hc], h2⟩
  · rename_i hc
    cases h
    exact ⟨fun y => by simp [(has_not _ _).1 hc], by simp⟩

theorem good_columns (t : FindClass) (cs : List ColumnObj) (xs) (h : findInColumns t cs = .ok xs) :
    (∀ y, y ∈ xs ↔ ∃ c ∈ cs, InClass t (.column c) ∧ y = .column c) ∧ ∀ y ∈ xs, ¬ Unhashable y := by
  induction cs generalizing xs with
  | nil => cases h
  | cons c cs ih =>
    cases cs with
    | nil =>
      obtain ⟨h1, h2⟩ := good_column t c xs h
      exact ⟨fun y => by simp [h1], h2⟩
    | cons d ds =>
      rw [findInColumns] at h
      · simp only [bind, Except.bind] at h
        split at h
        · cases h
        · rename_i a ha
          split at h
          · cases h
          · rename_i b hb
            cases h
            obtain ⟨h1, h2⟩ := good_column t c a ha
            obtain ⟨h3, h4⟩ := ih b hb
            refine ⟨fun y => by rw [List.mem_append, h1, h3]; simp, fun y hy => ?_⟩
            rcases List.mem_append.1 hy with hy | hy
            · exact h2 _ hy
            · exact h4 _ hy
      · simp

theorem column_class {t} {c d : ColumnObj} {a : Option Str} (h : ¬ InClass t (.aliased c a)) (hd : InClass t (.column d)) : t = .column := by
  cases hd with
  | column => rfl
  | expression => exact absurd (.expression rfl) h

theorem unary_iff (o : Op) : isUnary o = false ↔ o ≠ .isNull ∧ o ≠ .isNotNull := by cases o <;> simp [isUnary]

mutual
theorem good (t : FindClass) (v : Val) (xs : List Val) (h : find t v = .ok xs) : Good t v xs := by
  match v with
  | .aliased c a =>
    rw [find] at h
    split at h
    · rename_i hc
      have hc := (has_iff _ _).1 hc
      exact good_self hc (by intro h; cases h) (by intro y hy; cases hy with | self => rfl | aliased hn => exact absurd hc hn) h
    · rename_i hc
      have hc := (has_not _ _).1 hc
      obtain ⟨h1, h2⟩ := good_column _ _ _ h
      refine fun y => ⟨?_, h2 y⟩
      rw [h1]
      refine ⟨fun ⟨h3, h4⟩ => h4 ▸ .aliased hc h3, fun hy => ?_⟩
      cases hy with
      | self h => exact absurd h hc
      | aliased _ h => exact ⟨h, rfl⟩
  | .column c =>
    rw [find] at h
    obtain ⟨h1, h2⟩ := good_column _ _ _ h
    refine fun y => ⟨?_, h2 y⟩
    rw [h1]
    refine ⟨fun ⟨h3, h4⟩ => by subst h4; exact .self h3 (by intro h; cases h), fun hy => ?_⟩
    cases hy with
    | self h => exact ⟨h, rfl⟩
  | .curried f n ik is pk ps a =>
    rw [find] at h
    split at h
    · rename_i hc
      have hc := (has_iff _ _).1 hc
      exact good_self hc (by intro h; cases h) (by intro y hy; cases hy with | self => rfl | item hn => exact absurd hc hn) h
    · rename_i hc
      have hc := (has_not _ _).1 hc
      simp only [bind, Except.bind] at h
      split at h
      · cases h
      · rename_i as ha
        split at h
        · cases h
        · rename_i bs hb
          cases h
          have h1 := good_exprs t is as ha
          have h2 := good_exprs t ps bs hb
          refine fun y => ⟨?_, fun hy => ?_⟩
          · rw [List.mem_append, (h1 y).1, (h2 y).1]
            constructor
            · rintro (⟨x, hx, he, ho⟩ | ⟨x, hx, he, ho⟩)
              · exact .item hc (List.mem_append.2 (.inl hx)) he ho
              · exact .item hc (List.mem_append.2 (.inr hx)) he ho
            · intro hy
              cases hy with
              | self h => exact absurd h hc
              | item _ hx he ho =>
                rcases List.mem_append.1 hx with hx | hx
                · exact .inl ⟨_, hx, he, ho⟩
                · exact .inr ⟨_, hx, he, ho⟩
          · rcases List.mem_append.1 hy with hy | hy
            · exact (h1 y).2 hy
            · exact (h2 y).2 hy
  | .ident n =>
    rw [find] at h
    split at h
    · rename_i hc
      exact good_self ((has_iff _ _).1 hc) (by intro h; cases h) (by intro y hy; cases hy with | self => rfl) h
    · rename_i hc
      cases h
      exact fun y => ⟨⟨by simp, fun hy => by cases hy with | self h => exact absurd h ((has_not _ _).1 hc)⟩, by simp⟩
  | .lam k ids b =>
    rw [find] at h
    split at h
    · rename_i hc
      have hc := (has_iff _ _).1 hc
      refine good_self hc (by intro h; cases h) (fun y hy => ?_) h
      cases hy with
      | self => rfl
      | parameter ht => subst ht; cases hc
      | body _ hn => exact absurd hc hn
    · rename_i hc
      have hc := (has_not _ _).1 hc
      split at h
      · rename_i ht
        simp only [bind, Except.bind] at h
        split at h
        · cases h
        · rename_i ys hys
          have := idents _ _ hys
          subst this
          obtain ⟨rfl, h2⟩ := put _ _ h
          refine fun y => ⟨⟨fun hy => ?_, fun hy => ?_⟩, h2 y⟩
          · obtain ⟨i, hi, rfl⟩ := List.mem_map.1 hy
            exact .parameter ht hi
          · cases hy with
            | self h => exact absurd h hc
            | parameter _ hi => exact List.mem_map.2 ⟨_, hi, rfl⟩
            | body hn => exact absurd ht hn
      · rename_i ht
        have ih := good t b xs h
        refine fun y => ⟨⟨fun hy => .body ht hc ((ih y).1.1 hy), fun hy => ?_⟩, (ih y).2⟩
        cases hy with
        | self h => exact absurd h hc
        | parameter h => exact absurd h ht
        | body _ _ h => exact (ih y).1.2 h
  | .entity e =>
    rw [find] at h
    split at h
    · rename_i hc
      exact good_self ((has_iff _ _).1 hc) (by intro h; cases h) (by intro y hy; cases hy with | self => rfl) h
    · rename_i hc
      cases h
      exact fun y => ⟨⟨by simp, fun hy => by cases hy with | self h => exact absurd h ((has_not _ _).1 hc)⟩, by simp⟩
  | .storage e =>
    rw [find] at h
    split at h
    · rename_i hc
      exact good_self ((has_iff _ _).1 hc) (by intro h; cases h) (by intro y hy; cases hy with | self => rfl) h
    · rename_i hc
      cases h
      exact fun y => ⟨⟨by simp, fun hy => by cases hy with | self h => exact absurd h ((has_not _ _).1 hc)⟩, by simp⟩
  | .rel r =>
    rw [find] at h
    split at h
    · rename_i hc
      have hc := (has_iff _ _).1 hc
      exact good_self hc (by intro h; cases h) (by intro y hy; cases hy with | self => rfl | end_ ht => subst ht; cases hc) h
    · rename_i hc
      have hc := (has_not _ _).1 hc
      split at h
      · rename_i he
        have he := (has_iff _ _).1 he
        have ht : t = .entity := by
          cases he with
          | entity => rfl
          | expression => exact absurd (.expression rfl) hc
        obtain ⟨rfl, h2⟩ := put _ _ h
        refine fun y => ⟨⟨fun hy => ?_, fun hy => ?_⟩, h2 y⟩
        · simp only [List.mem_cons, List.not_mem_nil, or_false] at hy
          rcases hy with rfl | rfl
          · exact .end_ ht (.inl rfl)
          · exact .end_ ht (.inr rfl)
        · cases hy with
          | self h => exact absurd h hc
          | end_ _ h => rcases h with rfl | rfl <;> simp
      · rename_i he
        cases h
        refine fun y => ⟨⟨by simp, fun hy => ?_⟩, by simp⟩
        cases hy with
        | self h => exact absurd h hc
        | end_ ht => subst ht; exact absurd rfl he
  | .join k rs =>
    rw [find.eq_def] at h
    simp only at h
    split at h
    · rename_i hc
      have hc := (has_iff _ _).1 hc
      exact good_self hc (by intro h; cases h) (by intro y hy; cases hy with | self => rfl | relationship ht => subst ht; cases hc) h
    · rename_i hc
      have hc := (has_not _ _).1 hc
      cases rs with
      | nil => cases h
      | cons r rs =>
        simp only at h
        split at h
        · rename_i he
          have he := (has_iff _ _).1 he
          have ht : t = .relationship := by
            cases he with
            | relationship => rfl
            | expression => exact absurd (.expression rfl) hc
          obtain ⟨rfl, h2⟩ := put _ _ h
          refine fun y => ⟨⟨fun hy => ?_, fun hy => ?_⟩, h2 y⟩
          · obtain ⟨q, hq, rfl⟩ := List.mem_map.1 hy
            exact .relationship ht hq
          · cases hy with
            | self h => exact absurd h hc
            | relationship _ h => exact List.mem_map.2 ⟨_, h, rfl⟩
        · rename_i he
          cases h
          refine fun y => ⟨⟨by simp, fun hy => ?_⟩, by simp⟩
          cases hy with
          | self h => exact absurd h hc
          | relationship ht => subst ht; exact absurd rfl he
  | .cond l o r =>
    rw [find] at h
    simp only [bind, Except.bind] at h
    split at h
    · cases h
    · rename_i as ha
      have h1 := good t l as ha
      split at h
      · rename_i hc
        simp only [Bool.and_eq_true, Bool.not_eq_true'] at hc
        have hu := (unary_iff o).1 hc.1
        split at h
        · cases h
        · rename_i bs hb
          have h2 := good t r bs hb
          cases h
          refine fun y => ⟨?_, fun hy => ?_⟩
          · rw [List.mem_append, (h1 y).1, (h2 y).1]
            constructor
            · rintro (hy | hy)
              · exact .left hy
              · exact .right hu.1 hu.2 hc.2 hy
            · intro hy
              cases hy with
              | self _ h => exact absurd (.cond ..) h
              | left h => exact .inl h
              | right _ _ _ h => exact .inr h
          · rcases List.mem_append.1 hy with hy | hy
            · exact (h1 y).2 hy
            · exact (h2 y).2 hy
      · rename_i hc
        cases h
        refine fun y => ⟨⟨fun hy => .left ((h1 y).1.1 hy), fun hy => ?_⟩, (h1 y).2⟩
        cases hy with
        | self _ h => exact absurd (.cond ..) h
        | left h => exact (h1 y).1.2 h
        | right ha hb he _ =>
          have := (unary_iff o).2 ⟨ha, hb⟩
          simp [this, he] at hc
  | .boolCond c o k cs =>
    rw [find] at h
    have h1 := good_all t cs xs h
    refine fun y => ⟨?_, (h1 y).2⟩
    rw [(h1 y).1]
    refine ⟨fun ⟨x, hx, hy⟩ => .member hx hy, fun hy => ?_⟩
    cases hy with
    | self _ h => exact absurd (.boolCond ..) h
    | member hx h => exact ⟨_, hx, h⟩
  | .orderby e d =>
    rw [find] at h
    split at h
    · rename_i hc
      have hc := (has_iff _ _).1 hc
      exact good_self hc (by intro h; cases h) (by intro y hy; cases hy with | self => rfl | ordered hn => exact absurd hc hn) h
    · rename_i hc
      have hc := (has_not _ _).1 hc
      have ih := good t e xs h
      refine fun y => ⟨⟨fun hy => .ordered hc ((ih y).1.1 hy), fun hy => ?_⟩, (ih y).2⟩
      cases hy with
      | self h => exact absurd h hc
      | ordered _ h => exact (ih y).1.2 h
  | .limitby k cs n =>
    rw [find] at h
    split at h
    · rename_i hc
      have hc := (has_iff _ _).1 hc
      exact good_self hc (by intro h; cases h) (by intro y hy; cases hy with | self => rfl | counted ht => subst ht; cases hc) h
    · rename_i hc
      have hc := (has_not _ _).1 hc
      obtain ⟨h1, h2⟩ := good_columns _ _ _ h
      refine fun y => ⟨?_, h2 y⟩
      rw [h1]
      constructor
      · rintro ⟨c, hm, hi, rfl⟩
        refine .counted ?_ hm
        cases hi with
        | column => rfl
        | expression => exact absurd (.expression rfl) hc
      · intro hy
        cases hy with
        | self h => exact absurd h hc
        | counted ht hm => subst ht; exact ⟨_, hm, .column _, rfl⟩
  | .limit _ | .offset _ | .granularity _ | .totals _ =>
    rw [find] at h
    cases h
    exact fun y => ⟨⟨by simp, fun hy => by cases hy with | self _ h => exact absurd (by constructor) h⟩, by simp⟩
  | .none | .bool _ | .int _ | .float _ | .str _ | .bytes _ | .date _ | .datetime _ =>
    rw [find] at h
    cases h
    exact fun y => ⟨⟨by simp, fun hy => by cases hy with | self h _ => cases h with | expression h => cases h⟩, by simp⟩
  | .list vs | .tuple vs =>
    rw [find] at h
    simp only [bind, Except.bind] at h
    split at h
    · cases h
    · cases h
      exact fun y => ⟨⟨by simp, fun hy => by cases hy with | self h _ => cases h with | expression h => cases h⟩, by simp⟩
  | .extrapolate _ | .op _ | .boolOp _ | .direction _ | .dataModel _ | .other _ => rw [find] at h; cases h

theorem good_exprs (t : FindClass) (vs xs : List Val) (h : findExprs t vs = .ok xs) :
    ∀ y, (y ∈ xs ↔ ∃ x, x ∈ vs ∧ x.isExpression = true ∧ Outermost t x y) ∧ (y ∈ xs → ¬ Unhashable y) := by
  match vs with
  | [] => rw [findExprs] at h; cases h; simp
  | v :: vs =>
    rw [findExprs] at h
    split at h
    · rename_i he
      simp only [bind, Except.bind] at h
      split at h
      · cases h
      · rename_i as ha
        split at h
        · cases h
        · rename_i bs hb
          cases h
          have h1 := good t v as ha
          have h2 := good_exprs t vs bs hb
          refine fun y => ⟨?_, fun hy => ?_⟩
          · rw [List.mem_append, (h1 y).1, (h2 y).1]
            simp [he]
          · rcases List.mem_append.1 hy with hy | hy
            · exact (h1 y).2 hy
            · exact (h2 y).2 hy
    · rename_i he
      have h2 := good_exprs t vs xs h
      refine fun y => ⟨?_, (h2 y).2⟩
      rw [(h2 y).1]
      simp [he]

theorem good_all (t : FindClass) (vs xs : List Val) (h : findAll t vs = .ok xs) :
    ∀ y, (y ∈ xs ↔ ∃ x, x ∈ vs ∧ Outermost t x y) ∧ (y ∈ xs → ¬ Unhashable y) := by
  match vs with
  | [] => rw [findAll] at h; cases h; simp
  | v :: vs =>
    rw [findAll] at h
    simp only [bind, Except.bind] at h
    split at h
    · cases h
    · rename_i as ha
      split at h
      · cases h
      · rename_i bs hb
        cases h
        have h1 := good t v as ha
        have h2 := good_all t vs bs hb
        refine fun y => ⟨?_, fun hy => ?_⟩
        · rw [List.mem_append, (h1 y).1, (h2 y).1]
          simp
        · rcases List.mem_append.1 hy with hy | hy
          · exact (h1 y).2 hy
          · exact (h2 y).2 hy
end

theorem outermost_class {t v y} (h : Outermost t v y) : InClass t y ∧ ¬ Transparent y := by
  induction h with
  | self h1 h2 => exact ⟨h1, h2⟩
  | aliased _ h => exact ⟨h, by intro h; cases h⟩
  | item _ _ _ _ ih => exact ih
  | parameter h => subst h; exact ⟨.identifier _, by intro h; cases h⟩
  | body _ _ _ ih => exact ih
  | end_ h => subst h; exact ⟨.entity _, by intro h; cases h⟩
  | relationship h => subst h; exact ⟨.relationship _, by intro h; cases h⟩
  | left _ ih => exact ih
  | right _ _ _ _ ih => exact ih
  | member _ _ ih => exact ih
  | ordered _ _ ih => exact ih
  | counted h => subst h; exact ⟨.column _, by intro h; cases h⟩

theorem one_column (c : ColumnObj) : findColumn .column c = .ok [.column c] := rfl

theorem all_columns (cs : List ColumnObj) (xs) (h : findInColumns .column cs = .ok xs) : xs = cs.map .column := by
  induction cs generalizing xs with
  | nil => cases h
  | cons c cs ih =>
    cases cs with
    | nil => cases h; rfl
    | cons d ds =>
      rw [findInColumns] at h
      · simp only [one_column, bind, Except.bind] at h
        split at h
        · cases h
        · rename_i b hb
          cases h
          rw [ih b hb]
          rfl
      · simp

mutual
theorem columns (v : Val) (xs : List Val) (h : find .column v = .ok xs) : ∃ cs, findColumns v = .ok cs ∧ xs = cs.map .column := by
  match v with
  | .aliased c a => cases h; exact ⟨_, rfl, rfl⟩
  | .column c => cases h; exact ⟨_, rfl, rfl⟩
  | .curried f n ik is pk ps a =>
    rw [find] at h
    simp only [FindClass.has, Bool.false_eq_true, if_false, bind, Except.bind] at h
    split at h
    · cases h
    · rename_i as ha
      split at h
      · cases h
      · rename_i bs hb
        cases h
        obtain ⟨cs, h1, rfl⟩ := columns_exprs is as ha
        obtain ⟨ds, h2, rfl⟩ := columns_exprs ps bs hb
        exact ⟨cs ++ ds, by simp [findColumns, h1, h2, bind, Except.bind], by simp⟩
  | .lam k ids b =>
    rw [find] at h
    simp only [FindClass.has, Bool.false_eq_true, if_false, reduceCtorEq] at h
    rw [findColumns]
    exact columns b xs h
  | .ident _ | .entity _ | .storage _ | .rel _ | .limit _ | .offset _ | .granularity _ | .totals _ | .none | .bool _ | .int _ | .float _
  | .str _ | .bytes _ | .date _ | .datetime _ => cases h; exact ⟨[], rfl, rfl⟩
  | .join k [] => cases h
  | .join k (r :: rs) => cases h; exact ⟨[], rfl, rfl⟩
  | .cond l o r =>
    rw [find] at h
    simp only [bind, Except.bind] at h
    split at h
    · cases h
    · rename_i as ha
      obtain ⟨cs, h1, rfl⟩ := columns l as ha
      split at h
      · rename_i hc
        split at h
        · cases h
        · rename_i bs hb
          obtain ⟨ds, h2, rfl⟩ := columns r bs hb
          cases h
          refine ⟨cs ++ ds, ?_, by simp⟩
          rw [findColumns]
          simp only [h1, h2, bind, Except.bind, if_pos hc]
      · rename_i hc
        cases h
        refine ⟨cs, ?_, rfl⟩
        rw [findColumns]
        simp only [h1, bind, Except.bind, if_neg hc]
  | .boolCond c o k cs => rw [find] at h; rw [findColumns]; exact columns_all cs xs h
  | .orderby e d =>
    rw [find] at h
    simp only [FindClass.has, Bool.false_eq_true, if_false] at h
    rw [findColumns]
    exact columns e xs h
  | .limitby k cs n =>
    rw [find] at h
    simp only [FindClass.has, Bool.false_eq_true, if_false] at h
    exact ⟨cs, by rw [findColumns], all_columns cs xs h⟩
  | .list vs | .tuple vs =>
    rw [find] at h
    rw [findColumns]
    simp only [bind, Except.bind] at h ⊢
    split at h
    · cases h
    · rename_i hv
      cases h
      exact ⟨[], rfl, rfl⟩
  | .extrapolate _ | .op _ | .boolOp _ | .direction _ | .dataModel _ | .other _ => rw [find] at h; cases h

theorem columns_exprs (vs xs : List Val) (h : findExprs .column vs = .ok xs) : ∃ cs, findInExprs vs = .ok cs ∧ xs = cs.map .column := by
  match vs with
  | [] => cases h; exact ⟨[], rfl, rfl⟩
  | v :: vs =>
    rw [findExprs] at h
    rw [findInExprs]
    split at h
    · rename_i he
      simp only [bind, Except.bind] at h
      split at h
      · cases h
      · rename_i as ha
        split at h
        · cases h
        · rename_i bs hb
          cases h
          obtain ⟨cs, h1, rfl⟩ := columns v as ha
          obtain ⟨ds, h2, rfl⟩ := columns_exprs vs bs hb
          exact ⟨cs ++ ds, by simp only [if_pos he, h1, h2, bind, Except.bind], by simp⟩
    · rename_i he
      rw [if_neg he]
      exact columns_exprs vs xs h

theorem columns_all (vs xs : List Val) (h : findAll .column vs = .ok xs) : ∃ cs, findInAll vs = .ok cs ∧ xs = cs.map .column := by
  match vs with
  | [] => cases h; exact ⟨[], rfl, rfl⟩
  | v :: vs =>
    rw [findAll] at h
    rw [findInAll]
    simp only [bind, Except.bind] at h
    split at h
    · cases h
    · rename_i as ha
      split at h
      · cases h
      · rename_i bs hb
        cases h
        obtain ⟨cs, h1, rfl⟩ := columns v as ha
        obtain ⟨ds, h2, rfl⟩ := columns_all vs bs hb
        exact ⟨cs ++ ds, by simp only [h1, h2, bind, Except.bind], by simp⟩
end

/-- A visit returns, or raises a `TypeError` for an outermost object without a hash. -/
def Ends (t : FindClass) (v : Val) : Prop :=
  (∃ xs, find t v = .ok xs) ∨ (find t v = .error .typeError ∧ ∃ y, Outermost t v y ∧ Unhashable y)

theorem put_ends (vs : List Val) : putIntoSet vs = .ok vs ∨ (putIntoSet vs = .error .typeError ∧ ∃ v ∈ vs, Unhashable v) := by
  induction vs with
  | nil => exact .inl rfl
  | cons v vs ih =>
    simp only [putIntoSet, bind, Except.bind]
    cases hv : hashTree v with
    | error e =>
      have := (C64_hashable v).2 e hv
      subst this
      refine .inr ⟨rfl, v, by simp, ?_⟩
      refine Classical.byContradiction fun hn => ?_
      obtain ⟨t, ht⟩ := (C64_hashable v).1.2 hn
      rw [hv] at ht
      cases ht
    | ok h =>
      rcases ih with ih | ⟨ih, w, hw, hu⟩
      · exact .inl (by simp [ih])
      · exact .inr ⟨by simp [ih], w, by simp [hw], hu⟩

theorem self_ends {t v} (hc : InClass t v) (ht : ¬ Transparent v) (hf : find t v = putIntoSet [v]) : Ends t v := by
  unfold Ends
  rw [hf]
  rcases put_ends [v] with h | ⟨h, w, hw, hu⟩
  · exact .inl ⟨_, h⟩
  · refine .inr ⟨h, w, ?_, hu⟩
    rw [List.mem_singleton.1 hw]
    exact .self hc ht

theorem column_ok (t : FindClass) (c : ColumnObj) : ∃ xs, findColumn t c = .ok xs := by
  unfold findColumn
  split
  · exact ⟨[.column c], rfl⟩
  · exact ⟨[], rfl⟩

theorem columns_ok (t : FindClass) (cs : List ColumnObj) (h : cs ≠ []) : ∃ xs, findInColumns t cs = .ok xs := by
  induction cs with
  | nil => exact absurd rfl h
  | cons c cs ih =>
    obtain ⟨a, ha⟩ := column_ok t c
    cases cs with
    | nil => exact ⟨a, ha⟩
    | cons d ds =>
      obtain ⟨b, hb⟩ := ih (by simp)
      refine ⟨a ++ b, ?_⟩
      rw [findInColumns]
      · simp only [ha, hb, bind, Except.bind]
      · simp

theorem idents_ok (is : List Str) (h : ∀ i ∈ is, OptNewline IdentName i) : identifiersOf is = .ok (is.map .ident) := by
  induction is with
  | nil => rfl
  | cons i is ih =>
    have h1 := identifierRe_iff.2 (h i (by simp))
    have h2 := ih fun j hj => h j (by simp [hj])
    simp [identifiersOf, mkIdentifier, asStr, ensure, h1, h2, bind, Except.bind]

theorem exprs_ends (t : FindClass) (vs : List Val) (h : ∀ x ∈ vs, x.isExpression = true → Ends t x) :
    (∃ xs, findExprs t vs = .ok xs) ∨
      (findExprs t vs = .error .typeError ∧ ∃ x ∈ vs, x.isExpression = true ∧ ∃ y, Outermost t x y ∧ Unhashable y) := by
  induction vs with
  | nil => exact .inl ⟨[], by rw [findExprs]⟩
  | cons v vs ih =>
    have ih := ih fun x hx => h x (by simp [hx])
    rw [findExprs]
    split
    · rename_i he
      rcases h v (by simp) he with ⟨a, ha⟩ | ⟨ha, y, hy⟩
      · rcases ih with ⟨b, hb⟩ | ⟨hb, x, hx, hxe, hy⟩
        · exact .inl ⟨a ++ b, by simp only [ha, hb, bind, Except.bind]⟩
        · exact .inr ⟨by simp only [ha, hb, bind, Except.bind], x, by simp [hx], hxe, hy⟩
      · exact .inr ⟨by simp only [ha, bind, Except.bind], v, by simp, he, y, hy⟩
    · rcases ih with hb | ⟨hb, x, hx, hy⟩
      · exact .inl hb
      · exact .inr ⟨hb, x, by simp [hx], hy⟩

theorem all_ends (t : FindClass) (vs : List Val) (h : ∀ x ∈ vs, Ends t x) :
    (∃ xs, findAll t vs = .ok xs) ∨ (findAll t vs = .error .typeError ∧ ∃ x ∈ vs, ∃ y, Outermost t x y ∧ Unhashable y) := by
  induction vs with
  | nil => exact .inl ⟨[], by rw [findAll]⟩
  | cons v vs ih =>
    have ih := ih fun x hx => h x (by simp [hx])
    rw [findAll]
    rcases h v (by simp) with ⟨a, ha⟩ | ⟨ha, y, hy⟩
    · rcases ih with ⟨b, hb⟩ | ⟨hb, x, hx, hy⟩
      · exact .inl ⟨a ++ b, by simp only [ha, hb, bind, Except.bind]⟩
      · exact .inr ⟨by simp only [ha, hb, bind, Except.bind], x, by simp [hx], hy⟩
    · exact .inr ⟨by simp only [ha, bind, Except.bind], v, by simp, y, hy⟩

theorem wf_ends [PyUnicode] (t : FindClass) {v : Val} (h : WF v) : Visitable v → Ends t v := by
  induction h with
  | literal v h => intro _; cases h <;> exact .inl ⟨[], by rw [find]⟩
  | list xs _ _ =>
    rintro (⟨h, _⟩ | h | h)
    · cases h
    · cases h
    · cases h with
      | list _ h => exact .inl ⟨[], by simp [find, allScalar_iff.2 h]⟩
  | tuple xs _ _ =>
    rintro (⟨h, _⟩ | h | h)
    · cases h
    · cases h
    · cases h with
      | tuple _ h => exact .inl ⟨[], by simp [find, allScalar_iff.2 h]⟩
  | op => rintro (⟨h, _⟩ | h | h) <;> cases h
  | boolOp => rintro (⟨h, _⟩ | h | h) <;> cases h
  | direction => rintro (⟨h, _⟩ | h | h) <;> cases h
  | dataModel => rintro (⟨h, _⟩ | h | h) <;> cases h
  | other => rintro (⟨h, _⟩ | h | h) <;> cases h
  | extrapolate b =>
    rintro (⟨_, h⟩ | h | h)
    · exact absurd rfl (h b)
    · cases h
    · cases h
  | limit | offset | granularity | totals => intro _; exact .inl ⟨[], by rw [find]⟩
  | column c =>
    intro _
    obtain ⟨xs, hx⟩ := column_ok t c
    exact .inl ⟨xs, by rw [find, hx]⟩
  | aliased c a =>
    intro _
    by_cases hc : t.has (.aliased c a) = true
    · exact self_ends ((has_iff _ _).1 hc) (by intro h; cases h) (by rw [find, if_pos hc])
    · obtain ⟨xs, hx⟩ := column_ok t c
      exact .inl ⟨xs, by rw [find, if_neg hc, hx]⟩
  | curried isFn n ik inits pk params a _ _ hi hp _ _ _ _ ihi ihp =>
    intro _
    by_cases hc : t.has (.curried isFn n ik inits pk params a) = true
    · exact self_ends ((has_iff _ _).1 hc) (by intro h; cases h) (by rw [find, if_pos hc])
    · have hn := (has_not _ _).1 hc
      have h1 := exprs_ends t inits (fun x hx he => ihi x hx (by
        rcases hi x hx with ⟨c, rfl⟩ | h
        · exact .inl ⟨.column c, by simp⟩
        · exact .inr (.inl h)))
      have h2 := exprs_ends t params (fun x hx he => ihp x hx (by
        rcases hp x hx with h | h
        · exact param_visitable h
        · exact .inr h))
      unfold Ends
      rw [find, if_neg hc]
      rcases h1 with ⟨as, ha⟩ | ⟨ha, x, hx, he, y, hy, hu⟩
      · rcases h2 with ⟨bs, hb⟩ | ⟨hb, x, hx, he, y, hy, hu⟩
        · exact .inl ⟨as ++ bs, by simp only [ha, hb, bind, Except.bind]⟩
        · exact .inr ⟨by simp only [ha, hb, bind, Except.bind], y, .item hn (List.mem_append.2 (.inr hx)) he hy, hu⟩
      · exact .inr ⟨by simp only [ha, bind, Except.bind], y, .item hn (List.mem_append.2 (.inl hx)) he hy, hu⟩
  | ident n =>
    intro _
    by_cases hc : t.has (.ident n) = true
    · exact self_ends ((has_iff _ _).1 hc) (by intro h; cases h) (by rw [find, if_pos hc])
    · exact .inl ⟨[], by rw [find, if_neg hc]⟩
  | lam k ids body hids _ hb ih =>
    intro _
    by_cases hc : t.has (.lam k ids body) = true
    · exact self_ends ((has_iff _ _).1 hc) (by intro h; cases h) (by rw [find, if_pos hc])
    · have hn := (has_not _ _).1 hc
      unfold Ends
      rw [find, if_neg hc]
      by_cases ht : t = .identifier
      · simp only [if_pos ht, idents_ok ids hids, bind, Except.bind]
        rcases put_ends (ids.map .ident) with h | ⟨_, w, hw, hu⟩
        · exact .inl ⟨_, h⟩
        · obtain ⟨i, _, rfl⟩ := List.mem_map.1 hw
          cases hu
      · rw [if_neg ht]
        rcases ih (colOrFn_visitable (isColOrFn_iff.1 (by simp [Val.isColOrFn, hb]))) with h | ⟨h, y, hy, hu⟩
        · exact .inl h
        · exact .inr ⟨h, y, .body ht hn hy, hu⟩
  | cond l o r _ _ hl _ hr ihl ihr =>
    intro _
    have h1 := ihl (colOrFn_visitable hl)
    have h2 := ihr (hr.elim colOrFn_visitable .inr)
    unfold Ends
    rw [find]
    rcases h1 with ⟨x, hx⟩ | ⟨hx, y, hy, hu⟩
    · simp only [hx, bind, Except.bind]
      split
      · rename_i hc
        simp only [Bool.and_eq_true, Bool.not_eq_true'] at hc
        have ho := (unary_iff o).1 hc.1
        rcases h2 with ⟨z, hz⟩ | ⟨hz, y, hy, hu⟩
        · exact .inl ⟨x ++ z, by simp only [hz]⟩
        · exact .inr ⟨by simp only [hz], y, .right ho.1 ho.2 hc.2 hy, hu⟩
      · exact .inl ⟨x, rfl⟩
    · exact .inr ⟨by simp only [hx, bind, Except.bind], y, .left hy, hu⟩
  | boolCond cls o k cs _ hc _ _ _ ih =>
    intro _
    unfold Ends
    rw [find]
    rcases all_ends t cs fun x hx => ih x hx (cond_visitable (hc x hx)) with h | ⟨h, x, hx, y, hy, hu⟩
    · exact .inl h
    · exact .inr ⟨h, y, .member hx hy, hu⟩
  | orderby e d _ he ih =>
    intro _
    by_cases hc : t.has (.orderby e d) = true
    · exact self_ends ((has_iff _ _).1 hc) (by intro h; cases h) (by rw [find, if_pos hc])
    · have hn := (has_not _ _).1 hc
      unfold Ends
      rw [find, if_neg hc]
      rcases ih (colOrFn_visitable he) with h | ⟨h, y, hy, hu⟩
      · exact .inl h
      · exact .inr ⟨h, y, .ordered hn hy, hu⟩
  | limitby k cs n _ _ hne =>
    intro _
    by_cases hc : t.has (.limitby k cs n) = true
    · exact self_ends ((has_iff _ _).1 hc) (by intro h; cases h) (by rw [find, if_pos hc])
    · obtain ⟨xs, hx⟩ := columns_ok t cs hne
      exact .inl ⟨xs, by rw [find, if_neg hc, hx]⟩
  | entity e =>
    intro _
    by_cases hc : t.has (.entity e) = true
    · exact self_ends ((has_iff _ _).1 hc) (by intro h; cases h) (by rw [find, if_pos hc])
    · exact .inl ⟨[], by rw [find, if_neg hc]⟩
  | storage e =>
    intro _
    by_cases hc : t.has (.storage e) = true
    · exact self_ends ((has_iff _ _).1 hc) (by intro h; cases h) (by rw [find, if_pos hc])
    · exact .inl ⟨[], by rw [find, if_neg hc]⟩
  | rel r =>
    intro _
    by_cases hc : t.has (.rel r) = true
    · exact self_ends ((has_iff _ _).1 hc) (by intro h; cases h) (by rw [find, if_pos hc])
    · unfold Ends
      rw [find, if_neg hc]
      split
      · rcases put_ends [.entity r.lhs, .entity r.rhs] with h | ⟨_, w, hw, hu⟩
        · exact .inl ⟨_, h⟩
        · simp only [List.mem_cons, List.not_mem_nil, or_false] at hw
          rcases hw with rfl | rfl <;> cases hu
      · exact .inl ⟨[], rfl⟩
  | join k rs _ hne =>
    intro _
    by_cases hc : t.has (.join k rs) = true
    · exact self_ends ((has_iff _ _).1 hc) (by intro h; cases h) (by rw [find.eq_def]; simp only [if_pos hc])
    · unfold Ends
      rw [find.eq_def]
      simp only [if_neg hc]
      cases rs with
      | nil => exact absurd rfl hne
      | cons r rs =>
        simp only
        split
        · rcases put_ends ((r :: rs).map .rel) with h | ⟨_, w, hw, hu⟩
          · exact .inl ⟨_, h⟩
          · obtain ⟨q, _, rfl⟩ := List.mem_map.1 hw
            cases hu
        · exact .inl ⟨[], rfl⟩

end Verif.AnyFinder
