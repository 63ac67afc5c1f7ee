import Verif.Spec.SetOrder
import Verif.Lemmas.Str

/-!
# Lemmas: loops over sets
-/

namespace Verif
open Spec

/-- A loop that raises one kind of error when a test fails for some item. -/
theorem Spec.SeesSet.all {α : Type} {eq : α → α → Bool} {xs ys : List α} (h : SeesSet eq xs ys) (p : α → Bool)
    (hp : ∀ a b, eq a b = true → p a = p b) : ys.all p = xs.all p := by
  rw [Bool.eq_iff_iff]
  simp only [List.all_eq_true]
  constructor
  · intro hy x hx
    obtain ⟨y, hm, rfl | he⟩ := h.2 x hx
    · exact hy _ hm
    · rw [← hp _ _ he]; exact hy y hm
  · exact fun hx y hy => hx y (h.1 y hy)

theorem Spec.SeesSet.mem {α : Type} {xs ys : List α} (h : SeesSet (fun _ _ => false) xs ys) (a : α) : a ∈ ys ↔ a ∈ xs := by
  refine ⟨h.1 a, fun ha => ?_⟩
  obtain ⟨y, hm, rfl | he⟩ := h.2 a ha
  · exact hm
  · cases he

/-- Two entries for a key carry the same value. -/
private def Functional (m : List (Str × Str)) : Prop := ∀ a x y, (a, x) ∈ m → (a, y) ∈ m → x = y

theorem lookup_mem_pair {m : List (Str × Str)} {a x : Str} (h : m.lookup a = some x) : (a, x) ∈ m := by
  induction m with
  | nil => cases h
  | cons p m ih =>
    obtain ⟨b, y⟩ := p
    simp only [List.lookup_cons] at h
    split at h
    · rename_i e
      simp only [beq_iff_eq] at e
      cases h; subst e
      exact List.mem_cons_self
    · exact List.mem_cons_of_mem _ (ih h)

theorem lookup_some_of_pair {m : List (Str × Str)} {a x : Str} (h : (a, x) ∈ m) : ∃ y, m.lookup a = some y := by
  induction m with
  | nil => cases h
  | cons p m ih =>
    obtain ⟨b, y⟩ := p
    simp only [List.lookup_cons]
    split
    · exact ⟨_, rfl⟩
    · rename_i e
      rcases List.mem_cons.1 h with h | h
      · cases h; simp at e
      · exact ih h

/-- The entries seen agree with each other and with those to come exactly if the loop ends well. -/
theorem aliases_agree : ∀ (rest seen : List (Str × Str)), (∀ a x y, (a, x) ∈ seen → (a, y) ∈ seen → x = y) →
    (checkSeen seen rest = .ok () ↔ ∀ a x y, (a, x) ∈ seen ++ rest → (a, y) ∈ seen ++ rest → x = y)
  | [], seen, hf => by
    simp only [checkSeen, List.append_nil, true_iff]
    exact hf
  | (a, n) :: rest, seen, hf => by
    have key : (∀ a' x y, (a', x) ∈ (a, n) :: seen → (a', y) ∈ (a, n) :: seen → x = y) →
        (checkSeen ((a, n) :: seen) rest = .ok () ↔
          ∀ a' x y, (a', x) ∈ seen ++ (a, n) :: rest → (a', y) ∈ seen ++ (a, n) :: rest → x = y) := by
      intro hf'
      rw [aliases_agree rest _ hf']
      have hm : ∀ p, p ∈ (a, n) :: seen ++ rest ↔ p ∈ seen ++ (a, n) :: rest := by
        intro p
        simp only [List.cons_append, List.mem_cons, List.mem_append]
        constructor
        · rintro (h | h | h)
          · exact .inr (.inl h)
          · exact .inl h
          · exact .inr (.inr h)
        · rintro (h | h | h)
          · exact .inr (.inl h)
          · exact .inl h
          · exact .inr (.inr h)
      constructor
      · exact fun h a' x y hx hy => h a' x y ((hm _).2 hx) ((hm _).2 hy)
      · exact fun h a' x y hx hy => h a' x y ((hm _).1 hx) ((hm _).1 hy)
    simp only [checkSeen]
    split
    · rename_i m hm
      have hmem := lookup_mem_pair hm
      split
      · rename_i hne
        constructor
        · intro h; cases h
        · intro h
          exact absurd (h a m n (List.mem_append_left _ hmem) (List.mem_append_right _ List.mem_cons_self)) hne
      · rename_i he
        have he : m = n := Decidable.not_not.1 he
        subst he
        refine key fun a' x y hx hy => ?_
        rcases List.mem_cons.1 hx with h1 | h1 <;> rcases List.mem_cons.1 hy with h2 | h2
        · cases h1; cases h2; rfl
        · cases h1; exact hf _ _ _ hmem h2
        · cases h2; exact hf _ _ _ h1 hmem
        · exact hf _ _ _ h1 h2
    · rename_i hm
      refine key fun a' x y hx hy => ?_
      rcases List.mem_cons.1 hx with h1 | h1 <;> rcases List.mem_cons.1 hy with h2 | h2
      · cases h1; cases h2; rfl
      · cases h1
        obtain ⟨z, hz⟩ := lookup_some_of_pair h2
        rw [hm] at hz; cases hz
      · cases h2
        obtain ⟨z, hz⟩ := lookup_some_of_pair h1
        rw [hm] at hz; cases hz
      · exact hf _ _ _ h1 h2

theorem aliases_error : ∀ (rest seen : List (Str × Str)) (e : Err), checkSeen seen rest = .error e → e = .invalidExpression
  | [], _, _, h => by cases h
  | (a, n) :: rest, seen, e, h => by
    simp only [checkSeen] at h
    split at h
    · split at h
      · cases h; rfl
      · exact aliases_error rest _ e h
    · exact aliases_error rest _ e h

theorem checkSeen_order {xs ys : List (Str × Str)} (h : SeesSet (fun _ _ => false) xs ys) : checkSeen [] ys = checkSeen [] xs := by
  have hi : checkSeen [] ys = .ok () ↔ checkSeen [] xs = .ok () := by
    rw [aliases_agree _ _ (by intro a x y hx; cases hx), aliases_agree _ _ (by intro a x y hx; cases hx)]
    simp only [List.nil_append, h.mem]
  cases hx : checkSeen [] xs with
  | ok u => exact hi.2 hx
  | error e =>
    cases hy : checkSeen [] ys with
    | ok u =>
      have := hi.1 hy
      rw [hx] at this; cases this
    | error e' => rw [aliases_error _ _ _ hx, aliases_error _ _ _ hy]

theorem checkJoin_order {σ : SetOrders} (hσ : PossibleOrders σ) (rels : List RelObj) : checkJoinIn σ rels = checkJoin rels := by
  simp only [checkJoinIn, checkJoin, checkSeen_order (hσ.aliases _)]

/-- The test of one column against the dictionary of aliases. -/
private def qualified (dict : List (Str × Str)) (c : ColumnObj) : Bool :=
  match c.entity with
  | none => false
  | some e => match e.alias with
    | none => false
    | some a => match dict.lookup a with
      | none => false
      | some n => n == e.name

private theorem checkQualified_all (dict : List (Str × Str)) : ∀ cs, checkQualified dict cs = ensure (cs.all (qualified dict)) .invalidMatch
  | [] => rfl
  | c :: cs => by
    simp only [checkQualified, List.all_cons, checkQualified_all dict cs, qualified]
    cases c.entity with
    | none => rfl
    | some e =>
      cases ha : e.alias with
      | none => simp [ensure, ha]
      | some a =>
        cases hl : dict.lookup a with
        | none => simp [ensure, ha, hl]
        | some n =>
          by_cases hn : n = e.name
          · simp [ha, hl, hn]
          · simp [ensure, ha, hl, hn]

private theorem qualified_eq {dict : List (Str × Str)} {a b : ColumnObj} (h : a.pyEq b = true) : qualified dict a = qualified dict b := by
  simp only [ColumnObj.pyEq, Bool.and_eq_true] at h
  have he := h.1.1.2
  simp only [qualified]
  cases h1 : a.entity with
  | none => cases h2 : b.entity with
    | none => rfl
    | some e => rw [h1, h2] at he; cases he
  | some e => cases h2 : b.entity with
    | none => rw [h1, h2] at he; cases he
    | some e' =>
      rw [h1, h2] at he
      simp only [optEq, EntityObj.pyEq, Bool.and_eq_true, beq_iff_eq] at he
      simp only [he.1.1.1, he.1.1.2]

private theorem lookup_order {xs ys : List (Str × Str)} (h : SeesSet (fun _ _ => false) xs ys) (hf : checkSeen [] xs = .ok ()) (a : Str) :
    ys.reverse.lookup a = xs.reverse.lookup a := by
  rw [aliases_agree _ _ (by intro a x y hx; cases hx)] at hf
  simp only [List.nil_append] at hf
  cases hx : xs.reverse.lookup a with
  | none =>
    cases hy : ys.reverse.lookup a with
    | none => rfl
    | some y =>
      have hm := List.mem_reverse.1 (lookup_mem_pair hy)
      obtain ⟨z, hz⟩ := lookup_some_of_pair (List.mem_reverse.2 ((h.mem _).1 hm))
      rw [hx] at hz; cases hz
  | some x =>
    have hm := List.mem_reverse.1 (lookup_mem_pair hx)
    obtain ⟨z, hz⟩ := lookup_some_of_pair (List.mem_reverse.2 ((h.mem _).2 hm))
    have hm' := (h.mem _).1 (List.mem_reverse.1 (lookup_mem_pair hz))
    rw [hz, hf a z x hm' hm]

theorem validateJoin_order {σ : SetOrders} (hσ : PossibleOrders σ) {rels : List RelObj} (hj : checkJoin rels = .ok ()) (cols : List ColumnObj) :
    validateJoinIn σ rels cols = validateJoin rels cols := by
  simp only [checkJoin, bind_eq_ok, ensure_eq_ok] at hj
  obtain ⟨_, _, hs⟩ := hj
  have hd : qualified (σ.aliasDict (aliasMappings rels)).reverse = qualified (aliasMappings rels).reverse := by
    funext c
    simp only [qualified, lookup_order (hσ.aliasDict _) hs]
  rw [validateJoinIn, checkQualified_all, (hσ.columns cols).all _ (fun _ _ => qualified_eq), hd]
  rfl

private def inModel (dm : Option DataModel) (c : ColumnObj) : Bool := (c.validateDataModel dm).toBool

private theorem validateModel_all (dm : Option DataModel) : ∀ cs, validateModel dm cs = ensure (cs.all (inModel dm)) .invalidColumn
  | [] => rfl
  | c :: cs => by
    simp only [validateModel, validateModel_all dm cs, inModel, List.all_cons]
    cases h : c.validateDataModel dm with
    | ok u => simp [Except.toBool, ok_bind]
    | error x =>
      have hx : x = .invalidColumn := by
        cases dm with
        | none => cases h
        | some d =>
          rw [ColumnObj.validateDataModel] at h
          generalize d.contains _ = y at h
          cases y
          · cases h; rfl
          · cases h
      simp [Except.toBool, error_bind, ensure, hx]

theorem validateModel_order {σ : SetOrders} (hσ : PossibleOrders σ) (dm : Option DataModel) (cols : List ColumnObj) :
    validateModelIn σ dm cols = validateModel dm cols := by
  rw [validateModelIn, validateModel_all, validateModel_all, (hσ.columns cols).all]
  intro a b h
  simp only [ColumnObj.pyEq, Bool.and_eq_true, beq_iff_eq] at h
  simp only [inModel, ColumnObj.validateDataModel, h.1.1.1, h.1.2]

theorem validateSubquery_order {σ : SetOrders} (hσ : PossibleOrders σ) (inner : Body) (cols : List ColumnObj) :
    validateSubqueryIn σ inner cols = validateSubquery inner cols := by
  have h : ∀ xs, (σ.columns cols).all (fun c => (innerNames xs).contains (some c.name)) = cols.all fun c => (innerNames xs).contains (some c.name) := by
    intro xs
    apply (hσ.columns cols).all
    intro a b h
    simp only [ColumnObj.pyEq, Bool.and_eq_true, beq_iff_eq] at h
    simp only [h.1.1.1]
  simp only [validateSubqueryIn, validateSubquery, h]

private theorem missingRequired_all (top : List Val) (a : Option Str) : ∀ rs,
    (missingRequired top a rs).isEmpty = rs.all fun r => matchingConditionExists [.eq, .in_] r.name top a
  | [] => rfl
  | r :: rs => by
    simp only [missingRequired, List.all_cons, ← missingRequired_all top a rs]
    split <;> rename_i h
    · simp [h]
    · simp [h]

private theorem missingOps_all (top : List Val) (a : Option Str) (n : Str) : ∀ os,
    (missingOps top a n os).isEmpty = os.all fun o => matchingConditionExists [o] n top a
  | [] => rfl
  | o :: os => by
    simp only [missingOps, List.all_cons, ← missingOps_all top a n os]
    split <;> rename_i h
    · simp [h]
    · simp [h]

theorem checkEntityRequired_order {σ : SetOrders} (hσ : PossibleOrders σ) (e : EntityObj) (w : Val) :
    checkEntityRequiredIn σ e w = checkEntityRequired e w := by
  simp only [checkEntityRequiredIn, checkEntityRequired, missingRequired_all, missingOps_all,
    (hσ.required _).all _ (fun _ _ h => nomatch h), (hσ.ops _).all _ (fun _ _ h => nomatch h)]
  cases e.dataModel <;> rfl

/-- Equal entities ask for the same conditions. -/
theorem checkEntityRequired_equal {a b : EntityObj} (h : a.pyEq b = true) (w : Val) : checkEntityRequired a w = checkEntityRequired b w := by
  simp only [EntityObj.pyEq, Bool.and_eq_true, beq_iff_eq] at h
  obtain ⟨⟨⟨_, ha⟩, _⟩, hd⟩ := h
  simp only [checkEntityRequired, ha]
  cases h1 : a.dataModel with
  | none => cases h2 : b.dataModel with
    | none => rfl
    | some d => rw [h1, h2] at hd; cases hd
  | some d => cases h2 : b.dataModel with
    | none => rw [h1, h2] at hd; cases hd
    | some d' =>
      rw [h1, h2] at hd
      simp only [optEq, DataModel.pyEq, Bool.and_eq_true, List.all_eq_true, List.contains_iff_mem, beq_iff_eq] at hd
      have hr : ∀ p : ModelColumn → Bool, d.required.all p = d'.required.all p := by
        intro p
        rw [Bool.eq_iff_iff]
        simp only [DataModel.required, List.all_eq_true, List.mem_filter]
        exact ⟨fun h x hx => h x ⟨hd.1.2 x hx.1, hx.2⟩, fun h x hx => h x ⟨hd.1.1 x hx.1, hx.2⟩⟩
      simp only [hr, hd.2]

private def entityFine (w : Val) (e : EntityObj) : Bool := (checkEntityRequired e w).toBool

/-- The error of the check, if there is one, does not depend on the entity. -/
private theorem required_error {e : EntityObj} {w : Val} {x : Err} (h : checkEntityRequired e w = .error x) :
    x = if w.truthy then (match w.iter with | .error y => y | .ok _ => .requiredColumn) else .requiredColumn := by
  simp only [checkEntityRequired] at h
  cases hd : e.dataModel with
  | none => rw [hd] at h; cases h
  | some d =>
    rw [hd] at h
    cases ht : w.truthy with
    | false =>
      simp only [ht, ensure, error_bind, Bool.false_eq_true, if_false] at h
      cases h; rfl
    | true =>
      simp only [ht, ensure, ok_bind, if_true] at h ⊢
      cases hi : w.iter with
      | error y => rw [hi] at h; simp only [error_bind] at h; cases h; rfl
      | ok xs =>
        rw [hi] at h
        simp only [ok_bind] at h
        split at h
        · simp only [ok_bind] at h
          split at h
          · cases h
          · cases h; rfl
        · simp only [error_bind] at h; cases h; rfl

private theorem entities_all (w : Val) : ∀ es, checkEntitiesRequired es w =
    ensure (es.all (entityFine w)) (if w.truthy then (match w.iter with | .error y => y | .ok _ => .requiredColumn) else .requiredColumn)
  | [] => rfl
  | e :: es => by
    simp only [checkEntitiesRequired, entities_all w es, List.all_cons, entityFine]
    cases h : checkEntityRequired e w with
    | ok u => simp [Except.toBool, ok_bind]
    | error x => simp [Except.toBool, error_bind, ensure, required_error h]

theorem checkEntities_order {σ : SetOrders} (hσ : PossibleOrders σ) (es : List EntityObj) (w : Val) :
    checkEntitiesRequiredIn σ (σ.entities es) w = checkEntitiesRequired es w := by
  have h : ∀ xs, checkEntitiesRequiredIn σ xs w = checkEntitiesRequired xs w := by
    intro xs
    induction xs with
    | nil => rfl
    | cons e es ih => simp only [checkEntitiesRequiredIn, checkEntitiesRequired, checkEntityRequired_order hσ, ih]
  rw [h, entities_all, entities_all, (hσ.entities es).all]
  intro a b hab
  simp only [entityFine, checkEntityRequired_equal hab]

theorem foundFlags_lookup (body : LegacyBody) (k : Str) : ∀ ks, ((foundFlags body ks).lookup k).getD .none =
    if k ∈ ks then foundFlag (body.get k) else .none
  | [] => rfl
  | k' :: ks => by
    have ih := foundFlags_lookup body k ks
    by_cases hk : k = k'
    · subst hk
      simp only [foundFlags, foundFlag, List.mem_cons, true_or, if_true]
      split <;> rename_i h
      · simp
      · rw [ih, foundFlag]; simp [h]
    · have hb : (k == k') = false := by simpa using hk
      simp only [foundFlags, List.mem_cons, hk, false_or]
      split
      · simp only [List.lookup_cons, hb]; exact ih
      · exact ih

theorem legacyFlags_order {σ : SetOrders} (hσ : PossibleOrders σ) (body : LegacyBody) : legacyFlagsIn σ body = legacyFlags body := by
  simp [legacyFlagsIn, legacyFlags, foundFlags_lookup, (hσ.flags _).mem]

end Verif
