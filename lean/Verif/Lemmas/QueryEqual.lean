import Verif.Spec.QueryEqual
import Verif.Model.QueryEq
import Verif.Lemmas.Equal
import Verif.Lemmas.Hash

/-!
# Lemmas: equal queries
-/

namespace Verif
open Spec

/-! ### Results that agree -/

/-- Two results agree: both fail with the same error, or both succeed with related values. -/
def Agree {α β : Type} (R : α → β → Prop) : Except Err α → Except Err β → Prop
  | .ok a, .ok b => R a b
  | .error e, .error f => e = f
  | _, _ => False

theorem Agree.bind {α β γ δ : Type} {R : α → β → Prop} {S : γ → δ → Prop} {x : Except Err α} {y : Except Err β}
    {f : α → Except Err γ} {g : β → Except Err δ} (h : Agree R x y) (h' : ∀ a b, R a b → Agree S (f a) (g b)) :
    Agree S (x >>= f) (y >>= g) := by
  cases x <;> cases y <;> simp only [Agree] at h
  · subst h; rfl
  · exact h' _ _ h

theorem Agree.eq {α : Type} {x y : Except Err α} : Agree (· = ·) x y ↔ x = y := by
  cases x <;> cases y <;> simp [Agree]

theorem Agree.mono {α β : Type} {R S : α → β → Prop} (h : ∀ a b, R a b → S a b) {x : Except Err α} {y : Except Err β}
    (h' : Agree R x y) : Agree S x y := by
  cases x <;> cases y <;> simp only [Agree] at h' ⊢
  · exact h'
  · exact h _ _ h'

/-! ### Values that are alike -/

/-- Aliases play no part in the comparison of functions: all of them are `Function`s, or none has an alias. -/
def Told (only : Bool) (v : Val) : Prop := if only then OnlyFunctions v else NoAliases v

theorem Told.child {m : Bool} {v x : Val} (h : Told m v) (hx : x ∈ v.children) : Told m x := by
  cases m
  · exact fun w hw => h w (part_child hx hw)
  · exact fun w hw => h w (part_child hx hw)

/-- Equal values of which equality tells everything. -/
structure Alike (m : Bool) (a b : Val) : Prop where
  eq : pyEq a b = true
  left : Ordinary a
  right : Ordinary b
  toldL : Told m a
  toldR : Told m b

theorem Alike.told {m : Bool} {a b : Val} (h : Alike m a b) : AliasesTold a b := by
  have h1 := h.toldL
  have h2 := h.toldR
  cases m
  · exact .inr ⟨h1, h2⟩
  · exact .inl ⟨h1, h2⟩

theorem Alike.symm {m : Bool} {a b : Val} (h : Alike m a b) : Alike m b a := ⟨pyEq_symm _ _ h.eq, h.right, h.left, h.toldR, h.toldL⟩

theorem Alike.trans {m : Bool} {a b c : Val} (h : Alike m a b) (h' : Alike m b c) : Alike m a c := by
  refine ⟨?_, h.left, h'.right, h.toldL, h'.toldR⟩
  refine pyEq_trans_either b a c ?_ h.eq h'.eq
  have h1 := h.toldL
  have h2 := h.toldR
  have h3 := h'.toldR
  cases m
  · exact .inr ⟨h1, h3⟩
  · exact .inl h2

/-- Lists of values that are alike one by one. -/
def AlikeAll (m : Bool) : List Val → List Val → Prop
  | [], [] => True
  | x :: xs, y :: ys => Alike m x y ∧ AlikeAll m xs ys
  | _, _ => False

theorem alikeAll_of {m : Bool} : ∀ {xs ys : List Val}, pyEqList xs ys = true → (∀ x ∈ xs, Ordinary x ∧ Told m x) →
    (∀ y ∈ ys, Ordinary y ∧ Told m y) → AlikeAll m xs ys
  | [], [], _, _, _ => trivial
  | [], _ :: _, h, _, _ => by simp [pyEqList] at h
  | _ :: _, [], h, _, _ => by simp [pyEqList] at h
  | x :: xs, y :: ys, h, hx, hy => by
    simp only [pyEqList, Bool.and_eq_true] at h
    have h1 := hx x (by simp)
    have h2 := hy y (by simp)
    exact ⟨⟨h.1, h1.1, h2.1, h1.2, h2.2⟩, alikeAll_of h.2 (fun z hz => hx z (by simp [hz])) fun z hz => hy z (by simp [hz])⟩

theorem AlikeAll.length {m : Bool} : ∀ {xs ys : List Val}, AlikeAll m xs ys → xs.length = ys.length
  | [], [], _ => rfl
  | [], _ :: _, h => h.elim
  | _ :: _, [], h => h.elim
  | x :: xs, y :: ys, h => by simp [h.2.length]

theorem Alike.children {m : Bool} {a b : Val} (h : Alike m a b) {xs ys : List Val} (hx : ∀ x ∈ xs, x ∈ a.children)
    (hy : ∀ y ∈ ys, y ∈ b.children) (e : pyEqList xs ys = true) : AlikeAll m xs ys :=
  alikeAll_of e (fun x hm => ⟨ordinary_child h.left (hx x hm), h.toldL.child (hx x hm)⟩)
    fun y hm => ⟨ordinary_child h.right (hy y hm), h.toldR.child (hy y hm)⟩

theorem Alike.child {m : Bool} {a b x y : Val} (h : Alike m a b) (hx : x ∈ a.children) (hy : y ∈ b.children)
    (e : pyEq x y = true) : Alike m x y :=
  ⟨e, ordinary_child h.left hx, ordinary_child h.right hy, h.toldL.child hx, h.toldR.child hy⟩

theorem alike_self {m : Bool} {v : Val} (hc : v.children = []) (he : pyEq v v = true) (hd : ¬ Disguised v) (hs : ownSamples v = [])
    (ht : ∀ t, v ≠ .datetime t) (hf : ∀ f n ik is pk ps a, v ≠ .curried f n ik is pk ps a) : Alike m v v := by
  have hp : ∀ x, Part x v → x = v := by
    intro x hx
    cases hx <;> first
      | rfl
      | simp_all [Val.children]
  refine ⟨he, ?_, ?_, ?_, ?_⟩
  · intro x hx; rw [hp x hx]; exact ⟨hd, by simp [hs], fun t e => (ht t e).elim⟩
  · intro x hx; rw [hp x hx]; exact ⟨hd, by simp [hs], fun t e => (ht t e).elim⟩
  all_goals
    cases m
    · intro x hx f n ik is pk ps a e; rw [hp x hx] at e; exact (hf _ _ _ _ _ _ _ e).elim
    · intro x hx f n ik is pk ps a e; rw [hp x hx] at e; exact (hf _ _ _ _ _ _ _ e).elim

theorem alikeAll_self {m : Bool} : ∀ {xs : List Val}, (∀ x ∈ xs, Alike m x x) → AlikeAll m xs xs
  | [], _ => trivial
  | x :: xs, h => ⟨h x (by simp), alikeAll_self fun y hy => h y (by simp [hy])⟩

/-- Values that are alike have the same class, or are equal. -/
theorem Alike.cases_on {m : Bool} {a b : Val} (h : Alike m a b) : a.truthy = b.truthy ∧ (a = .none ↔ b = .none) ∧ a.isMatch = b.isMatch ∧
    a.isJoin = b.isJoin ∧ a.isCondition = b.isCondition ∧ a.isCurried = b.isCurried := by
  obtain ⟨h, ha, hb, -, -⟩ := h
  obtain ⟨a1, a2, a3⟩ := ha a .here
  obtain ⟨b1, b2, b3⟩ := hb b .here
  cases a <;> cases b <;> first
    | exact Bool.noConfusion h
    | skip
  all_goals try exact (a1 (.bool _)).elim
  all_goals try exact (b1 (.bool _)).elim
  all_goals first
    | exact ⟨rfl, by simp, rfl, rfl, rfl, rfl⟩
    | skip
  all_goals refine ⟨?_, by simp, rfl, rfl, rfl, rfl⟩
  all_goals simp only [pyEq, beq_iff_eq] at h
  all_goals first
    | (subst h; rfl)
    | skip
  case int.float i f =>
    cases f <;> simp only [PyFloat.eqInt, Bool.false_eq_true, Dbl.toInt?, beq_iff_eq] at h
    rename_i d
    by_cases hd : 0 ≤ d.e
    · exact (b1 (.whole d hd)).elim
    · rw [if_neg hd] at h; cases h
  case float.int f i =>
    cases f <;> simp only [PyFloat.eqInt, Bool.false_eq_true, Dbl.toInt?, beq_iff_eq] at h
    rename_i d
    by_cases hd : 0 ≤ d.e
    · exact (a1 (.whole d hd)).elim
    · rw [if_neg hd] at h; cases h
  case float.float f g =>
    have e : some f = some g := sample_eq h (by
      rintro x hx ⟨d, rfl, hd⟩
      cases hx
      rcases dbl_cases d with ⟨_, h0⟩ | h0
      · exact a1 (.whole d (by omega))
      · omega)
    cases e; rfl
  all_goals
    rename_i xs ys
    cases xs <;> cases ys <;> simp_all [pyEqList, Val.truthy]

theorem Alike.truthy {m : Bool} {a b : Val} (h : Alike m a b) : a.truthy = b.truthy := h.cases_on.1

theorem Alike.none_iff {m : Bool} {a b : Val} (h : Alike m a b) : a = .none ↔ b = .none := h.cases_on.2.1

theorem Alike.iter {m : Bool} {a b : Val} (h : Alike m a b) : Agree (AlikeAll m) a.iter b.iter := by
  have hc := h
  obtain ⟨h, ha, hb, -, -⟩ := h
  obtain ⟨a1, -, -⟩ := ha a .here
  obtain ⟨b1, -, -⟩ := hb b .here
  clear ha hb
  cases a <;> cases b <;> first
    | exact Bool.noConfusion h
    | rfl
    | skip
  all_goals simp only [pyEq, beq_iff_eq] at h
  case str.str s t =>
    subst h
    refine alikeAll_self fun x hx => ?_
    obtain ⟨c, -, rfl⟩ := List.mem_map.1 hx
    exact alike_self rfl (by simp [pyEq]) (by rintro ⟨⟩) rfl (by rintro t ⟨⟩) (by rintro _ _ _ _ _ _ _ ⟨⟩)
  case bytes.bytes s t =>
    subst h
    refine alikeAll_self fun x hx => ?_
    obtain ⟨c, -, rfl⟩ := List.mem_map.1 hx
    exact alike_self rfl (by simp [pyEq]) (by rintro ⟨⟩) rfl (by rintro t ⟨⟩) (by rintro _ _ _ _ _ _ _ ⟨⟩)
  case list.list xs ys => exact hc.children (fun _ h => h) (fun _ h => h) h
  case tuple.tuple xs ys => exact hc.children (fun _ h => h) (fun _ h => h) h

/-! ### Validation -/

section Validate
variable [U : PyUnicode]

omit U in
theorem contains_eq {a b : DataModel} (h : a.pyEq b = true) (s : Str) : a.contains s = b.contains s := by
  simp only [DataModel.pyEq, Bool.and_eq_true, beq_iff_eq, List.all_eq_true, List.contains_iff_mem] at h
  unfold DataModel.contains
  rw [Bool.eq_iff_iff]
  simp only [List.any_eq_true]
  exact ⟨fun ⟨x, hx, e⟩ => ⟨x, h.1.1 x hx, e⟩, fun ⟨x, hx, e⟩ => ⟨x, h.1.2 x hx, e⟩⟩

omit U in
theorem validateDataModel_eq {a b : ColumnObj} (h : a.pyEq b = true) {d d' : Option DataModel} (hd : optEq DataModel.pyEq d d' = true) :
    a.validateDataModel d = b.validateDataModel d' := by
  simp only [ColumnObj.pyEq, Bool.and_eq_true, beq_iff_eq] at h
  cases d <;> cases d' <;> simp only [optEq, Bool.false_eq_true] at hd
  · rfl
  · simp only [ColumnObj.validateDataModel, h.1.1.1, h.1.2, contains_eq hd]

theorem columnValidate_eq {a b : ColumnObj} (h : a.pyEq b = true) : (Val.column a).validate = (Val.column b).validate := by
  have he : a.checkEntity = b.checkEntity := by
    have h' := h
    simp only [ColumnObj.pyEq, Bool.and_eq_true, beq_iff_eq] at h'
    unfold ColumnObj.checkEntity
    have h2 := h'.1.1.2
    cases ha : a.entity <;> cases hb : b.entity <;> rw [ha, hb] at h2 <;> simp only [optEq, Bool.false_eq_true] at h2
    · rename_i e e'
      simp only [EntityObj.pyEq, Bool.and_eq_true, beq_iff_eq] at h2
      simp only [h2.1.1.2, validateDataModel_eq h h2.2]
  have hn : a.name = b.name := by
    simp only [ColumnObj.pyEq, Bool.and_eq_true, beq_iff_eq] at h
    exact h.1.1.1
  simp only [Val.validate, ColumnObj.validate, he, hn]
  generalize ensure _ _ = x
  generalize b.checkEntity = y
  cases x <;> cases y <;> rfl

omit U in
theorem mapping_eq {a b : EntityObj} (h : a.pyEq b = true) : a.mapping = b.mapping := by
  simp only [EntityObj.pyEq, Bool.and_eq_true, beq_iff_eq] at h
  simp only [EntityObj.mapping, h.1.1.1, h.1.1.2]

omit U in
theorem aliasMappings_eq : ∀ {as bs : List RelObj}, listEq RelObj.pyEq as bs = true → aliasMappings as = aliasMappings bs
  | [], [], _ => rfl
  | [], _ :: _, h => by simp [listEq] at h
  | _ :: _, [], h => by simp [listEq] at h
  | x :: xs, y :: ys, h => by
    simp only [listEq, Bool.and_eq_true] at h
    have h1 := h.1
    simp only [RelObj.pyEq, Bool.and_eq_true, beq_iff_eq] at h1
    have := aliasMappings_eq h.2
    simp only [aliasMappings] at this
    simp only [aliasMappings, List.flatMap_cons, this, mapping_eq h1.1.1, mapping_eq h1.2]

omit U in
theorem listEq_length {α : Type} {f : α → α → Bool} : ∀ {as bs : List α}, listEq f as bs = true → as.length = bs.length
  | [], [], _ => rfl
  | [], _ :: _, h => by simp [listEq] at h
  | _ :: _, [], h => by simp [listEq] at h
  | x :: xs, y :: ys, h => by
    simp only [listEq, Bool.and_eq_true] at h
    simp [listEq_length h.2]

omit U in
theorem pyEqList_length : ∀ {as bs : List Val}, pyEqList as bs = true → as.length = bs.length
  | [], [], _ => rfl
  | [], _ :: _, h => by simp [pyEqList] at h
  | _ :: _, [], h => by simp [pyEqList] at h
  | x :: xs, y :: ys, h => by
    simp only [pyEqList, Bool.and_eq_true] at h
    simp [pyEqList_length h.2]

omit U in
theorem all_eq_of {p : Val → Bool} (hp : ∀ a b, pyEq a b = true → p a = p b) : ∀ {as bs : List Val}, pyEqList as bs = true → as.all p = bs.all p
  | [], [], _ => rfl
  | [], _ :: _, h => by simp [pyEqList] at h
  | _ :: _, [], h => by simp [pyEqList] at h
  | x :: xs, y :: ys, h => by
    simp only [pyEqList, Bool.and_eq_true] at h
    simp only [List.all_cons, hp x y h.1, all_eq_of hp h.2]

omit U in
theorem pyEq_condition {a b : Val} (h : pyEq a b = true) : a.isCondition = b.isCondition ∧ a.isCurried = b.isCurried := by
  cases a <;> cases b <;> first
    | exact Bool.noConfusion h
    | exact ⟨rfl, rfl⟩

omit U in
theorem checkRhs_eq {a b : Val} (h : pyEq a b = true) : checkRhs a = checkRhs b := by
  simp only [checkRhs, (pyEq_class h).2.2.2.2, isScalar_eq a b h]

omit U in
theorem checkUnary_eq {o : Op} {a b : Val} (h : pyEq a b = true) : checkUnary o a = checkUnary o b := by
  cases a <;> cases b <;> first
    | exact Bool.noConfusion h
    | rfl

omit U in
theorem checkCondition_eq {l l' r r' : Val} {o : Op} (hl : pyEq l l' = true) (hr : pyEq r r' = true) :
    checkCondition l (.op o) r = checkCondition l' (.op o) r' := by
  simp only [checkCondition, asOp, (pyEq_class hl).2.2.2.2, checkUnary_eq hr, checkRhs_eq hr]

omit U in
theorem checkParams_eq : ∀ {as bs : List Val}, pyEqList as bs = true → checkParams as = checkParams bs
  | [], [], _ => rfl
  | [], _ :: _, h => by simp [pyEqList] at h
  | _ :: _, [], h => by simp [pyEqList] at h
  | x :: xs, y :: ys, h => by
    simp only [pyEqList, Bool.and_eq_true] at h
    simp only [checkParams, (pyEq_class h.1).2.2.2.1, isScalar_eq x y h.1, checkParams_eq h.2]

/-- Values that are alike have the same outcome of `validate`. -/
theorem Alike.validate {m : Bool} {a b : Val} (h : Alike m a b) : a.validate = b.validate := by
  have hal := h.told
  obtain ⟨h, ha, hb, -, -⟩ := h
  obtain ⟨a1, a2, a3⟩ := ha a .here
  obtain ⟨b1, b2, b3⟩ := hb b .here
  clear ha hb
  cases a <;> cases b <;> first
    | exact Bool.noConfusion h
    | rfl
    | skip
  case column.column c c' => exact columnValidate_eq h
  all_goals simp only [pyEq, Bool.and_eq_true, beq_iff_eq] at h
  case curried.curried f n ik is pk ps a f' n' ik' is' pk' ps' a' =>
    obtain ⟨⟨⟨h1, h2, h3⟩, h4, h5⟩, h6⟩ := h
    simp only [Val.validate, h1, hal.same h6, checkInits, checkParams_eq h5,
      all_eq_of (fun a b h => by rw [(pyEq_class h).1, (pyEq_class h).2.2.1] : ∀ a b, pyEq a b = true → (a.isColumn || isLiteral a) = (b.isColumn || isLiteral b)) h3]
  case ident.ident n n' => rw [h]
  case lam.lam k ids b k' ids' b' => simp only [Val.validate, h.1.2, (pyEq_condition h.2).2]
  case aliased.aliased c a c' a' => simp only [Val.validate, h.2]
  case cond.cond l o r l' o' r' => simp only [Val.validate, h.1.2, checkCondition_eq h.1.1 h.2]
  case boolCond.boolCond c o k cs c' o' k' cs' =>
    simp only [Val.validate, checkConditionItems, pyEqList_length h.2, all_eq_of (fun a b h => (pyEq_condition h).1) h.2]
  case orderby.orderby e d e' d' => simp only [Val.validate, (pyEq_class h.1).2.2.2.2]
  case limitby.limitby k cs n k' cs' n' => simp only [Val.validate, h.2, listEq_length h.1.2]
  case limit.limit n n' => simp only [Val.validate, h]
  case offset.offset n n' => simp only [Val.validate, h]
  case granularity.granularity n n' => simp only [Val.validate, h]
  case entity.entity e e' =>
    simp only [EntityObj.pyEq, Bool.and_eq_true, beq_iff_eq] at h
    simp only [Val.validate, EntityObj.validate, h.1.1.1, h.1.1.2, sample_eq h.1.2 fun f hf => a2 f (by simp [ownSamples, ownEntities, hf])]
  case storage.storage s s' =>
    simp only [StorageObj.pyEq, Bool.and_eq_true, beq_iff_eq] at h
    simp only [Val.validate, StorageObj.validate, h.1.1, sample_eq h.1.2 fun f hf => a2 f (by simp [ownSamples, hf])]
  case rel.rel r r' =>
    simp only [RelObj.pyEq, EntityObj.pyEq, Bool.and_eq_true, beq_iff_eq] at h
    simp only [Val.validate, h.1.1.1.1.2, h.2.1.1.2, h.1.2]
  case join.join k rs k' rs' =>
    have e : rs.isEmpty = rs'.isEmpty := by
      have := listEq_length h.2
      cases rs <;> cases rs' <;> simp_all
    simp only [Val.validate, checkJoin, aliasMappings_eq h.2, e]

/-! ### The columns that are found -/

omit U in
theorem listEq_append {α : Type} {f : α → α → Bool} : ∀ {as bs cs ds : List α}, listEq f as bs = true → listEq f cs ds = true →
    listEq f (as ++ cs) (bs ++ ds) = true
  | [], [], _, _, _, h => h
  | [], _ :: _, _, _, h, _ => by simp [listEq] at h
  | _ :: _, [], _, _, h, _ => by simp [listEq] at h
  | x :: xs, y :: ys, cs, ds, h, h' => by
    simp only [listEq, Bool.and_eq_true] at h
    simp only [List.cons_append, listEq, Bool.and_eq_true]
    exact ⟨h.1, listEq_append h.2 h'⟩

/-- The same columns, one by one. -/
abbrev SameColumns (cs ds : List ColumnObj) : Prop := listEq ColumnObj.pyEq cs ds = true

omit U in
theorem agree_append {x y x' y' : Except Err (List ColumnObj)} (h : Agree SameColumns x y) (h' : Agree SameColumns x' y') :
    Agree SameColumns (do let a ← x; let b ← x'; .ok (a ++ b)) (do let a ← y; let b ← y'; .ok (a ++ b)) :=
  h.bind fun _ _ h1 => h'.bind fun _ _ h2 => listEq_append h1 h2

omit U in
theorem findInAll_eq : ∀ {as bs : List Val}, (∀ x ∈ as, ∀ y, pyEq x y = true → Agree SameColumns (findColumns x) (findColumns y)) →
    pyEqList as bs = true → Agree SameColumns (findInAll as) (findInAll bs) ∧ Agree SameColumns (findInExprs as) (findInExprs bs)
  | [], [], _, _ => ⟨rfl, rfl⟩
  | [], _ :: _, _, h => by simp [pyEqList] at h
  | _ :: _, [], _, h => by simp [pyEqList] at h
  | x :: xs, y :: ys, ih, h => by
    simp only [pyEqList, Bool.and_eq_true] at h
    have h1 := ih x (by simp) y h.1
    have h2 := findInAll_eq (fun z hz => ih z (by simp [hz])) h.2
    constructor
    · simp only [findInAll]
      exact agree_append h1 h2.1
    · simp only [findInExprs, (pyEq_class h.1).2.1]
      split
      · exact agree_append h1 h2.2
      · exact h2.2

omit U in
/-- Equal values hold the same columns. -/
theorem findColumns_eq : ∀ a b : Val, pyEq a b = true → Agree SameColumns (findColumns a) (findColumns b) := by
  intro a
  induction a using Val.childInd with
  | step v ih =>
    intro b h
    have hc := pyEq_class h
    cases v <;> cases b <;> first
      | exact Bool.noConfusion h
      | rfl
      | skip
    all_goals simp only [pyEq, Bool.and_eq_true, beq_iff_eq, Val.children] at h ih
    case list.list xs ys =>
      simp only [findColumns, allScalar_eq (fun x _ => isScalar_eq x) h]
      cases allScalar ys <;> rfl
    case tuple.tuple xs ys =>
      simp only [findColumns, allScalar_eq (fun x _ => isScalar_eq x) h]
      cases allScalar ys <;> rfl
    case column.column c c' => simp only [findColumns, Agree, SameColumns, listEq, h, Bool.and_true]
    case curried.curried f n ik is pk ps a f' n' ik' is' pk' ps' a' =>
      simp only [findColumns]
      exact agree_append (findInAll_eq (fun x hx => ih x (by simp [hx])) h.1.1.2.2).2 (findInAll_eq (fun x hx => ih x (by simp [hx])) h.1.2.2).2
    case lam.lam k ids b k' ids' b' => exact ih b (by simp) b' h.2
    case aliased.aliased c a c' a' => simp only [findColumns, Agree, SameColumns, listEq, h.1, Bool.and_true]
    case cond.cond l o r l' o' r' =>
      simp only [findColumns, h.1.2, (pyEq_class h.2).2.1]
      refine Agree.bind (ih l (by simp) l' h.1.1) fun a b hab => ?_
      split
      · exact Agree.bind (ih r (by simp) r' h.2) fun c d hcd => listEq_append hab hcd
      · exact hab
    case boolCond.boolCond c o k cs c' o' k' cs' => exact (findInAll_eq ih h.2).1
    case orderby.orderby e d e' d' => exact ih e (by simp) e' h.1
    case limitby.limitby k cs n k' cs' n' => exact h.1.2

end Validate

/-! ### Queries -/

/-- The clauses are alike, one by one. -/
structure AlikeBody (m : Bool) (a b : Body) : Prop where
  select : Alike m a.select b.select
  groupby : Alike m a.groupby b.groupby
  arrayJoin : Alike m a.arrayJoin b.arrayJoin
  where_ : Alike m a.where_ b.where_
  having : Alike m a.having b.having
  orderby : Alike m a.orderby b.orderby
  limitby : Alike m a.limitby b.limitby
  limit : Alike m a.limit b.limit
  offset : Alike m a.offset b.offset
  granularity : Alike m a.granularity b.granularity
  totals : Alike m a.totals b.totals

/-- The matches and the clauses are alike, one by one. -/
def AlikeQuery (m : Bool) : Query → Query → Prop
  | .base v b, .base v' b' => Alike m v v' ∧ AlikeBody m b b'
  | .nested q b, .nested q' b' => AlikeQuery m q q' ∧ AlikeBody m b b'
  | _, _ => False

theorem alikeBody_of {m : Bool} {a b : Body} (h : a.pyEq b = true)
    (ha : ∀ v ∈ [a.select, a.groupby, a.arrayJoin, a.where_, a.having, a.orderby, a.limitby, a.limit, a.offset, a.granularity, a.totals],
      Ordinary v ∧ Told m v)
    (hb : ∀ v ∈ [b.select, b.groupby, b.arrayJoin, b.where_, b.having, b.orderby, b.limitby, b.limit, b.offset, b.granularity, b.totals],
      Ordinary v ∧ Told m v) : AlikeBody m a b := by
  simp only [Body.pyEq, Bool.and_eq_true] at h
  have key : ∀ {x y : Val}, pyEq x y = true →
      x ∈ [a.select, a.groupby, a.arrayJoin, a.where_, a.having, a.orderby, a.limitby, a.limit, a.offset, a.granularity, a.totals] →
      y ∈ [b.select, b.groupby, b.arrayJoin, b.where_, b.having, b.orderby, b.limitby, b.limit, b.offset, b.granularity, b.totals] →
      Alike m x y := fun e hx hy => ⟨e, (ha _ hx).1, (hb _ hy).1, (ha _ hx).2, (hb _ hy).2⟩
  obtain ⟨⟨⟨⟨⟨⟨⟨⟨⟨⟨h1, h2⟩, h3⟩, h4⟩, h5⟩, h6⟩, h7⟩, h8⟩, h9⟩, h10⟩, h11⟩ := h
  exact ⟨key h1 (by simp) (by simp), key h2 (by simp) (by simp), key h3 (by simp) (by simp), key h4 (by simp) (by simp),
    key h5 (by simp) (by simp), key h6 (by simp) (by simp), key h7 (by simp) (by simp), key h8 (by simp) (by simp),
    key h9 (by simp) (by simp), key h10 (by simp) (by simp), key h11 (by simp) (by simp)⟩

theorem alikeQuery_of {m : Bool} : ∀ {q r : Query}, q.pyEq r = true → Throughout (fun v => Ordinary v ∧ Told m v) q →
    Throughout (fun v => Ordinary v ∧ Told m v) r → AlikeQuery m q r
  | .base v b, .base v' b', h, hq, hr => by
    simp only [Query.pyEq, Bool.and_eq_true] at h
    have h1 := hq v (.match_ _ _)
    have h2 := hr v' (.match_ _ _)
    exact ⟨⟨h.1, h1.1, h2.1, h1.2, h2.2⟩, alikeBody_of h.2 (fun x hx => hq x (.own _ _ hx)) fun x hx => hr x (.own _ _ hx)⟩
  | .nested q b, .nested r b', h, hq, hr => by
    simp only [Query.pyEq, Bool.and_eq_true] at h
    exact ⟨alikeQuery_of h.1 (fun x hx => hq x (.inner _ _ _ hx)) (fun x hx => hr x (.inner _ _ _ hx)),
      alikeBody_of h.2 (fun x hx => hq x (.own _ _ hx)) fun x hx => hr x (.own _ _ hx)⟩
  | .base _ _, .nested _ _, h, _, _ => by simp [Query.pyEq] at h
  | .nested _ _, .base _ _, h, _, _ => by simp [Query.pyEq] at h

theorem AlikeQuery.body {m : Bool} : ∀ {q r : Query}, AlikeQuery m q r → AlikeBody m q.body r.body
  | .base _ _, .base _ _, h => h.2
  | .nested _ _, .nested _ _, h => h.2
  | .base _ _, .nested _ _, h => h.elim
  | .nested _ _, .base _ _, h => h.elim

section Queries
variable [U : PyUnicode] {m : Bool}

theorem validateAll_eq : ∀ {xs ys : List Val}, AlikeAll m xs ys → validateAll xs = validateAll ys
  | [], [], _ => rfl
  | [], _ :: _, h => h.elim
  | _ :: _, [], h => h.elim
  | x :: xs, y :: ys, h => by simp only [validateAll, h.1.validate, validateAll_eq h.2]

theorem listValidate_eq {a b : Val} (h : Alike m a b) : listValidate a = listValidate b := by
  have e : ∀ w : Val, w ≠ .none → listValidate w = (do let xs ← w.iter; validateAll xs) := by
    intro w hw
    cases w <;> first
      | exact absurd rfl hw
      | rfl
  by_cases ha : a = .none
  · rw [ha, h.none_iff.1 ha]
  · rw [e a ha, e b fun hb => ha (h.none_iff.2 hb)]
    exact Agree.eq.1 (h.iter.bind fun _ _ h => Agree.eq.2 (validateAll_eq h))

theorem optValidate_eq {a b : Val} (h : Alike m a b) : optValidate a = optValidate b := by
  have e : ∀ w : Val, w ≠ .none → optValidate w = w.validate := by
    intro w hw
    cases w <;> first
      | exact absurd rfl hw
      | rfl
  by_cases ha : a = .none
  · rw [ha, h.none_iff.1 ha]
  · rw [e a ha, e b fun hb => ha (h.none_iff.2 hb), h.validate]

theorem validateClauses_eq {a b : Body} (h : AlikeBody m a b) : validateClauses a = validateClauses b := by
  simp only [validateClauses, listValidate_eq h.select, listValidate_eq h.groupby, listValidate_eq h.arrayJoin, listValidate_eq h.where_,
    listValidate_eq h.having, listValidate_eq h.orderby, optValidate_eq h.limitby, optValidate_eq h.limit, optValidate_eq h.offset,
    optValidate_eq h.granularity, optValidate_eq h.totals]

omit U in
theorem findAll_eq : ∀ {xs ys : List Val}, AlikeAll m xs ys → Agree SameColumns (findInAll xs) (findInAll ys)
  | [], [], _ => rfl
  | [], _ :: _, h => h.elim
  | _ :: _, [], h => h.elim
  | x :: xs, y :: ys, h => by
    simp only [findInAll]
    exact agree_append (findColumns_eq x y h.1.eq) (findAll_eq h.2)

omit U in
theorem searchTerms_eq {a b : Val} (h : Alike m a b) : Agree SameColumns (searchTerms a) (searchTerms b) := by
  simp only [searchTerms, h.truthy]
  split
  · exact h.iter.bind fun _ _ h => findAll_eq h
  · rfl

omit U in
theorem searchOne_eq {a b : Val} (h : Alike m a b) : Agree SameColumns (searchOne a) (searchOne b) := by
  simp only [searchOne, h.truthy]
  split
  · exact findColumns_eq a b h.eq
  · rfl

omit U in
theorem searchBody_eq {a b : Body} (h : AlikeBody m a b) : Agree SameColumns (searchBody a) (searchBody b) := by
  unfold searchBody
  refine (searchTerms_eq h.select).bind fun _ _ h1 => ?_
  refine (searchTerms_eq h.groupby).bind fun _ _ h2 => ?_
  refine (searchTerms_eq h.arrayJoin).bind fun _ _ h3 => ?_
  refine (searchTerms_eq h.where_).bind fun _ _ h4 => ?_
  refine (searchTerms_eq h.having).bind fun _ _ h5 => ?_
  refine (searchTerms_eq h.orderby).bind fun _ _ h6 => ?_
  refine (searchOne_eq h.limitby).bind fun _ _ h7 => ?_
  refine (searchOne_eq h.limit).bind fun _ _ h8 => ?_
  refine (searchOne_eq h.offset).bind fun _ _ h9 => ?_
  refine (searchOne_eq h.granularity).bind fun _ _ h10 => ?_
  refine (searchOne_eq h.totals).bind fun _ _ h11 => ?_
  exact listEq_append (listEq_append (listEq_append (listEq_append (listEq_append (listEq_append (listEq_append (listEq_append
    (listEq_append (listEq_append h1 h2) h3) h4) h5) h6) h7) h8) h9) h10) h11

omit U in
theorem innerNames_eq : ∀ {xs ys : List Val}, AlikeAll m xs ys → innerNames xs = innerNames ys
  | [], [], _ => rfl
  | [], _ :: _, h => h.elim
  | _ :: _, [], h => h.elim
  | x :: xs, y :: ys, h => by
    have ih := innerNames_eq h.2
    obtain ⟨h, -⟩ := h
    have hal := h.told
    have h := h.eq
    cases x <;> cases y <;> first
      | exact Bool.noConfusion h
      | skip
    case curried.curried =>
      simp only [pyEq, Bool.and_eq_true] at h
      simp only [innerNames, ih, hal.same h.2]
    case column.column c c' =>
      simp only [pyEq, ColumnObj.pyEq, Bool.and_eq_true, beq_iff_eq] at h
      simp only [innerNames, ih, h.1.1.1]
    all_goals exact ih

omit U in
theorem sameColumns_all {p p' : ColumnObj → Bool} (hp : ∀ a b : ColumnObj, a.pyEq b = true → p a = p' b) :
    ∀ {as bs : List ColumnObj}, SameColumns as bs → as.all p = bs.all p'
  | [], [], _ => rfl
  | [], _ :: _, h => by simp [SameColumns, listEq] at h
  | _ :: _, [], h => by simp [SameColumns, listEq] at h
  | x :: xs, y :: ys, h => by
    simp only [SameColumns, listEq, Bool.and_eq_true] at h
    simp only [List.all_cons, hp x y h.1, sameColumns_all hp h.2]

omit U in
theorem validateSubquery_eq {a b : Body} (h : AlikeBody m a b) {cs ds : List ColumnObj} (hc : SameColumns cs ds) :
    validateSubquery a cs = validateSubquery b ds := by
  have e : ∀ (w : Body) (cs : List ColumnObj), w.select ≠ .none → validateSubquery w cs =
      (do let xs ← w.select.iter; ensure (cs.all fun c => (innerNames xs).contains (some c.name)) .invalidMatch) := by
    intro w cs hw
    unfold validateSubquery
    split
    · rename_i e; exact absurd e hw
    · rfl
  by_cases ha : a.select = .none
  · have hb := h.select.none_iff.1 ha
    unfold validateSubquery
    rw [ha, hb]
  · rw [e a cs ha, e b ds fun hb => ha (h.select.none_iff.2 hb)]
    refine Agree.eq.1 (h.select.iter.bind fun xs ys hx => Agree.eq.2 ?_)
    rw [innerNames_eq hx, sameColumns_all (p' := fun c => (innerNames ys).contains (some c.name)) (fun a b h => ?_) hc]
    simp only [ColumnObj.pyEq, Bool.and_eq_true, beq_iff_eq] at h
    rw [h.1.1.1]

omit U in
theorem validateJoin_eq {rs rs' : List RelObj} (h : listEq RelObj.pyEq rs rs' = true) {cs ds : List ColumnObj} (hc : SameColumns cs ds) :
    validateJoin rs cs = validateJoin rs' ds := by
  simp only [validateJoin, aliasMappings_eq h]
  refine congrArg (ensure · _) (sameColumns_all (fun a b h => ?_) hc)
  simp only [ColumnObj.pyEq, Bool.and_eq_true, beq_iff_eq] at h
  have h2 := h.1.1.2
  cases ha : a.entity <;> cases hb : b.entity <;> rw [ha, hb] at h2 <;> simp only [optEq, Bool.false_eq_true] at h2
  · simp only [EntityObj.pyEq, Bool.and_eq_true, beq_iff_eq] at h2
    simp only [h2.1.1.1, h2.1.1.2]

omit U in
theorem validateModel_eq {d d' : Option DataModel} (hd : optEq DataModel.pyEq d d' = true) : ∀ {cs ds : List ColumnObj}, SameColumns cs ds →
    validateModel d cs = validateModel d' ds
  | [], [], _ => rfl
  | [], _ :: _, h => by simp [SameColumns, listEq] at h
  | _ :: _, [], h => by simp [SameColumns, listEq] at h
  | x :: xs, y :: ys, h => by
    simp only [SameColumns, listEq, Bool.and_eq_true] at h
    simp only [validateModel, validateDataModel_eq h.1 hd, validateModel_eq hd h.2]

omit U in
theorem validateMatchBase_eq {v v' : Val} {a b : Body} (hv : Alike m v v') (h : AlikeBody m a b) :
    validateMatchBase v a = validateMatchBase v' b := by
  unfold validateMatchBase
  refine Agree.eq.1 ((searchBody_eq h).bind fun cs ds hc => Agree.eq.2 ?_)
  have hv := hv.eq
  cases v <;> cases v' <;> first
    | exact Bool.noConfusion hv
    | rfl
    | skip
  all_goals simp only [pyEq, EntityObj.pyEq, StorageObj.pyEq, Bool.and_eq_true, beq_iff_eq] at hv
  · exact validateModel_eq hv.2 hc
  · exact validateModel_eq hv.2 hc
  · exact validateJoin_eq hv.2 hc

omit U in
theorem combineChecks_eq {a b : Body} (h : AlikeBody m a b) : combineChecks a = combineChecks b := by
  have hs : selectMissing a.select = selectMissing b.select := by
    have e : ∀ w : Val, w ≠ .none → selectMissing w = (do let xs ← w.iter; .ok xs.isEmpty) := by
      intro w hw
      cases w <;> first
        | exact absurd rfl hw
        | rfl
    by_cases ha : a.select = .none
    · rw [ha, h.select.none_iff.1 ha]
    · rw [e _ ha, e _ fun hb => ha (h.select.none_iff.2 hb)]
      refine Agree.eq.1 (h.select.iter.bind fun xs ys hx => Agree.eq.2 ?_)
      have := hx.length
      cases xs <;> cases ys <;> simp_all
  have ht : totalsSet a.totals = totalsSet b.totals := by
    have h1 := h.totals.truthy
    have h2 := h.totals.eq
    revert h1 h2
    generalize a.totals = x
    generalize b.totals = y
    intro h1 h2
    cases x <;> cases y <;> first
      | exact Bool.noConfusion h2
      | (simp only [pyEq, beq_iff_eq] at h2; subst h2; rfl)
      | (simp only [totalsSet, h1]; done)
      | rfl
  simp only [combineChecks, hs, ht, h.groupby.truthy]

/-- Queries that are alike have the same outcome of `validate`. -/
theorem AlikeQuery.validate : ∀ {q r : Query}, AlikeQuery m q r → q.validate = r.validate
  | .base v b, .base v' b', h => by
    simp only [Query.validate, h.1.validate, validateClauses_eq h.2, validateMatchBase_eq h.1 h.2, combineChecks_eq h.2]
  | .nested q b, .nested r b', h => by
    simp only [Query.validate, AlikeQuery.validate h.1, validateClauses_eq h.2, combineChecks_eq h.2]
    refine congrArg _ (funext fun _ => congrArg _ (funext fun _ => ?_))
    refine Agree.eq.1 ((searchBody_eq h.2).bind fun cs ds hc => Agree.eq.2 ?_)
    rw [validateSubquery_eq h.1.body hc]
  | .base _ _, .nested _ _, h => h.elim
  | .nested _ _, .base _ _, h => h.elim

/-! ### Texts -/

omit U in
theorem Alike.translate {a b : Val} (h : Alike m a b) (cfg : Cfg) : translate cfg a = translate cfg b :=
  pyEq_prints cfg a b h.eq h.left h.right h.told

omit U in
theorem translateAll_eq {cfg : Cfg} : ∀ {xs ys : List Val}, AlikeAll m xs ys → translateAll cfg xs = translateAll cfg ys
  | [], [], _ => rfl
  | [], _ :: _, h => h.elim
  | _ :: _, [], h => h.elim
  | x :: xs, y :: ys, h => by simp only [translateAll, h.1.translate, translateAll_eq h.2]

omit U in
theorem listClause_eq {a b : Val} (h : Alike m a b) (cfg : Cfg) (k s : Str) : listClause cfg k s a = listClause cfg k s b := by
  simp only [listClause, h.truthy]
  split
  · exact Agree.eq.1 (h.iter.bind fun xs ys hx => Agree.eq.2 (by rw [translateAll_eq hx]))
  · rfl

omit U in
theorem optClause_eq {a b : Val} (h : Alike m a b) (cfg : Cfg) (k : Str) : optClause cfg k a = optClause cfg k b := by
  have e : ∀ w : Val, w ≠ .none → optClause cfg k w = (do let t ← translate cfg w; .ok (k ++ [' '] ++ t)) := by
    intro w hw
    cases w <;> first
      | exact absurd rfl hw
      | rfl
  by_cases ha : a = .none
  · rw [ha, h.none_iff.1 ha]
  · rw [e a ha, e b fun hb => ha (h.none_iff.2 hb), h.translate]

omit U in
theorem bodyClauses_eq {a b : Body} (h : AlikeBody m a b) (cfg : Cfg) : bodyClauses cfg a = bodyClauses cfg b := by
  simp only [bodyClauses, listClause_eq h.select, listClause_eq h.groupby, listClause_eq h.arrayJoin, listClause_eq h.where_,
    listClause_eq h.having, listClause_eq h.orderby, optClause_eq h.limitby, optClause_eq h.limit, optClause_eq h.offset,
    optClause_eq h.granularity, optClause_eq h.totals]

omit U in
theorem AlikeQuery.print : ∀ {q r : Query}, AlikeQuery m q r → ∀ sep, printQuery sep q = printQuery sep r
  | .base v b, .base v' b', h, sep => by
    simp only [printQuery, h.1.cases_on.2.2.2.1, h.1.translate, bodyClauses_eq h.2]
  | .nested q b, .nested r b', h, sep => by simp only [printQuery, AlikeQuery.print h.1, bodyClauses_eq h.2]
  | .base _ _, .nested _ _, h, _ => h.elim
  | .nested _ _, .base _ _, h, _ => h.elim

/-! ### The optimiser -/

omit U in
theorem Alike.pyEq {a b c d : Val} (h : Alike m a b) (h' : Alike m c d) : Verif.pyEq a c = Verif.pyEq b d := by
  rw [Bool.eq_iff_iff]
  constructor
  · intro e
    have e : Alike m a c := ⟨e, h.left, h'.left, h.toldL, h'.toldL⟩
    exact ((h.symm.trans e).trans h').eq
  · intro e
    have e : Alike m b d := ⟨e, h.right, h'.right, h.toldR, h'.toldR⟩
    exact ((h.trans e).trans h'.symm).eq

omit U in
theorem collectRhs_eq {s t : Val} (hs : Alike m s t) : ∀ {xs ys : List Val}, AlikeAll m xs ys →
    (collectRhs s xs = none ∧ collectRhs t ys = none) ∨ ∃ us vs, collectRhs s xs = some us ∧ collectRhs t ys = some vs ∧ AlikeAll m us vs
  | [], [], _ => .inr ⟨[], [], rfl, rfl, trivial⟩
  | [], _ :: _, h => h.elim
  | _ :: _, [], h => h.elim
  | x :: xs, y :: ys, h => by
    have ih := collectRhs_eq hs h.2
    obtain ⟨h, -⟩ := h
    have hp := h.eq
    cases x <;> cases y <;> first
      | exact Bool.noConfusion hp
      | exact .inl ⟨rfl, rfl⟩
      | skip
    case cond.cond l o r l' o' r' =>
      simp only [Verif.pyEq, Bool.and_eq_true, beq_iff_eq] at hp
      obtain ⟨⟨hl, rfl⟩, hr⟩ := hp
      have hl := h.child (x := l) (y := l') (by simp [Val.children]) (by simp [Val.children]) hl
      have hr := h.child (x := r) (y := r') (by simp [Val.children]) (by simp [Val.children]) hr
      simp only [collectRhs, hs.truthy, hl.pyEq hs]
      split
      · exact .inl ⟨rfl, rfl⟩
      · rcases ih with ⟨e, e'⟩ | ⟨us, vs, e, e', hu⟩
        · rw [e, e']; exact .inl ⟨rfl, rfl⟩
        · rw [e, e']; exact .inr ⟨_, _, rfl, rfl, hr, hu⟩

omit U in
theorem alikeAll_pyEq : ∀ {xs ys : List Val}, AlikeAll m xs ys → pyEqList xs ys = true ∧ (∀ x ∈ xs, Ordinary x ∧ Told m x) ∧
    ∀ y ∈ ys, Ordinary y ∧ Told m y
  | [], [], _ => ⟨rfl, by simp, by simp⟩
  | [], _ :: _, h => h.elim
  | _ :: _, [], h => h.elim
  | x :: xs, y :: ys, h => by
    obtain ⟨h1, h2, h3⟩ := alikeAll_pyEq h.2
    refine ⟨by simp [pyEqList, h.1.eq, h1], ?_, ?_⟩
    · intro z hz
      rcases List.mem_cons.1 hz with rfl | hz
      · exact ⟨h.1.left, h.1.toldL⟩
      · exact h2 z hz
    · intro z hz
      rcases List.mem_cons.1 hz with rfl | hz
      · exact ⟨h.1.right, h.1.toldR⟩
      · exact h3 z hz

omit U in
/-- A value that is neither a number in disguise nor sampled nor a datetime is ordinary if its children are. -/
theorem ordinary_of {v : Val} (hd : ¬ Disguised v) (hs : ownSamples v = []) (ht : ∀ t, v ≠ .datetime t)
    (h : ∀ x ∈ v.children, Ordinary x) : Ordinary v := by
  intro x hx
  cases hx with
  | here => exact ⟨hd, by simp [hs], fun t e => (ht t e).elim⟩
  | list _ y hy h' => exact h y hy x h'
  | tuple _ y hy h' => exact h y hy x h'
  | init _ _ _ _ _ _ _ y hy h' => exact h y (by simp [Val.children, hy]) x h'
  | param _ _ _ _ _ _ _ y hy h' => exact h y (by simp [Val.children, hy]) x h'
  | body _ _ y h' => exact h y (by simp [Val.children]) x h'
  | lhs _ _ _ h' => exact h _ (by simp [Val.children]) x h'
  | rhs _ _ _ h' => exact h _ (by simp [Val.children]) x h'
  | item _ _ _ _ y hy h' => exact h y hy x h'
  | ordered _ _ h' => exact h _ (by simp [Val.children]) x h'

omit U in
theorem told_of {v : Val} (hf : ∀ f n ik is pk ps a, v ≠ .curried f n ik is pk ps a) (h : ∀ x ∈ v.children, Told m x) : Told m v := by
  have key : ∀ P : Val → Prop, (∀ x ∈ v.children, ∀ y, Part y x → P y) → P v → ∀ y, Part y v → P y := by
    intro P h hv y hy
    cases hy with
    | here => exact hv
    | list _ z hz h' => exact h z hz y h'
    | tuple _ z hz h' => exact h z hz y h'
    | init _ _ _ _ _ _ _ z hz h' => exact h z (by simp [Val.children, hz]) y h'
    | param _ _ _ _ _ _ _ z hz h' => exact h z (by simp [Val.children, hz]) y h'
    | body _ _ z h' => exact h z (by simp [Val.children]) y h'
    | lhs _ _ _ h' => exact h _ (by simp [Val.children]) y h'
    | rhs _ _ _ h' => exact h _ (by simp [Val.children]) y h'
    | item _ _ _ _ z hz h' => exact h z hz y h'
    | ordered _ _ h' => exact h _ (by simp [Val.children]) y h'
  cases m
  · exact key _ (fun x hx y hy => h x hx y hy) fun f n ik is pk ps a e => (hf _ _ _ _ _ _ _ e).elim
  · exact key _ (fun x hx y hy => h x hx y hy) fun f n ik is pk ps a e => (hf _ _ _ _ _ _ _ e).elim

omit U in
theorem alike_list {xs ys : List Val} (h : AlikeAll m xs ys) : Alike m (.list xs) (.list ys) := by
  obtain ⟨h1, h2, h3⟩ := alikeAll_pyEq h
  exact ⟨by simpa [Verif.pyEq] using h1, ordinary_of (by rintro ⟨⟩) rfl (by rintro t ⟨⟩) fun x hx => (h2 x hx).1,
    ordinary_of (by rintro ⟨⟩) rfl (by rintro t ⟨⟩) fun x hx => (h3 x hx).1, told_of (by rintro _ _ _ _ _ _ _ ⟨⟩) fun x hx => (h2 x hx).2,
    told_of (by rintro _ _ _ _ _ _ _ ⟨⟩) fun x hx => (h3 x hx).2⟩

omit U in
theorem alike_cond {l l' r r' : Val} {o : Op} (hl : Alike m l l') (hr : Alike m r r') : Alike m (.cond l o r) (.cond l' o r') := by
  refine ⟨by simp [Verif.pyEq, hl.eq, hr.eq], ordinary_of (by rintro ⟨⟩) rfl (by rintro t ⟨⟩) ?_,
    ordinary_of (by rintro ⟨⟩) rfl (by rintro t ⟨⟩) ?_, told_of (by rintro _ _ _ _ _ _ _ ⟨⟩) ?_, told_of (by rintro _ _ _ _ _ _ _ ⟨⟩) ?_⟩ <;>
  · intro x hx
    simp only [Val.children, List.mem_cons, List.not_mem_nil, or_false] at hx
    rcases hx with rfl | rfl
    · first | exact hl.left | exact hl.right | exact hl.toldL | exact hl.toldR
    · first | exact hr.left | exact hr.right | exact hr.toldL | exact hr.toldR

/-- What the optimiser makes of a condition: nothing, or the same new condition. -/
def AlikeOpt (m : Bool) : Option Val → Option Val → Prop
  | none, none => True
  | some a, some b => Alike m a b
  | _, _ => False

omit U in
theorem optimizeCondition_eq {a b : Val} (h : Alike m a b) : Agree (AlikeOpt m) (optimizeCondition a) (optimizeCondition b) := by
  have hp := h.eq
  cases a <;> cases b <;> first
    | exact Bool.noConfusion hp
    | exact trivial
    | skip
  case boolCond.boolCond c o k cs c' o' k' cs' =>
    simp only [Verif.pyEq, Bool.and_eq_true, beq_iff_eq] at hp
    obtain ⟨⟨⟨rfl, rfl⟩, rfl⟩, hp⟩ := hp
    have hcs : AlikeAll m cs cs' := h.children (fun _ h => h) (fun _ h => h) hp
    cases o
    case and => exact trivial
    case or =>
      cases cs with
      | nil => cases cs' with
        | nil => exact trivial
        | cons y ys => exact hcs.elim
      | cons x xs => cases cs' with
        | nil => exact hcs.elim
        | cons y ys =>
          obtain ⟨hx, hxs⟩ := hcs
          have hq := hx.eq
          cases x <;> cases y <;> first
            | exact Bool.noConfusion hq
            | exact trivial
            | skip
          case cond.cond l o r l' o' r' =>
            simp only [Verif.pyEq, Bool.and_eq_true, beq_iff_eq] at hq
            obtain ⟨⟨hl, rfl⟩, hr⟩ := hq
            have hl := hx.child (x := l) (y := l') (by simp [Val.children]) (by simp [Val.children]) hl
            have hr := hx.child (x := r) (y := r') (by simp [Val.children]) (by simp [Val.children]) hr
            cases o
            case eq =>
              simp only [optimizeCondition]
              rcases collectRhs_eq hl hxs with ⟨e, e'⟩ | ⟨us, vs, e, e', hu⟩
              · rw [e, e']; exact trivial
              · rw [e, e']
                have hn : Alike m (.list (r :: us)) (.list (r' :: vs)) := alike_list ⟨hr, hu⟩
                simp only [mkCondition, checkCondition_eq (o := .in_) hl.eq hn.eq]
                cases checkCondition l' (.op .in_) (.list (r' :: vs)) with
                | error e => rfl
                | ok o => exact alike_cond hl hn
            all_goals exact trivial

omit U in
theorem optimizeLoop_eq : ∀ {xs ys : List Val}, AlikeAll m xs ys →
    Agree (fun p q => AlikeAll m p.1 q.1 ∧ p.2 = q.2) (optimizeLoop xs) (optimizeLoop ys)
  | [], [], _ => ⟨trivial, rfl⟩
  | [], _ :: _, h => h.elim
  | _ :: _, [], h => h.elim
  | x :: xs, y :: ys, h => by
    simp only [optimizeLoop]
    refine (optimizeCondition_eq h.1).bind fun a b hab => (optimizeLoop_eq h.2).bind fun p q hpq => ?_
    cases a <;> cases b <;> simp only [AlikeOpt] at hab
    · exact ⟨⟨h.1, hpq.1⟩, hpq.2⟩
    · exact ⟨⟨hab, hpq.1⟩, rfl⟩

theorem withBody_eq : ∀ {q r : Query}, AlikeQuery m q r → ∀ {a b : Body}, AlikeBody m a b →
    Agree (AlikeQuery m) (q.withBody a) (r.withBody b)
  | .base v _, .base v' _, h, a, b, hb => by
    simp only [Query.withBody, mkQuery, h.1.cases_on.2.2.1]
    cases v'.isMatch
    · rfl
    · exact ⟨h.1, hb⟩
  | .nested q _, .nested r _, h, a, b, hb => by
    simp only [Query.withBody, mkNested, AlikeQuery.validate h.1]
    cases r.validate
    · rfl
    · exact ⟨h.1, hb⟩
  | .base _ _, .nested _ _, h, _, _, _ => h.elim
  | .nested _ _, .base _ _, h, _, _, _ => h.elim

theorem optimize_eq {q r : Query} (h : AlikeQuery m q r) : Agree (AlikeQuery m) q.optimize r.optimize := by
  have hw := h.body.where_
  have e : ∀ q : Query, q.body.where_ ≠ .none → q.optimize = (do
      let xs ← q.body.where_.iter
      let o ← Verif.optimize xs
      match o with
      | some new => q.withBody { q.body with where_ := .list new }
      | none => .ok q) := by
    intro q hn
    unfold Query.optimize
    split
    · rename_i e; exact absurd e hn
    · rfl
  by_cases hq : q.body.where_ = .none
  · have hr := hw.none_iff.1 hq
    simp only [Query.optimize, hq, hr]
    exact h
  · rw [e q hq, e r fun hr => hq (hw.none_iff.2 hr)]
    refine hw.iter.bind fun xs ys hx => ?_
    simp only [Verif.optimize]
    have hl := optimizeLoop_eq hx
    revert hl
    cases optimizeLoop xs <;> cases optimizeLoop ys <;> intro hl <;> simp only [Agree] at hl
    · subst hl; rfl
    · rename_i p p'
      obtain ⟨new, opt⟩ := p
      obtain ⟨new', opt'⟩ := p'
      obtain ⟨hn, rfl⟩ := hl
      cases opt
      · exact h
      · have hb := h.body
        exact withBody_eq h ⟨hb.select, hb.groupby, hb.arrayJoin, alike_list hn, hb.having, hb.orderby, hb.limitby, hb.limit, hb.offset,
          hb.granularity, hb.totals⟩

/-- Queries that are alike are sent as the same text. -/
theorem AlikeQuery.serialize {q r : Query} (h : AlikeQuery m q r) : q.serialize = r.serialize := by
  simp only [Query.serialize, h.validate]
  refine congrArg _ (funext fun _ => ?_)
  exact Agree.eq.1 ((optimize_eq h).bind fun a b hab => Agree.eq.2 (hab.print _))

end Queries

/-! ### The laws of equality -/

theorem body_symm {a b : Body} (h : a.pyEq b = true) : b.pyEq a = true := by
  simp only [Body.pyEq, Bool.and_eq_true] at h ⊢
  obtain ⟨⟨⟨⟨⟨⟨⟨⟨⟨⟨h1, h2⟩, h3⟩, h4⟩, h5⟩, h6⟩, h7⟩, h8⟩, h9⟩, h10⟩, h11⟩ := h
  exact ⟨⟨⟨⟨⟨⟨⟨⟨⟨⟨pyEq_symm _ _ h1, pyEq_symm _ _ h2⟩, pyEq_symm _ _ h3⟩, pyEq_symm _ _ h4⟩, pyEq_symm _ _ h5⟩, pyEq_symm _ _ h6⟩,
    pyEq_symm _ _ h7⟩, pyEq_symm _ _ h8⟩, pyEq_symm _ _ h9⟩, pyEq_symm _ _ h10⟩, pyEq_symm _ _ h11⟩

theorem query_symm : ∀ {q r : Query}, q.pyEq r = true → r.pyEq q = true
  | .base _ _, .base _ _, h => by
    simp only [Query.pyEq, Bool.and_eq_true] at h ⊢
    exact ⟨pyEq_symm _ _ h.1, body_symm h.2⟩
  | .nested _ _, .nested _ _, h => by
    simp only [Query.pyEq, Bool.and_eq_true] at h ⊢
    exact ⟨query_symm h.1, body_symm h.2⟩
  | .base _ _, .nested _ _, h => by simp [Query.pyEq] at h
  | .nested _ _, .base _ _, h => by simp [Query.pyEq] at h

theorem query_refl : ∀ (q : Query), Throughout NoNans q → q.pyEq q = true
  | .base m b, h => by
    simp only [Query.pyEq, Body.pyEq, Bool.and_eq_true]
    refine ⟨pyEq_refl m (h m (.match_ _ _)), ⟨⟨⟨⟨⟨⟨⟨⟨⟨⟨?_, ?_⟩, ?_⟩, ?_⟩, ?_⟩, ?_⟩, ?_⟩, ?_⟩, ?_⟩, ?_⟩, ?_⟩⟩ <;>
      exact pyEq_refl _ (h _ (.own _ _ (by simp [Query.body])))
  | .nested q b, h => by
    simp only [Query.pyEq, Body.pyEq, Bool.and_eq_true]
    refine ⟨query_refl q fun v hv => h v (.inner _ _ _ hv), ⟨⟨⟨⟨⟨⟨⟨⟨⟨⟨?_, ?_⟩, ?_⟩, ?_⟩, ?_⟩, ?_⟩, ?_⟩, ?_⟩, ?_⟩, ?_⟩, ?_⟩⟩ <;>
      exact pyEq_refl _ (h _ (.own _ _ (by simp [Query.body])))

theorem query_trans_body {q r s : Query} (hf : Throughout OnlyFunctions r ∨ (Throughout NoAliases q ∧ Throughout NoAliases s))
    (h : q.body.pyEq r.body = true) (h' : r.body.pyEq s.body = true) : q.body.pyEq s.body = true := by
  simp only [Body.pyEq, Bool.and_eq_true] at h h' ⊢
  obtain ⟨⟨⟨⟨⟨⟨⟨⟨⟨⟨h1, h2⟩, h3⟩, h4⟩, h5⟩, h6⟩, h7⟩, h8⟩, h9⟩, h10⟩, h11⟩ := h
  obtain ⟨⟨⟨⟨⟨⟨⟨⟨⟨⟨k1, k2⟩, k3⟩, k4⟩, k5⟩, k6⟩, k7⟩, k8⟩, k9⟩, k10⟩, k11⟩ := h'
  have key : ∀ {x y z : Val}, MadeOf q x → MadeOf r y → MadeOf s z → pyEq x y = true → pyEq y z = true → pyEq x z = true :=
    fun hx hy hz e e' => pyEq_trans_either _ _ _ (hf.imp (fun h => h _ hy) fun h => ⟨h.1 _ hx, h.2 _ hz⟩) e e'
  refine ⟨⟨⟨⟨⟨⟨⟨⟨⟨⟨key ?_ ?_ ?_ h1 k1, key ?_ ?_ ?_ h2 k2⟩, key ?_ ?_ ?_ h3 k3⟩, key ?_ ?_ ?_ h4 k4⟩, key ?_ ?_ ?_ h5 k5⟩,
    key ?_ ?_ ?_ h6 k6⟩, key ?_ ?_ ?_ h7 k7⟩, key ?_ ?_ ?_ h8 k8⟩, key ?_ ?_ ?_ h9 k9⟩, key ?_ ?_ ?_ h10 k10⟩, key ?_ ?_ ?_ h11 k11⟩ <;>
    exact .own _ _ (by simp)

theorem query_trans : ∀ {q r s : Query}, (Throughout OnlyFunctions r ∨ (Throughout NoAliases q ∧ Throughout NoAliases s)) →
    q.pyEq r = true → r.pyEq s = true → q.pyEq s = true := by
  intro q
  induction q with
  | base m b =>
    intro r s hf h h'
    cases r with
    | nested _ _ => simp [Query.pyEq] at h
    | base m' b' => cases s with
      | nested _ _ => simp [Query.pyEq] at h'
      | base m'' b'' =>
        simp only [Query.pyEq, Bool.and_eq_true] at h h' ⊢
        exact ⟨pyEq_trans_either _ _ _ (hf.imp (fun h => h _ (.match_ _ _)) fun h => ⟨h.1 _ (.match_ _ _), h.2 _ (.match_ _ _)⟩) h.1 h'.1,
          query_trans_body (q := .base m b) (r := .base m' b') (s := .base m'' b'') hf h.2 h'.2⟩
  | nested q b ih =>
    intro r s hf h h'
    cases r with
    | base _ _ => simp [Query.pyEq] at h
    | nested r b' => cases s with
      | base _ _ => simp [Query.pyEq] at h'
      | nested s b'' =>
        simp only [Query.pyEq, Bool.and_eq_true] at h h' ⊢
        exact ⟨ih (hf.imp (fun h v hv => h v (.inner _ _ _ hv)) fun h => ⟨fun v hv => h.1 v (.inner _ _ _ hv), fun v hv => h.2 v (.inner _ _ _ hv)⟩) h.1 h'.1,
          query_trans_body (q := .nested q b) (r := .nested r b') (s := .nested s b'') hf h.2 h'.2⟩

/-! ### Hashes -/

theorem told_aliases {m : Bool} {a b : Val} (ha : Told m a) (hb : Told m b) : AliasesTold a b := by
  cases m
  · exact .inr ⟨ha, hb⟩
  · exact .inl ⟨ha, hb⟩

theorem query_hash {m : Bool} : ∀ {q r : Query}, q.pyEq r = true → Throughout (Told m) q → Throughout (Told m) r → q.hashTree = r.hashTree := by
  have body : ∀ {q r : Query}, q.body.pyEq r.body = true → Throughout (Told m) q → Throughout (Told m) r → q.body.hashTrees = r.body.hashTrees := by
    intro q r h hq hr
    simp only [Body.pyEq, Bool.and_eq_true] at h
    obtain ⟨⟨⟨⟨⟨⟨⟨⟨⟨⟨h1, h2⟩, h3⟩, h4⟩, h5⟩, h6⟩, h7⟩, h8⟩, h9⟩, h10⟩, h11⟩ := h
    refine hashTrees_eq (fun x hx y hy e => pyEq_hash x y e (told_aliases (hq x (.own _ _ hx)) (hr y (.own _ _ hy)))) ?_
    simp only [pyEqList, h1, h2, h3, h4, h5, h6, h7, h8, h9, h10, h11, Bool.and_self]
  intro q
  induction q with
  | base v b =>
    intro r h hq hr
    cases r with
    | nested _ _ => simp [Query.pyEq] at h
    | base v' b' =>
      simp only [Query.pyEq, Bool.and_eq_true] at h
      have hb := body (q := .base v b) (r := .base v' b') h.2 hq hr
      simp only [Query.body] at hb
      simp only [Query.hashTree, hb, pyEq_hash v v' h.1 (told_aliases (hq v (.match_ _ _)) (hr v' (.match_ _ _)))]
  | nested q b ih =>
    intro r h hq hr
    cases r with
    | base _ _ => simp [Query.pyEq] at h
    | nested r b' =>
      simp only [Query.pyEq, Bool.and_eq_true] at h
      have hb := body (q := .nested q b) (r := .nested r b') h.2 hq hr
      simp only [Query.body] at hb
      simp only [Query.hashTree, hb, ih h.1 (fun v hv => hq v (.inner _ _ _ hv)) fun v hv => hr v (.inner _ _ _ hv)]

theorem fields_ok {x : Except Err HashTree} {y : Except Err (List HashTree)} :
    (∃ t, (do let h ← x; let hs ← y; .ok (HashTree.fields (h :: hs)) : Except Err HashTree) = .ok t) ↔ (∃ t, x = .ok t) ∧ ∃ t, y = .ok t := by
  cases x <;> cases y <;> simp [bind, Except.bind]

theorem query_hashable : ∀ q : Query, (∃ t, q.hashTree = .ok t) ↔ ∀ v, MadeOf q v → ¬ Unhashable v := by
  have body : ∀ b : Body, (∃ ts, b.hashTrees = .ok ts) ↔
      ∀ v ∈ [b.select, b.groupby, b.arrayJoin, b.where_, b.having, b.orderby, b.limitby, b.limit, b.offset, b.granularity, b.totals], ¬ Unhashable v :=
    fun b => hashTrees_ok fun x _ => hashTree_ok x
  intro q
  induction q with
  | base m b =>
    simp only [Query.hashTree]
    rw [fields_ok, hashTree_ok, body]
    constructor
    · rintro ⟨h1, h2⟩ v hv
      cases hv with
      | match_ => exact h1
      | own _ _ h => exact h2 v h
    · exact fun h => ⟨h m (.match_ _ _), fun v hv => h v (.own _ _ hv)⟩
  | nested q b ih =>
    simp only [Query.hashTree]
    rw [fields_ok, ih, body]
    constructor
    · rintro ⟨h1, h2⟩ v hv
      cases hv with
      | own _ _ h => exact h2 v h
      | inner _ _ _ h => exact h1 v h
    · exact fun h => ⟨fun v hv => h v (.inner _ _ _ hv), fun v hv => h v (.own _ _ hv)⟩

theorem query_hash_error : ∀ (q : Query) {e : Err}, q.hashTree = .error e → e = .typeError := by
  have body : ∀ (b : Body) {e : Err}, b.hashTrees = .error e → e = .typeError :=
    fun b e h => hashTrees_error (fun x _ e he => hashTree_error x he) h
  intro q
  induction q with
  | base m b =>
    intro e h
    simp only [Query.hashTree] at h
    rcases bind_eq_error.1 h with h | ⟨_, _, h⟩
    · exact hashTree_error m h
    · rcases bind_eq_error.1 h with h | ⟨_, _, h⟩
      · exact body b h
      · cases h
  | nested q b ih =>
    intro e h
    simp only [Query.hashTree] at h
    rcases bind_eq_error.1 h with h | ⟨_, _, h⟩
    · exact ih h
    · rcases bind_eq_error.1 h with h | ⟨_, _, h⟩
      · exact body b h
      · cases h

end Verif
