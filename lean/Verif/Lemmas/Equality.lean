import Verif.Spec.Equality
import Verif.Lemmas.Nearest
import Verif.Lemmas.RequestEqual

/-!
# Lemmas: equality is what the specification says
-/

namespace Verif
open Spec

/-! ### Numbers -/

theorem floatValue_zero {d : Dbl} (h : d.m = 0) : floatValue d = 0 := by simp [floatValue, h]

theorem floatValue_eq_iff (a b : Dbl) : floatValue a = floatValue b ↔ a.m = b.m ∧ a.e = b.e ∧ (a.neg = b.neg ∨ a.m = 0) := by
  constructor
  · intro h
    by_cases h0 : a.m = 0
    · by_cases h1 : b.m = 0
      · rcases dbl_cases a with ha | ha <;> rcases dbl_cases b with hb | hb <;> omega
      · have := floatValue_inj h1 h.symm
        subst this; exact ⟨rfl, rfl, .inl rfl⟩
    · have := floatValue_inj h0 h
      subst this; exact ⟨rfl, rfl, .inl rfl⟩
  · rintro ⟨hm, he, hn | h0⟩
    · unfold floatValue; rw [hm, he, hn]
    · rw [floatValue_zero h0, floatValue_zero (hm ▸ h0)]

theorem eqF_iff (f g : PyFloat) : f.eqF g = true ↔ EqualRate f g := by
  unfold EqualRate
  cases f <;> cases g <;> simp [PyFloat.eqF, floatAmount, and_assoc]
  · rename_i a b
    rw [eq_comm, floatValue_eq_iff, eq_comm (a := a.m), eq_comm (a := a.e), eq_comm (a := a.neg)]
    constructor
    · rintro ⟨h1, h2, h3⟩; exact ⟨h1, h2, h3.imp id (fun h => by omega)⟩
    · rintro ⟨h1, h2, h3⟩; exact ⟨h1, h2, h3.imp id (fun h => by omega)⟩
  · exact eq_comm

theorem eqInt_iff (f : PyFloat) (i : Int) : f.eqInt i = true ↔ floatAmount f = some (.fin i) := by
  cases f with
  | nan => simp [PyFloat.eqInt, floatAmount]
  | inf n => simp [PyFloat.eqInt, floatAmount]
  | fin d =>
    simp only [PyFloat.eqInt, floatAmount, Dbl.toInt?, Option.some.injEq, Amount.fin.injEq, beq_iff_eq]
    split
    · rename_i he
      have hv : floatValue d = ((if d.neg then -((d.m * 2 ^ d.e.toNat : Nat) : Int) else ((d.m * 2 ^ d.e.toNat : Nat) : Int) : Int) : ℚ) := by
        unfold floatValue
        have : (2 : ℚ) ^ d.e = 2 ^ d.e.toNat := by
          conv => lhs; rw [← Int.toNat_of_nonneg he]
          exact zpow_natCast _ _
        rw [this]
        cases d.neg <;> simp
      rw [hv, Option.some.injEq]
      exact ⟨fun h => by rw [h], fun h => by exact_mod_cast h⟩
    · rename_i he
      simp only [reduceCtorEq, false_iff]
      intro h
      rcases dbl_cases d with h0 | h1
      · omega
      have hk : (0 : Int) < -d.e := by omega
      obtain ⟨k, hk'⟩ : ∃ k : Nat, d.e = -(k + 1 : Nat) := ⟨(-d.e).toNat - 1, by omega⟩
      have ha : (d.m : ℚ) = (i.natAbs : ℚ) * 2 ^ (k + 1) := by
        have := abs_floatValue d
        rw [h, hk', zpow_neg, zpow_natCast] at this
        have e2 : |(i : ℚ)| = (i.natAbs : ℚ) := by rw [← Int.cast_abs, Int.abs_eq_natAbs]; rfl
        rw [e2] at this
        rw [this]
        field_simp
      have ha' : d.m = i.natAbs * 2 ^ (k + 1) := by exact_mod_cast ha
      rw [pow_succ, ← mul_assoc] at ha'
      omega

theorem number_of {v w : Val} {x y : Amount} (hv : amountOf v = some x) (hw : amountOf w = some y) : pyEq v w = true ↔ x = y := by
  have bit : ∀ b : Bool, ((if b then 1 else 0 : ℚ)) = (((if b then 1 else 0 : Int)) : ℚ) := by intro b; cases b <;> simp
  cases v with
  | bool a =>
    injection hv with hv; subst hv
    cases w with
    | bool b => injection hw with hw; subst hw; cases a <;> cases b <;> simp [pyEq]
    | int i =>
      injection hw with hw; subst hw
      simp only [pyEq, beq_iff_eq, Amount.fin.injEq]
      rw [bit]
      exact_mod_cast Iff.rfl
    | float g =>
      simp only [pyEq, eqInt_iff]
      rw [show floatAmount g = some y from hw, Option.some.injEq, bit]
      exact eq_comm
    | _ => cases hw
  | int i =>
    injection hv with hv; subst hv
    cases w with
    | bool b =>
      injection hw with hw; subst hw
      simp only [pyEq, beq_iff_eq, Amount.fin.injEq]
      rw [bit]
      exact_mod_cast Iff.rfl
    | int j =>
      injection hw with hw; subst hw
      simp [pyEq]
    | float g =>
      simp only [pyEq, eqInt_iff]
      rw [show floatAmount g = some y from hw, Option.some.injEq]
      exact eq_comm
    | _ => cases hw
  | float f =>
    cases w with
    | bool b =>
      injection hw with hw; subst hw
      simp only [pyEq, eqInt_iff]
      rw [show floatAmount f = some x from hv, Option.some.injEq, bit]
    | int j =>
      injection hw with hw; subst hw
      simp only [pyEq, eqInt_iff]
      rw [show floatAmount f = some x from hv, Option.some.injEq]
    | float g =>
      simp only [pyEq, eqF_iff, EqualRate]
      rw [show floatAmount f = some x from hv, show floatAmount g = some y from hw]
      simp [eq_comm]
    | _ => cases hw
  | _ => cases hv

/-! ### Values -/

theorem time_iff (a b : Datetime) : a.pyEq b = true ↔ EqualTime a b := by
  have hc : ∀ t : Datetime, t.localMicros = clock t := fun t => localMicros_eq t
  unfold Datetime.pyEq
  constructor
  · intro h
    rw [hc, hc] at h
    rcases ha : a.tz with _ | _ | x <;> rcases hb : b.tz with _ | _ | y <;> rw [ha, hb] at h <;>
      simp only [Option.bind_none, Option.bind_some, id, beq_iff_eq, Bool.false_eq_true] at h
    all_goals first
      | exact .aware x y ha hb h
      | exact .naive (by simp [ha]) (by simp [hb]) h
  · intro h
    rw [hc, hc]
    cases h with
    | naive h1 h2 h =>
      rcases ha : a.tz with _ | _ | x <;> rcases hb : b.tz with _ | _ | y <;>
        first | exact absurd ha (h1 _) | exact absurd hb (h2 _) | simpa using h
    | aware x y h1 h2 h => rw [h1, h2]; simpa using h

theorem optEq_iff {α : Type} {f : α → α → Bool} {R : α → α → Prop} (h : ∀ a b, f a b = true ↔ R a b) (x y : Option α) :
    optEq f x y = true ↔ BothOr R x y := by
  constructor
  · intro e
    cases x <;> cases y <;> simp only [optEq, Bool.false_eq_true] at e
    · exact .none
    · exact .some _ _ ((h _ _).1 e)
  · rintro (_ | ⟨a, b, e⟩)
    · rfl
    · exact (h _ _).2 e

theorem listEq_iff {α : Type} {f : α → α → Bool} {R : α → α → Prop} (h : ∀ a b, f a b = true ↔ R a b) : ∀ xs ys : List α,
    listEq f xs ys = true ↔ Aligned R xs ys
  | [], [] => ⟨fun _ => .nil, fun _ => rfl⟩
  | [], _ :: _ => ⟨nofun, nofun⟩
  | _ :: _, [] => ⟨nofun, nofun⟩
  | x :: xs, y :: ys => by
    simp only [listEq, Bool.and_eq_true, h, listEq_iff h xs ys]
    exact ⟨fun e => .cons _ _ _ _ e.1 e.2, fun e => by cases e with | cons _ _ _ _ e1 e2 => exact ⟨e1, e2⟩⟩

theorem model_iff (a b : DataModel) : a.pyEq b = true ↔ EqualModel a b := by
  simp only [DataModel.pyEq, EqualModel, Bool.and_eq_true, List.all_eq_true, List.contains_iff_mem, beq_iff_eq]
  constructor
  · rintro ⟨⟨h1, h2⟩, h3⟩; exact ⟨fun c => ⟨h1 c, h2 c⟩, h3⟩
  · rintro ⟨h1, h3⟩; exact ⟨⟨fun c => (h1 c).1, fun c => (h1 c).2⟩, h3⟩

theorem entity_iff (a b : EntityObj) : a.pyEq b = true ↔ EqualEntity a b := by
  simp only [EntityObj.pyEq, Bool.and_eq_true, beq_iff_eq, optEq_iff eqF_iff, optEq_iff model_iff]
  exact ⟨fun h => ⟨h.1.1.1, h.1.1.2, h.1.2, h.2⟩, fun h => ⟨⟨⟨h.name, h.as⟩, h.sample⟩, h.model⟩⟩

theorem storage_iff (a b : StorageObj) : a.pyEq b = true ↔ EqualStorage a b := by
  simp only [StorageObj.pyEq, Bool.and_eq_true, beq_iff_eq, optEq_iff eqF_iff, optEq_iff model_iff]
  exact ⟨fun h => ⟨h.1.1, h.1.2, h.2⟩, fun h => ⟨⟨h.name, h.sample⟩, h.model⟩⟩

theorem column_iff (a b : ColumnObj) : a.pyEq b = true ↔ EqualColumn a b := by
  simp only [ColumnObj.pyEq, Bool.and_eq_true, beq_iff_eq, optEq_iff entity_iff]
  exact ⟨fun h => ⟨h.1.1.1, h.1.1.2, h.1.2, h.2⟩, fun h => ⟨⟨⟨h.name, h.entity⟩, h.subscriptable⟩, h.key⟩⟩

theorem rel_iff (a b : RelObj) : a.pyEq b = true ↔ EqualRel a b := by
  simp only [RelObj.pyEq, Bool.and_eq_true, beq_iff_eq, entity_iff]
  exact ⟨fun h => ⟨h.1.1, h.1.2, h.2⟩, fun h => ⟨⟨h.lhs, h.name⟩, h.rhs⟩⟩

theorem equalAll_of : ∀ {xs ys : List Val}, (∀ x ∈ xs, ∀ y, pyEq x y = true → Equal x y) → pyEqList xs ys = true → EqualAll xs ys
  | [], [], _, _ => .nil
  | [], _ :: _, _, h => nomatch h
  | _ :: _, [], _, h => nomatch h
  | x :: xs, y :: ys, ih, h => by
    simp only [pyEqList, Bool.and_eq_true] at h
    exact .cons _ _ _ _ (ih x (by simp) y h.1) (equalAll_of (fun z hz => ih z (by simp [hz])) h.2)

theorem number_none {v w : Val} (h : pyEq v w = true) (hn : ¬ ∃ x y, amountOf v = some x ∧ amountOf w = some y) :
    amountOf v = none ∧ amountOf w = none ∧ (∀ f, v ≠ .float f) := by
  have key : ∀ f : PyFloat, (∃ x, floatAmount f = some x) ∨ f = .nan := by
    intro f; cases f <;> simp [floatAmount]
  cases v with
  | bool a =>
    cases w with
    | bool b => exact absurd ⟨_, _, rfl, rfl⟩ hn
    | int b => exact absurd ⟨_, _, rfl, rfl⟩ hn
    | float g =>
      rcases key g with ⟨y, hy⟩ | rfl
      · exact absurd ⟨_, _, rfl, hy⟩ hn
      · cases h
    | _ => cases h
  | int a =>
    cases w with
    | bool b => exact absurd ⟨_, _, rfl, rfl⟩ hn
    | int b => exact absurd ⟨_, _, rfl, rfl⟩ hn
    | float g =>
      rcases key g with ⟨y, hy⟩ | rfl
      · exact absurd ⟨_, _, rfl, hy⟩ hn
      · cases h
    | _ => cases h
  | float f =>
    rcases key f with ⟨x, hx⟩ | rfl
    · cases w with
      | bool b => exact absurd ⟨_, _, hx, rfl⟩ hn
      | int b => exact absurd ⟨_, _, hx, rfl⟩ hn
      | float g =>
        rcases key g with ⟨y, hy⟩ | rfl
        · exact absurd ⟨_, _, hx, hy⟩ hn
        · cases f <;> cases h
      | _ => cases h
    · cases w <;> cases h
  | _ => cases w <;> first | exact ⟨rfl, rfl, nofun⟩ | cases h

theorem equal_of : ∀ v w : Val, pyEq v w = true → Equal v w := by
  intro v
  induction v using Val.childInd with
  | step v ih =>
    intro w h
    by_cases hv : ∃ x y, amountOf v = some x ∧ amountOf w = some y
    · obtain ⟨x, y, hx, hy⟩ := hv
      exact .number _ _ x hx ((number_of hx hy).1 h ▸ hy)
    obtain ⟨h1, h2, h3⟩ := number_none h hv
    clear hv
    cases v <;> cases w <;> first
      | exact Bool.noConfusion h
      | (cases h1; done)
      | (cases h2; done)
      | exact absurd rfl (h3 _)
      | skip
    all_goals clear h1 h2 h3
    all_goals simp only [pyEq, Bool.and_eq_true, beq_iff_eq, Val.children, time_iff, column_iff, entity_iff, storage_iff, rel_iff, model_iff,
      listEq_iff column_iff, listEq_iff rel_iff] at h ih
    case none => exact .none
    case str => subst h; exact .str _
    case bytes => subst h; exact .bytes _
    case date => subst h; exact .date _
    case datetime => exact .datetime _ _ h
    case list => exact .list _ _ (equalAll_of ih h)
    case tuple => exact .tuple _ _ (equalAll_of ih h)
    case column => exact .column _ _ h
    case curried =>
      obtain ⟨⟨⟨rfl, rfl, h1⟩, rfl, h2⟩, h3⟩ := h
      refine .curried _ _ _ _ _ _ _ _ _ _ _ (equalAll_of (fun x hx => ih x (by simp [hx])) h1) (equalAll_of (fun x hx => ih x (by simp [hx])) h2) ?_
      rintro rfl rfl
      simpa using h3
    case ident => subst h; exact .ident _
    case lam => obtain ⟨⟨rfl, rfl⟩, h⟩ := h; exact .lam _ _ _ _ (ih _ (by simp) _ h)
    case aliased => obtain ⟨h, rfl⟩ := h; exact .aliased _ _ _ h
    case cond => obtain ⟨⟨h, rfl⟩, h'⟩ := h; exact .cond _ _ _ _ _ (ih _ (by simp) _ h) (ih _ (by simp) _ h')
    case boolCond => obtain ⟨⟨⟨rfl, rfl⟩, rfl⟩, h⟩ := h; exact .boolCond _ _ _ _ _ (equalAll_of ih h)
    case orderby => obtain ⟨h, rfl⟩ := h; exact .orderby _ _ _ (ih _ (by simp) _ h)
    case limitby => obtain ⟨⟨rfl, h⟩, h'⟩ := h; exact .limitby _ _ _ _ _ h h'
    case limit => exact .limit _ _ h
    case offset => exact .offset _ _ h
    case granularity => exact .granularity _ _ h
    case totals => subst h; exact .totals _
    case extrapolate => subst h; exact .extrapolate _
    case entity => exact .entity _ _ h
    case storage => exact .storage _ _ h
    case rel => exact .rel _ _ h
    case join => obtain ⟨rfl, h⟩ := h; exact .join _ _ _ h
    case op => subst h; exact .op _
    case boolOp => subst h; exact .boolOp _
    case direction => subst h; exact .direction _
    case dataModel => exact .dataModel _ _ h
    case other => subst h; exact .other _

mutual
theorem of_equal : ∀ {v w : Val}, Equal v w → pyEq v w = true
  | _, _, .number _ _ _ h h' => (number_of h h').2 rfl
  | _, _, .none => rfl
  | _, _, .str _ => by simp [pyEq]
  | _, _, .bytes _ => by simp [pyEq]
  | _, _, .date _ => by simp [pyEq]
  | _, _, .datetime _ _ h => by simpa [pyEq, time_iff] using h
  | _, _, .list _ _ h => by simpa [pyEq] using of_equalAll h
  | _, _, .tuple _ _ h => by simpa [pyEq] using of_equalAll h
  | _, _, .column _ _ h => by simpa [pyEq, column_iff] using h
  | _, _, .curried f g _ _ _ _ _ _ _ _ _ h h' h'' => by
    simp only [pyEq, of_equalAll h, of_equalAll h', beq_self_eq_true, Bool.and_self, Bool.true_and]
    cases f <;> cases g <;> simp_all
  | _, _, .ident _ => by simp [pyEq]
  | _, _, .lam _ _ _ _ h => by simp [pyEq, of_equal h]
  | _, _, .aliased _ _ _ h => by simpa [pyEq, column_iff] using h
  | _, _, .cond _ _ _ _ _ h h' => by simp [pyEq, of_equal h, of_equal h']
  | _, _, .boolCond _ _ _ _ _ h => by simp [pyEq, of_equalAll h]
  | _, _, .orderby _ _ _ h => by simp [pyEq, of_equal h]
  | _, _, .limitby _ _ _ _ _ h h' => by simp [pyEq, (listEq_iff column_iff _ _).2 h, h']
  | _, _, .limit _ _ h => by simpa [pyEq] using h
  | _, _, .offset _ _ h => by simpa [pyEq] using h
  | _, _, .granularity _ _ h => by simpa [pyEq] using h
  | _, _, .totals _ => by simp [pyEq]
  | _, _, .extrapolate _ => by simp [pyEq]
  | _, _, .entity _ _ h => by simpa [pyEq, entity_iff] using h
  | _, _, .storage _ _ h => by simpa [pyEq, storage_iff] using h
  | _, _, .rel _ _ h => by simpa [pyEq, rel_iff] using h
  | _, _, .join _ _ _ h => by simp [pyEq, (listEq_iff rel_iff _ _).2 h]
  | _, _, .op _ => by simp [pyEq]
  | _, _, .boolOp _ => by simp [pyEq]
  | _, _, .direction _ => by simp [pyEq]
  | _, _, .dataModel _ _ h => by simpa [pyEq, model_iff] using h
  | _, _, .other _ => by simp [pyEq]

theorem of_equalAll : ∀ {xs ys : List Val}, EqualAll xs ys → pyEqList xs ys = true
  | _, _, .nil => rfl
  | _, _, .cons _ _ _ _ h h' => by simp [pyEqList, of_equal h, of_equalAll h']
end

theorem equal_iff (v w : Val) : pyEq v w = true ↔ Equal v w := ⟨equal_of v w, of_equal⟩

/-! ### Queries -/

theorem equalBody_iff (a b : Body) : a.pyEq b = true ↔ EqualBody a b := by
  simp only [Body.pyEq, Bool.and_eq_true, equal_iff]
  exact ⟨fun ⟨⟨⟨⟨⟨⟨⟨⟨⟨⟨h1, h2⟩, h3⟩, h4⟩, h5⟩, h6⟩, h7⟩, h8⟩, h9⟩, h10⟩, h11⟩ => ⟨h1, h2, h3, h4, h5, h6, h7, h8, h9, h10, h11⟩,
    fun ⟨h1, h2, h3, h4, h5, h6, h7, h8, h9, h10, h11⟩ => ⟨⟨⟨⟨⟨⟨⟨⟨⟨⟨h1, h2⟩, h3⟩, h4⟩, h5⟩, h6⟩, h7⟩, h8⟩, h9⟩, h10⟩, h11⟩⟩

theorem equalQuery_iff : ∀ q r : Query, q.pyEq r = true ↔ EqualQuery q r
  | .base m b, .base m' b' => by
    simp only [Query.pyEq, Bool.and_eq_true, equal_iff, equalBody_iff]
    exact ⟨fun h => .base _ _ _ _ h.1 h.2, fun h => by cases h with | base _ _ _ _ h h' => exact ⟨h, h'⟩⟩
  | .nested q b, .nested q' b' => by
    simp only [Query.pyEq, Bool.and_eq_true, equalQuery_iff q q', equalBody_iff]
    exact ⟨fun h => .nested _ _ _ _ h.1 h.2, fun h => by cases h with | nested _ _ _ _ h h' => exact ⟨h, h'⟩⟩
  | .base _ _, .nested _ _ => ⟨nofun, nofun⟩
  | .nested _ _, .base _ _ => ⟨nofun, nofun⟩

/-! ### Structures -/

theorem places_iff {α : Type} {R S : α → α → Prop} : ∀ {xs ys : List α}, (∀ x ∈ xs, ∀ y ∈ ys, R x y ↔ S x y) →
    (Aligned R xs ys ↔ xs.length = ys.length ∧ ∀ (i : Nat) (x y : α), xs[i]? = some x → ys[i]? = some y → S x y)
  | [], [], _ => ⟨fun _ => ⟨rfl, by simp⟩, fun _ => .nil⟩
  | [], _ :: _, _ => ⟨nofun, fun h => nomatch h.1⟩
  | _ :: _, [], _ => ⟨nofun, fun h => nomatch h.1⟩
  | x :: xs, y :: ys, h => by
    have ih := places_iff (R := R) (S := S) (xs := xs) (ys := ys) fun a ha b hb => h a (by simp [ha]) b (by simp [hb])
    constructor
    · intro e
      cases e with
      | cons _ _ _ _ e1 e2 =>
        obtain ⟨l, e2⟩ := ih.1 e2
        refine ⟨by simp [l], fun i a b ha hb => ?_⟩
        cases i with
        | zero => cases ha; cases hb; exact (h _ (by simp) _ (by simp)).1 e1
        | succ i => exact e2 i a b ha hb
    · rintro ⟨l, e⟩
      exact .cons _ _ _ _ ((h _ (by simp) _ (by simp)).2 (e 0 x y rfl rfl)) (ih.2 ⟨by simpa using l, fun i a b ha hb => e (i + 1) a b ha hb⟩)

theorem dataEqAll_iff : ∀ xs ys : List Data, dataEqAll xs ys = true ↔ Aligned (fun x y => x.pyEq y = true) xs ys
  | [], [] => ⟨fun _ => .nil, fun _ => rfl⟩
  | [], _ :: _ => ⟨nofun, nofun⟩
  | _ :: _, [] => ⟨nofun, nofun⟩
  | x :: xs, y :: ys => by
    simp only [dataEqAll, Bool.and_eq_true, dataEqAll_iff xs ys]
    exact ⟨fun e => .cons _ _ _ _ e.1 e.2, fun e => by cases e with | cons _ _ _ _ e1 e2 => exact ⟨e1, e2⟩⟩

theorem keys_length {α : Type} {kvs kvs' : List (Str × α)} (h1 : (kvs.map Prod.fst).Nodup) (h2 : (kvs'.map Prod.fst).Nodup)
    (h : ∀ k, (∃ x, (k, x) ∈ kvs) ↔ ∃ y, (k, y) ∈ kvs') : kvs.length = kvs'.length := by
  have hm : ∀ k, k ∈ kvs.map Prod.fst ↔ k ∈ kvs'.map Prod.fst := by
    intro k
    simp only [List.mem_map, Prod.exists, exists_and_right, exists_eq_right]
    exact h k
  have := (List.perm_ext_iff_of_nodup h1 h2).2 hm
  simpa using this.length_eq

theorem equalData_iff : ∀ d e : Data, KeysOnce d → KeysOnce e → (d.pyEq e = true ↔ EqualData d e) := by
  intro d
  induction d using Data.ind with
  | val v =>
    intro e _ _
    cases e with
    | val w =>
      simp only [Data.pyEq, equal_iff]
      exact ⟨.val _ _, fun h => by cases h with | val _ _ h => exact h⟩
    | _ => exact ⟨nofun, nofun⟩
  | list xs ih =>
    intro e hd he
    cases e with
    | list ys =>
      simp only [Data.pyEq, dataEqAll_iff]
      rw [places_iff (S := EqualData) fun x hx y hy => ih x hx y (fun kvs hv => hd kvs (.item _ _ _ hx hv)) fun kvs hv => he kvs (.item _ _ _ hy hv)]
      exact ⟨fun h => .list _ _ h.1 h.2, fun h => by cases h with | list _ _ h h' => exact ⟨h, h'⟩⟩
    | _ => exact ⟨nofun, nofun⟩
  | dict kvs ih =>
    intro e hd he
    cases e with
    | dict kvs' =>
      have hs := hd _ (.self _)
      have hs' := he _ (.self _)
      have down : ∀ k x y, (k, x) ∈ kvs → (k, y) ∈ kvs' → (x.pyEq y = true ↔ EqualData x y) := fun k x y hx hy =>
        ih k x hx y (fun kvs hv => hd kvs (.entry _ _ _ _ hx hv)) fun kvs hv => he kvs (.entry _ _ _ _ hy hv)
      constructor
      · intro h
        have h' := data_symm _ _ hd he h
        simp only [Data.pyEq, Bool.and_eq_true, beq_iff_eq, dictWithin_iff] at h h'
        refine .dict _ _ (fun k => ⟨fun ⟨x, hx⟩ => ?_, fun ⟨y, hy⟩ => ?_⟩) fun k x y hx hy => ?_
        · obtain ⟨y, hy, _⟩ := h.2 k x hx
          exact ⟨y, lookup_mem hy⟩
        · obtain ⟨x, hx, _⟩ := h'.2 k y hy
          exact ⟨x, lookup_mem hx⟩
        · obtain ⟨y', hy', hxy⟩ := h.2 k x hx
          rw [mem_lookup hs' hy] at hy'
          cases hy'
          exact (down k x y hx hy).1 hxy
      · intro h
        cases h with
        | dict _ _ h1 h2 =>
          simp only [Data.pyEq, Bool.and_eq_true, beq_iff_eq, dictWithin_iff]
          refine ⟨keys_length hs hs' h1, fun k x hx => ?_⟩
          obtain ⟨y, hy⟩ := (h1 k).1 ⟨x, hx⟩
          exact ⟨y, mem_lookup hs' hy, (down k x y hx hy).2 (h2 k x y hx hy)⟩
    | _ => exact ⟨nofun, nofun⟩

/-! ### Metrics queries -/

theorem equalMetric_iff (a b : MetricObj) : a.pyEq b = true ↔ EqualMetric a b := by
  simp only [MetricObj.pyEq, Bool.and_eq_true, equal_iff]
  exact ⟨fun h => ⟨h.1.1, h.1.2, h.2⟩, fun h => ⟨⟨h.publicName, h.mri⟩, h.id⟩⟩

theorem mvalEqAll_iff : ∀ xs ys : List MVal, mvalEqAll xs ys = true ↔ Aligned (fun x y => x.pyEq y = true) xs ys
  | [], [] => ⟨fun _ => .nil, fun _ => rfl⟩
  | [], _ :: _ => ⟨nofun, nofun⟩
  | _ :: _, [] => ⟨nofun, nofun⟩
  | x :: xs, y :: ys => by
    simp only [mvalEqAll, Bool.and_eq_true, mvalEqAll_iff xs ys]
    exact ⟨fun e => .cons _ _ _ _ e.1 e.2, fun e => by cases e with | cons _ _ _ _ e1 e2 => exact ⟨e1, e2⟩⟩

theorem equalObject_iff : ∀ x y : MVal, Keyed x → Keyed y → (x.pyEq y = true ↔ EqualObject x y) := by
  intro x
  induction x using MVal.full with
  | val v =>
    intro y _ _
    cases y with
    | val w =>
      simp only [MVal.pyEq, equal_iff]
      exact ⟨.val _ _, fun h => by cases h with | val _ _ h => exact h⟩
    | _ => exact ⟨nofun, nofun⟩
  | metric m =>
    intro y _ _
    cases y with
    | metric w =>
      simp only [MVal.pyEq, equalMetric_iff]
      exact ⟨.metric _ _, fun h => by cases h with | metric _ _ h => exact h⟩
    | _ => exact ⟨nofun, nofun⟩
  | ts t =>
    intro y _ _
    cases y with
    | ts w =>
      simp only [MVal.pyEq, TimeseriesObj.pyEq, Bool.and_eq_true, equalMetric_iff, equal_iff]
      exact ⟨fun ⟨⟨⟨⟨h1, h2⟩, h3⟩, h4⟩, h5⟩ => .ts _ _ h1 h2 h3 h4 h5, fun h => by cases h with | ts _ _ h1 h2 h3 h4 h5 => exact ⟨⟨⟨⟨h1, h2⟩, h3⟩, h4⟩, h5⟩⟩
    | _ => exact ⟨nofun, nofun⟩
  | formula n p a f g ih =>
    intro y hx hy
    cases y with
    | formula n' p' a' f' g' =>
      simp only [MVal.pyEq, Bool.and_eq_true, equal_iff, ih p' hx.params hy.params]
      exact ⟨fun ⟨⟨⟨⟨h1, h2⟩, h3⟩, h4⟩, h5⟩ => .formula _ _ _ _ _ _ _ _ _ _ h1 h2 h3 h4 h5,
        fun h => by cases h with | formula _ _ _ _ _ _ _ _ _ _ h1 h2 h3 h4 h5 => exact ⟨⟨⟨⟨h1, h2⟩, h3⟩, h4⟩, h5⟩⟩
    | _ => exact ⟨nofun, nofun⟩
  | rollup r =>
    intro y _ _
    cases y with
    | rollup w =>
      simp only [MVal.pyEq, RollupObj.pyEq, Bool.and_eq_true, equal_iff]
      exact ⟨fun ⟨⟨⟨h1, h2⟩, h3⟩, h4⟩ => .rollup _ _ h1 h2 h3 h4, fun h => by cases h with | rollup _ _ h1 h2 h3 h4 => exact ⟨⟨⟨h1, h2⟩, h3⟩, h4⟩⟩
    | _ => exact ⟨nofun, nofun⟩
  | scope s =>
    intro y _ _
    cases y with
    | scope w =>
      simp only [MVal.pyEq, ScopeObj.pyEq, Bool.and_eq_true, equal_iff]
      exact ⟨fun ⟨⟨h1, h2⟩, h3⟩ => .scope _ _ h1 h2 h3, fun h => by cases h with | scope _ _ h1 h2 h3 => exact ⟨⟨h1, h2⟩, h3⟩⟩
    | _ => exact ⟨nofun, nofun⟩
  | list xs ih =>
    intro y hx hy
    cases y with
    | list ys =>
      simp only [MVal.pyEq, mvalEqAll_iff]
      rw [places_iff (S := EqualObject) fun a ha b hb => ih a ha b (hx.item (.list _) ha) (hy.item (.list _) hb)]
      exact ⟨fun h => .list _ _ h.1 h.2, fun h => by cases h with | list _ _ h h' => exact ⟨h, h'⟩⟩
    | _ => exact ⟨nofun, nofun⟩
  | tuple xs ih =>
    intro y hx hy
    cases y with
    | tuple ys =>
      simp only [MVal.pyEq, mvalEqAll_iff]
      rw [places_iff (S := EqualObject) fun a ha b hb => ih a ha b (hx.item (.tuple _) ha) (hy.item (.tuple _) hb)]
      exact ⟨fun h => .tuple _ _ h.1 h.2, fun h => by cases h with | tuple _ _ h h' => exact ⟨h, h'⟩⟩
    | _ => exact ⟨nofun, nofun⟩
  | data d =>
    intro y hx hy
    cases y with
    | data e =>
      simp only [MVal.pyEq, equalData_iff d e hx.data hy.data]
      exact ⟨.data _ _, fun h => by cases h with | data _ _ h => exact h⟩
    | _ => exact ⟨nofun, nofun⟩

theorem equalMetrics_iff (q r : MetricsQueryObj) (hq : ∀ x ∈ fieldsOf q, Keyed x) (hr : ∀ x ∈ fieldsOf r, Keyed x) :
    q.pyEq r = true ↔ EqualMetrics q r := by
  simp only [fieldsOf, List.forall_mem_cons] at hq hr
  obtain ⟨a1, a2, a3, a4, a5, a6, a7, a8, a9, -⟩ := hq
  obtain ⟨b1, b2, b3, b4, b5, b6, b7, b8, b9, -⟩ := hr
  simp only [MetricsQueryObj.pyEq, Bool.and_eq_true, equalObject_iff _ _ a1 b1, equalObject_iff _ _ a2 b2, equalObject_iff _ _ a3 b3,
    equalObject_iff _ _ a4 b4, equalObject_iff _ _ a5 b5, equalObject_iff _ _ a6 b6, equalObject_iff _ _ a7 b7, equalObject_iff _ _ a8 b8,
    equalObject_iff _ _ a9 b9]
  exact ⟨fun ⟨⟨⟨⟨⟨⟨⟨⟨h1, h2⟩, h3⟩, h4⟩, h5⟩, h6⟩, h7⟩, h8⟩, h9⟩ => ⟨h1, h2, h3, h4, h5, h6, h7, h8, h9⟩,
    fun ⟨h1, h2, h3, h4, h5, h6, h7, h8, h9⟩ => ⟨⟨⟨⟨⟨⟨⟨⟨h1, h2⟩, h3⟩, h4⟩, h5⟩, h6⟩, h7⟩, h8⟩, h9⟩⟩

/-! ### Requests -/

theorem equalFlags_iff (a b : FlagsObj) : a.pyEq b = true ↔ EqualFlags a b := by
  simp only [FlagsObj.pyEq, Bool.and_eq_true, equal_iff]
  exact ⟨fun ⟨⟨⟨⟨⟨h1, h2⟩, h3⟩, h4⟩, h5⟩, h6⟩ => ⟨h1, h2, h3, h4, h5, h6⟩, fun ⟨h1, h2, h3, h4, h5, h6⟩ => ⟨⟨⟨⟨⟨h1, h2⟩, h3⟩, h4⟩, h5⟩, h6⟩⟩

theorem equalAny_iff : ∀ q r : AnyQuery, QueryKeyed q → QueryKeyed r → (q.pyEq r = true ↔ EqualAny q r)
  | .snql q, .snql r, _, _ => by
    simp only [AnyQuery.pyEq, equalQuery_iff]
    exact ⟨.snql _ _, fun h => by cases h with | snql _ _ h => exact h⟩
  | .metrics q, .metrics r, hq, hr => by
    simp only [AnyQuery.pyEq, equalMetrics_iff q r hq hr]
    exact ⟨.metrics _ _, fun h => by cases h with | metrics _ _ h => exact h⟩
  | .delete q, .delete r, hq, hr => by
    simp only [AnyQuery.pyEq, DeleteObj.pyEq, Bool.and_eq_true, equalData_iff _ _ hq.1 hr.1, equalData_iff _ _ hq.2 hr.2]
    exact ⟨fun h => .delete _ _ h.1 h.2, fun h => by cases h with | delete _ _ h h' => exact ⟨h, h'⟩⟩
  | .snql _, .metrics _, _, _ => ⟨nofun, nofun⟩
  | .snql _, .delete _, _, _ => ⟨nofun, nofun⟩
  | .metrics _, .snql _, _, _ => ⟨nofun, nofun⟩
  | .metrics _, .delete _, _, _ => ⟨nofun, nofun⟩
  | .delete _, .snql _, _, _ => ⟨nofun, nofun⟩
  | .delete _, .metrics _, _, _ => ⟨nofun, nofun⟩

theorem equalRequest_iff (a b : RequestObj) (ha : RequestKeyed a) (hb : RequestKeyed b) : a.pyEq b = true ↔ EqualRequest a b := by
  have hfa := ha.fields
  have hfb := hb.fields
  simp only [otherFields, List.forall_mem_cons] at hfa hfb
  obtain ⟨a1, a2, a3, a4, -⟩ := hfa
  obtain ⟨b1, b2, b3, b4, -⟩ := hfb
  simp only [RequestObj.pyEq, Bool.and_eq_true, equalData_iff _ _ a1 b1, equalData_iff _ _ a2 b2, equalData_iff _ _ a3 b3, equalData_iff _ _ a4 b4,
    equalAny_iff _ _ ha.query hb.query, optEq_iff equalFlags_iff]
  exact ⟨fun ⟨⟨⟨⟨⟨h1, h2⟩, h3⟩, h4⟩, h5⟩, h6⟩ => ⟨h1, h2, h3, h4, h5, h6⟩, fun ⟨h1, h2, h3, h4, h5, h6⟩ => ⟨⟨⟨⟨⟨h1, h2⟩, h3⟩, h4⟩, h5⟩, h6⟩⟩

end Verif
