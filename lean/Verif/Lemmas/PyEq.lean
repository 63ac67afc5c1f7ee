import Verif.Model.PyEq
import Verif.Spec.Formula

/-!
# Python equality of columns is an equivalence
-/

namespace Verif
open Spec

theorem eqF_symm {a b : PyFloat} (h : a.eqF b = true) : b.eqF a = true := by
  cases a <;> cases b <;> simp only [PyFloat.eqF, Bool.and_eq_true, Bool.or_eq_true, beq_iff_eq, Bool.false_eq_true] at h ⊢
  all_goals first | exact h.symm | skip
  obtain ⟨⟨h1, h2⟩, h3⟩ := h
  exact ⟨⟨h1.symm, h2.symm⟩, h3.imp Eq.symm fun h => h1 ▸ h⟩

theorem eqF_trans {a b c : PyFloat} (h : a.eqF b = true) (h' : b.eqF c = true) : a.eqF c = true := by
  cases a <;> cases b <;> cases c <;>
    simp only [PyFloat.eqF, Bool.and_eq_true, Bool.or_eq_true, beq_iff_eq, Bool.false_eq_true] at h h' ⊢
  all_goals first | exact h.trans h' | skip
  obtain ⟨⟨h1, h2⟩, h3⟩ := h
  obtain ⟨⟨h1', h2'⟩, h3'⟩ := h'
  refine ⟨⟨h1.trans h1', h2.trans h2'⟩, ?_⟩
  rcases h3' with h3' | h3'
  · rcases h3 with h3 | h3
    · exact .inl (h3.trans h3')
    · exact .inr h3
  · exact .inr (h1.trans h3')

theorem eqF_refl {a : PyFloat} (h : a ≠ .nan) : a.eqF a = true := by
  cases a <;> simp_all [PyFloat.eqF]

theorem dataModel_symm {a b : DataModel} (h : a.pyEq b = true) : b.pyEq a = true := by
  simp only [DataModel.pyEq, Bool.and_eq_true, beq_iff_eq] at h ⊢
  exact ⟨⟨h.1.2, h.1.1⟩, h.2.symm⟩

theorem dataModel_trans {a b c : DataModel} (h : a.pyEq b = true) (h' : b.pyEq c = true) : a.pyEq c = true := by
  simp only [DataModel.pyEq, Bool.and_eq_true, beq_iff_eq, List.all_eq_true, List.contains_iff_mem] at h h' ⊢
  exact ⟨⟨fun x hx => h'.1.1 x (h.1.1 x hx), fun x hx => h.1.2 x (h'.1.2 x hx)⟩, h.2.trans h'.2⟩

theorem dataModel_refl (a : DataModel) : a.pyEq a = true := by
  simp [DataModel.pyEq]

section
variable {α : Type} {f : α → α → Bool}

theorem optEq_symm (hf : ∀ a b, f a b = true → f b a = true) {a b : Option α} (h : optEq f a b = true) :
    optEq f b a = true := by
  cases a <;> cases b <;> simp_all [optEq]

theorem optEq_trans (hf : ∀ a b c, f a b = true → f b c = true → f a c = true) {a b c : Option α}
    (h : optEq f a b = true) (h' : optEq f b c = true) : optEq f a c = true := by
  cases a <;> cases b <;> cases c <;> simp_all [optEq]
  exact hf _ _ _ h h'

theorem optEq_refl {a : Option α} (hf : ∀ x, a = some x → f x x = true) : optEq f a a = true := by
  cases a <;> simp_all [optEq]
end

theorem entity_symm {a b : EntityObj} (h : a.pyEq b = true) : b.pyEq a = true := by
  simp only [EntityObj.pyEq, Bool.and_eq_true, beq_iff_eq] at h ⊢
  exact ⟨⟨⟨h.1.1.1.symm, h.1.1.2.symm⟩, optEq_symm (fun _ _ => eqF_symm) h.1.2⟩, optEq_symm (fun _ _ => dataModel_symm) h.2⟩

theorem entity_trans {a b c : EntityObj} (h : a.pyEq b = true) (h' : b.pyEq c = true) : a.pyEq c = true := by
  simp only [EntityObj.pyEq, Bool.and_eq_true, beq_iff_eq] at h h' ⊢
  exact ⟨⟨⟨h.1.1.1.trans h'.1.1.1, h.1.1.2.trans h'.1.1.2⟩, optEq_trans (f := PyFloat.eqF) (fun _ _ _ => eqF_trans) h.1.2 h'.1.2⟩,
    optEq_trans (f := DataModel.pyEq) (fun _ _ _ => dataModel_trans) h.2 h'.2⟩

theorem entity_refl {a : EntityObj} (h : a.sample ≠ some .nan) : a.pyEq a = true := by
  simp only [EntityObj.pyEq, Bool.and_eq_true, beq_self_eq_true, true_and]
  exact ⟨optEq_refl fun x hx => eqF_refl (by rintro rfl; exact h hx), optEq_refl fun x _ => dataModel_refl x⟩

theorem column_symm {a b : ColumnObj} (h : a.pyEq b = true) : b.pyEq a = true := by
  simp only [ColumnObj.pyEq, Bool.and_eq_true, beq_iff_eq] at h ⊢
  exact ⟨⟨⟨h.1.1.1.symm, optEq_symm (fun _ _ => entity_symm) h.1.1.2⟩, h.1.2.symm⟩, h.2.symm⟩

theorem column_trans {a b c : ColumnObj} (h : a.pyEq b = true) (h' : b.pyEq c = true) : a.pyEq c = true := by
  simp only [ColumnObj.pyEq, Bool.and_eq_true, beq_iff_eq] at h h' ⊢
  exact ⟨⟨⟨h.1.1.1.trans h'.1.1.1, optEq_trans (f := EntityObj.pyEq) (fun _ _ _ => entity_trans) h.1.1.2 h'.1.1.2⟩, h.1.2.trans h'.1.2⟩, h.2.trans h'.2⟩

theorem column_refl {a : ColumnObj} (h : NoNan a) : a.pyEq a = true := by
  simp only [ColumnObj.pyEq, Bool.and_eq_true, beq_self_eq_true, true_and, and_true]
  exact optEq_refl fun x hx => entity_refl (h x hx)

theorem groupItem_symm {a b : Val} (ha : PlainGroupItem a) (hb : PlainGroupItem b) (h : pyEq a b = true) :
    pyEq b a = true := by
  cases ha <;> cases hb <;> simp only [pyEq, Bool.and_eq_true, beq_iff_eq, Bool.false_eq_true] at h ⊢
  · exact column_symm h
  · exact ⟨column_symm h.1, h.2.symm⟩

theorem groupItem_trans {a b c : Val} (ha : PlainGroupItem a) (hb : PlainGroupItem b) (hc : PlainGroupItem c)
    (h : pyEq a b = true) (h' : pyEq b c = true) : pyEq a c = true := by
  cases ha <;> cases hb <;> cases hc <;> simp only [pyEq, Bool.and_eq_true, beq_iff_eq, Bool.false_eq_true] at h h' ⊢
  · exact column_trans h h'
  · exact ⟨column_trans h.1 h'.1, h.2.trans h'.2⟩

theorem groupItem_refl {a : Val} (ha : PlainGroupItem a) : pyEq a a = true := by
  cases ha <;> simp [pyEq]
  · rename_i h; exact column_refl h
  · rename_i h; exact column_refl h

theorem groupList_symm : ∀ {a b : List Val}, (∀ x ∈ a, PlainGroupItem x) → (∀ x ∈ b, PlainGroupItem x) →
    pyEqList a b = true → pyEqList b a = true
  | [], [], _, _, _ => rfl
  | [], _ :: _, _, _, h => by simp [pyEqList] at h
  | _ :: _, [], _, _, h => by simp [pyEqList] at h
  | x :: xs, y :: ys, ha, hb, h => by
    simp only [pyEqList, Bool.and_eq_true] at h ⊢
    exact ⟨groupItem_symm (ha x (by simp)) (hb y (by simp)) h.1,
      groupList_symm (fun z hz => ha z (by simp [hz])) (fun z hz => hb z (by simp [hz])) h.2⟩

theorem groupList_trans : ∀ {a b c : List Val}, (∀ x ∈ a, PlainGroupItem x) → (∀ x ∈ b, PlainGroupItem x) →
    (∀ x ∈ c, PlainGroupItem x) → pyEqList a b = true → pyEqList b c = true → pyEqList a c = true
  | [], [], [], _, _, _, _, _ => rfl
  | [], [], _ :: _, _, _, _, _, h => by simp [pyEqList] at h
  | [], _ :: _, _, _, _, _, h, _ => by simp [pyEqList] at h
  | _ :: _, [], _, _, _, _, h, _ => by simp [pyEqList] at h
  | _ :: _, _ :: _, [], _, _, _, _, h => by simp [pyEqList] at h
  | x :: xs, y :: ys, z :: zs, ha, hb, hc, h, h' => by
    simp only [pyEqList, Bool.and_eq_true] at h h' ⊢
    exact ⟨groupItem_trans (ha x (by simp)) (hb y (by simp)) (hc z (by simp)) h.1 h'.1,
      groupList_trans (fun w hw => ha w (by simp [hw])) (fun w hw => hb w (by simp [hw]))
        (fun w hw => hc w (by simp [hw])) h.2 h'.2⟩

theorem groupList_refl : ∀ {a : List Val}, (∀ x ∈ a, PlainGroupItem x) → pyEqList a a = true
  | [], _ => rfl
  | x :: xs, ha => by
    simp only [pyEqList, Bool.and_eq_true]
    exact ⟨groupItem_refl (ha x (by simp)), groupList_refl fun w hw => ha w (by simp [hw])⟩

theorem allHashable_group : ∀ {a : List Val}, (∀ x ∈ a, PlainGroupItem x) → allHashable a = true
  | [], _ => rfl
  | x :: xs, ha => by
    simp only [allHashable, Bool.and_eq_true]
    refine ⟨?_, allHashable_group fun w hw => ha w (by simp [hw])⟩
    cases ha x (by simp) <;> rfl

end Verif
