import Verif.Spec.Equal
import Verif.Lemmas.PyEq
import Verif.Lemmas.ValInd
import Verif.Model.Translate
import Verif.Lemmas.Date

/-!
# Lemmas: the equality of values
-/

namespace Verif
open Spec

theorem part_child {v x y : Val} (hx : x ∈ v.children) (h : Part y x) : Part y v := by
  cases v <;> simp only [Val.children, List.not_mem_nil, List.mem_append, List.mem_cons, or_false] at hx
  · exact .list _ _ hx h
  · exact .tuple _ _ hx h
  · rcases hx with hx | hx
    · exact .init _ _ _ _ _ _ _ _ hx h
    · exact .param _ _ _ _ _ _ _ _ hx h
  · subst hx; exact .body _ _ _ h
  · rcases hx with hx | hx <;> subst hx
    · exact .lhs _ _ _ h
    · exact .rhs _ _ _ h
  · exact .item _ _ _ _ _ hx h
  · subst hx; exact .ordered _ _ h

theorem storage_symm {a b : StorageObj} (h : a.pyEq b = true) : b.pyEq a = true := by
  simp only [StorageObj.pyEq, Bool.and_eq_true, beq_iff_eq] at h ⊢
  exact ⟨⟨h.1.1.symm, optEq_symm (fun _ _ => eqF_symm) h.1.2⟩, optEq_symm (fun _ _ => dataModel_symm) h.2⟩

theorem storage_trans {a b c : StorageObj} (h : a.pyEq b = true) (h' : b.pyEq c = true) : a.pyEq c = true := by
  simp only [StorageObj.pyEq, Bool.and_eq_true, beq_iff_eq] at h h' ⊢
  exact ⟨⟨h.1.1.trans h'.1.1, optEq_trans (f := PyFloat.eqF) (fun _ _ _ => eqF_trans) h.1.2 h'.1.2⟩,
    optEq_trans (f := DataModel.pyEq) (fun _ _ _ => dataModel_trans) h.2 h'.2⟩

theorem storage_refl {a : StorageObj} (h : a.sample ≠ some .nan) : a.pyEq a = true := by
  simp only [StorageObj.pyEq, Bool.and_eq_true, beq_self_eq_true, true_and]
  exact ⟨optEq_refl fun x hx => eqF_refl (by rintro rfl; exact h hx), optEq_refl fun x _ => dataModel_refl x⟩

theorem rel_symm {a b : RelObj} (h : a.pyEq b = true) : b.pyEq a = true := by
  simp only [RelObj.pyEq, Bool.and_eq_true, beq_iff_eq] at h ⊢
  exact ⟨⟨entity_symm h.1.1, h.1.2.symm⟩, entity_symm h.2⟩

theorem rel_trans {a b c : RelObj} (h : a.pyEq b = true) (h' : b.pyEq c = true) : a.pyEq c = true := by
  simp only [RelObj.pyEq, Bool.and_eq_true, beq_iff_eq] at h h' ⊢
  exact ⟨⟨entity_trans h.1.1 h'.1.1, h.1.2.trans h'.1.2⟩, entity_trans h.2 h'.2⟩

theorem rel_refl {a : RelObj} (h : a.lhs.sample ≠ some .nan) (h' : a.rhs.sample ≠ some .nan) : a.pyEq a = true := by
  simp only [RelObj.pyEq, Bool.and_eq_true, beq_self_eq_true, and_true]
  exact ⟨entity_refl h, entity_refl h'⟩

section
variable {α : Type} {f : α → α → Bool}

theorem listEq_symm (hf : ∀ a b, f a b = true → f b a = true) : ∀ {a b : List α}, listEq f a b = true → listEq f b a = true
  | [], [], _ => rfl
  | _ :: _, _ :: _, h => by
    simp only [listEq, Bool.and_eq_true] at h ⊢
    exact ⟨hf _ _ h.1, listEq_symm hf h.2⟩

theorem listEq_trans (hf : ∀ a b c, f a b = true → f b c = true → f a c = true) :
    ∀ {a b c : List α}, listEq f a b = true → listEq f b c = true → listEq f a c = true
  | [], [], [], _, _ => rfl
  | _ :: _, _ :: _, _ :: _, h, h' => by
    simp only [listEq, Bool.and_eq_true] at h h' ⊢
    exact ⟨hf _ _ _ h.1 h'.1, listEq_trans hf h.2 h'.2⟩

theorem listEq_refl : ∀ {a : List α}, (∀ x ∈ a, f x x = true) → listEq f a a = true
  | [], _ => rfl
  | x :: xs, h => by
    simp only [listEq, Bool.and_eq_true]
    exact ⟨h x (by simp), listEq_refl fun y hy => h y (by simp [hy])⟩
end

theorem datetime_symm {a b : Datetime} (h : a.pyEq b = true) : b.pyEq a = true := by
  unfold Datetime.pyEq at h ⊢
  generalize a.tz.bind id = x, b.tz.bind id = y at *
  cases x <;> cases y <;> simp_all

theorem datetime_trans {a b c : Datetime} (h : a.pyEq b = true) (h' : b.pyEq c = true) : a.pyEq c = true := by
  unfold Datetime.pyEq at h h' ⊢
  generalize a.tz.bind id = x, b.tz.bind id = y, c.tz.bind id = z at *
  cases x <;> cases y <;> cases z <;> simp_all

theorem datetime_refl (a : Datetime) : a.pyEq a = true := by
  unfold Datetime.pyEq
  cases a.tz.bind id <;> simp

theorem pyEqList_symm : ∀ {as bs : List Val}, (∀ x ∈ as, ∀ y, pyEq x y = true → pyEq y x = true) → pyEqList as bs = true → pyEqList bs as = true
  | [], [], _, _ => rfl
  | [], _ :: _, _, h => by simp [pyEqList] at h
  | _ :: _, [], _, h => by simp [pyEqList] at h
  | x :: xs, y :: ys, ih, h => by
    simp only [pyEqList, Bool.and_eq_true] at h ⊢
    exact ⟨ih x (by simp) y h.1, pyEqList_symm (fun z hz => ih z (by simp [hz])) h.2⟩

theorem alias_symm {f g : Bool} {x y : Option Str} (h : (!(f && g) || x == y) = true) : (!(g && f) || y == x) = true := by
  cases f <;> cases g <;> simp_all

theorem pyEq_symm : ∀ a b : Val, pyEq a b = true → pyEq b a = true := by
  intro a
  induction a using Val.childInd with
  | step v ih =>
    intro b h
    cases v <;> cases b <;> first
      | exact Bool.noConfusion h
      | skip
    all_goals simp only [pyEq, Bool.and_eq_true, beq_iff_eq, Val.children] at h ih ⊢
    all_goals first
      | exact h.symm
      | assumption
      | exact eqF_symm h
      | exact datetime_symm h
      | exact pyEqList_symm ih h
      | exact column_symm h
      | exact ⟨⟨⟨h.1.1.1.symm, h.1.1.2.1.symm, pyEqList_symm (fun x hx => ih x (by simp [hx])) h.1.1.2.2⟩, h.1.2.1.symm,
          pyEqList_symm (fun x hx => ih x (by simp [hx])) h.1.2.2⟩, alias_symm h.2⟩
      | exact ⟨⟨h.1.1.symm, h.1.2.symm⟩, ih _ (by simp) _ h.2⟩
      | exact ⟨column_symm h.1, h.2.symm⟩
      | exact ⟨⟨ih _ (by simp) _ h.1.1, h.1.2.symm⟩, ih _ (by simp) _ h.2⟩
      | exact ⟨⟨⟨h.1.1.1.symm, h.1.1.2.symm⟩, h.1.2.symm⟩, pyEqList_symm ih h.2⟩
      | exact ⟨ih _ (by simp) _ h.1, h.2.symm⟩
      | exact ⟨⟨h.1.1.symm, listEq_symm (fun _ _ => column_symm) h.1.2⟩, h.2.symm⟩
      | exact entity_symm h
      | exact storage_symm h
      | exact rel_symm h
      | exact ⟨h.1.symm, listEq_symm (fun _ _ => rel_symm) h.2⟩
      | exact dataModel_symm h

theorem pyEqList_refl : ∀ {as : List Val}, (∀ x ∈ as, pyEq x x = true) → pyEqList as as = true
  | [], _ => rfl
  | x :: xs, h => by
    simp only [pyEqList, Bool.and_eq_true]
    exact ⟨h x (by simp), pyEqList_refl fun y hy => h y (by simp [hy])⟩

theorem noNans_child {v x : Val} (h : NoNans v) (hx : x ∈ v.children) : NoNans x := fun y hy => h y (part_child hx hy)

theorem noNan_of {c : ColumnObj} (h : PyFloat.nan ∉ c.entity.toList.filterMap (·.sample)) : NoNan c := by
  intro e he hn
  exact h (by simp [he, hn])

theorem pyEq_refl : ∀ v : Val, NoNans v → pyEq v v = true := by
  intro v
  induction v using Val.childInd with
  | step v ih =>
    intro hn
    have ih' : ∀ x ∈ v.children, pyEq x x = true := fun x hx => ih x hx (noNans_child hn hx)
    obtain ⟨h1, h2⟩ := hn v .here
    clear ih hn
    cases v <;> simp only [pyEq, Bool.and_eq_true, beq_self_eq_true, Val.children, true_and, and_true, ownSamples, ownEntities] at ih' h1 h2 ⊢
    case float f => exact eqF_refl (fun e => h1 (by rw [e]))
    case datetime d => exact datetime_refl d
    case list xs => exact pyEqList_refl ih'
    case tuple xs => exact pyEqList_refl ih'
    case column c => exact column_refl (noNan_of h2)
    case curried f n ik is pk ps a =>
      exact ⟨⟨pyEqList_refl fun x hx => ih' x (by simp [hx]), pyEqList_refl fun x hx => ih' x (by simp [hx])⟩, by simp⟩
    case lam k ids b => exact ih' b (by simp)
    case aliased c a => exact column_refl (noNan_of h2)
    case cond l o r => exact ⟨ih' l (by simp), ih' r (by simp)⟩
    case boolCond c o k cs => exact pyEqList_refl ih'
    case orderby e d => exact ih' e (by simp)
    case limitby k cs n =>
      refine listEq_refl fun c hc => column_refl fun e he hs => h2 ?_
      simp only [List.mem_filterMap]
      exact ⟨e, ⟨c, hc, he⟩, hs⟩
    case entity e => exact entity_refl fun hs => h2 (by simp [hs])
    case storage s => exact storage_refl fun hs => h2 (by simp [hs])
    case rel r => exact rel_refl (fun hs => h2 (by simp [hs])) (fun hs => h2 (by simp [hs]))
    case join k rs =>
      refine listEq_refl fun r hr => rel_refl (fun hs => h2 ?_) (fun hs => h2 ?_)
      · simp only [List.mem_filterMap, List.mem_flatMap]; exact ⟨r.lhs, ⟨r, hr, by simp⟩, hs⟩
      · simp only [List.mem_filterMap, List.mem_flatMap]; exact ⟨r.rhs, ⟨r, hr, by simp⟩, hs⟩
    case dataModel d => exact dataModel_refl d

theorem odd_shift {m m' a b : Nat} (hm : m % 2 = 1) (hm' : m' % 2 = 1) (h : m * 2 ^ a = m' * 2 ^ b) : m = m' ∧ a = b := by
  have key : ∀ {m m' a b : Nat}, m % 2 = 1 → m * 2 ^ a = m' * 2 ^ b → ¬ a < b := by
    intro m m' a b hm h hab
    obtain ⟨j, rfl⟩ : ∃ j, b = a + (j + 1) := ⟨b - a - 1, by omega⟩
    rw [Nat.pow_add, Nat.mul_comm (2 ^ a), ← Nat.mul_assoc] at h
    have := Nat.eq_of_mul_eq_mul_right (Nat.two_pow_pos a) h
    rw [Nat.pow_succ, ← Nat.mul_assoc] at this
    omega
  have h1 := key hm h
  have h2 := key hm' h.symm
  have e : a = b := by omega
  subst e
  exact ⟨Nat.eq_of_mul_eq_mul_right (Nat.two_pow_pos a) h, rfl⟩

theorem dbl_cases (d : Dbl) : (d.m = 0 ∧ d.e = 0) ∨ d.m % 2 = 1 := by
  have := d.ok
  unfold dblOk at this
  simp only [Bool.or_eq_true, Bool.and_eq_true, beq_iff_eq] at this
  rcases this with h | h
  · exact .inl h
  · exact .inr h.1.1.1

theorem eqInt_eqF {f g : PyFloat} {i : Int} (hf : f.eqInt i = true) (hg : g.eqInt i = true) : f.eqF g = true := by
  cases f <;> cases g <;> simp only [PyFloat.eqInt, beq_iff_eq, Bool.false_eq_true] at hf hg
  rename_i a b
  simp only [Dbl.toInt?] at hf hg
  by_cases ha : 0 ≤ a.e
  case neg => rw [if_neg ha] at hf; cases hf
  by_cases hb : 0 ≤ b.e
  case neg => rw [if_neg hb] at hg; cases hg
  rw [if_pos ha] at hf
  rw [if_pos hb] at hg
  simp only [Option.some.injEq] at hf hg
  simp only [PyFloat.eqF, Bool.and_eq_true, Bool.or_eq_true, beq_iff_eq]
  have habs : a.m * 2 ^ a.e.toNat = b.m * 2 ^ b.e.toNat := by
    have := congrArg Int.natAbs (hf.trans hg.symm)
    split at this <;> split at this <;> simpa only [Int.natAbs_neg, Int.natAbs_natCast] using this
  have hzero : ∀ d : Dbl, d.m * 2 ^ d.e.toNat = 0 → d.m = 0 := by
    intro d h
    rcases Nat.mul_eq_zero.1 h with h | h
    · exact h
    · exact absurd h (Nat.pos_iff_ne_zero.1 (Nat.two_pow_pos _))
  rcases dbl_cases a with ⟨h1, h2⟩ | h1 <;> rcases dbl_cases b with ⟨h3, h4⟩ | h3
  · exact ⟨⟨h1.trans h3.symm, h2.trans h4.symm⟩, .inr h1⟩
  · rw [h1, Nat.zero_mul] at habs; have := hzero b habs.symm; omega
  · rw [h3, Nat.zero_mul] at habs; have := hzero a habs; omega
  · obtain ⟨e1, e2⟩ := odd_shift h1 h3 habs
    have hpos : 0 < a.m * 2 ^ a.e.toNat := Nat.mul_pos (by omega) (Nat.two_pow_pos _)
    refine ⟨⟨e1, by omega⟩, .inl ?_⟩
    rw [← habs] at hg
    cases ha' : a.neg <;> cases hb' : b.neg <;> simp only [ha', hb', Bool.false_eq_true, ↓reduceIte] at hf hg ⊢ <;> omega

theorem eqF_eqInt {f g : PyFloat} {i : Int} (h : f.eqF g = true) (hg : g.eqInt i = true) : f.eqInt i = true := by
  cases f <;> cases g <;> simp only [PyFloat.eqF, PyFloat.eqInt, Bool.and_eq_true, Bool.or_eq_true, beq_iff_eq, Bool.false_eq_true] at h hg ⊢
  obtain ⟨⟨h1, h2⟩, h3⟩ := h
  rw [← hg]
  simp only [Dbl.toInt?, h1, h2]
  rcases h3 with h3 | h3
  · rw [h3]
  · rw [← h1, h3]; simp

theorem eqInt_unique {f : PyFloat} {i j : Int} (hi : f.eqInt i = true) (hj : f.eqInt j = true) : i = j := by
  cases f <;> simp only [PyFloat.eqInt, beq_iff_eq, Bool.false_eq_true] at hi hj
  exact Option.some.inj (hi.symm.trans hj)

theorem pyEqList_trans : ∀ {as bs cs : List Val},
    (∀ y ∈ bs, ∀ x ∈ as, ∀ z ∈ cs, pyEq x y = true → pyEq y z = true → pyEq x z = true) →
    pyEqList as bs = true → pyEqList bs cs = true → pyEqList as cs = true
  | [], [], [], _, _, _ => rfl
  | [], [], _ :: _, _, _, h => by simp [pyEqList] at h
  | [], _ :: _, _, _, h, _ => by simp [pyEqList] at h
  | _ :: _, [], _, _, h, _ => by simp [pyEqList] at h
  | _ :: _, _ :: _, [], _, _, h => by simp [pyEqList] at h
  | x :: xs, y :: ys, z :: zs, ih, h, h' => by
    simp only [pyEqList, Bool.and_eq_true] at h h' ⊢
    exact ⟨ih y (by simp) x (by simp) z (by simp) h.1 h'.1,
      pyEqList_trans (fun w hw v hv u hu => ih w (by simp [hw]) v (by simp [hv]) u (by simp [hu])) h.2 h'.2⟩

theorem alias_trans {f g : Bool} {x y z : Option Str} (h : (!(f && true) || x == y) = true) (h' : (!(true && g) || y == z) = true) :
    (!(f && g) || x == z) = true := by
  cases f <;> cases g <;> simp_all

theorem bit_inj {a b : Bool} (h : (if a = true then (1 : Int) else 0) = if b = true then 1 else 0) : a = b := by
  cases a <;> cases b <;> simp_all

set_option maxHeartbeats 1000000 in
theorem pyEq_trans_either : ∀ b a c : Val, (OnlyFunctions b ∨ (NoAliases a ∧ NoAliases c)) → pyEq a b = true → pyEq b c = true → pyEq a c = true := by
  intro b
  induction b using Val.childInd with
  | step b ih =>
    intro a c hb
    have ih' : ∀ y ∈ b.children, ∀ x ∈ a.children, ∀ z ∈ c.children, pyEq x y = true → pyEq y z = true → pyEq x z = true :=
      fun y hy x hx z hz => ih y hy x z (hb.imp (fun hb w hw => hb w (part_child hy hw))
        fun hb => ⟨fun w hw => hb.1 w (part_child hx hw), fun w hw => hb.2 w (part_child hz hw)⟩)
    have hfn := hb.imp (fun hb => hb b .here) fun hb => And.intro (hb.1 a .here) (hb.2 c .here)
    clear ih hb
    intro h h'
    cases b <;> cases a <;> first
      | exact Bool.noConfusion h
      | skip
    all_goals cases c <;> first
      | exact Bool.noConfusion h'
      | skip
    all_goals simp only [pyEq, Bool.and_eq_true, beq_iff_eq, Val.children] at h h' ih' ⊢
    all_goals first
      | exact h.trans h'
      | (subst h; first | exact h' | exact h'.symm)
      | (subst h'; exact h)
      | exact eqF_trans h h'
      | exact eqInt_eqF h h'
      | exact eqF_eqInt h h'
      | exact eqF_eqInt (eqF_symm h') h
      | exact eqInt_unique h h'
      | exact datetime_trans h h'
      | exact pyEqList_trans ih' h h'
      | exact column_trans h h'
      | exact ⟨⟨h.1.1.trans h'.1.1, h.1.2.trans h'.1.2⟩, ih' _ (by simp) _ (by simp) _ (by simp) h.2 h'.2⟩
      | exact ⟨column_trans h.1 h'.1, h.2.trans h'.2⟩
      | exact ⟨⟨ih' _ (by simp) _ (by simp) _ (by simp) h.1.1 h'.1.1, h.1.2.trans h'.1.2⟩, ih' _ (by simp) _ (by simp) _ (by simp) h.2 h'.2⟩
      | exact ⟨⟨⟨h.1.1.1.trans h'.1.1.1, h.1.1.2.trans h'.1.1.2⟩, h.1.2.trans h'.1.2⟩, pyEqList_trans ih' h.2 h'.2⟩
      | exact ⟨ih' _ (by simp) _ (by simp) _ (by simp) h.1 h'.1, h.2.trans h'.2⟩
      | exact ⟨⟨h.1.1.trans h'.1.1, listEq_trans (f := ColumnObj.pyEq) (fun _ _ _ => column_trans) h.1.2 h'.1.2⟩, h.2.trans h'.2⟩
      | exact entity_trans h h'
      | exact storage_trans h h'
      | exact rel_trans h h'
      | exact ⟨h.1.trans h'.1, listEq_trans (f := RelObj.pyEq) (fun _ _ _ => rel_trans) h.2 h'.2⟩
      | exact dataModel_trans h h'
      | exact bit_inj (h.trans h')
      | exact bit_inj (eqInt_unique h h')
      | skip
    all_goals
      refine ⟨⟨⟨h.1.1.1.trans h'.1.1.1, h.1.1.2.1.trans h'.1.1.2.1, pyEqList_trans (fun x hx y hy z hz => ih' x (by simp [hx]) y (by simp [hy]) z (by simp [hz])) h.1.1.2.2 h'.1.1.2.2⟩,
        h.1.2.1.trans h'.1.2.1, pyEqList_trans (fun x hx y hy z hz => ih' x (by simp [hx]) y (by simp [hy]) z (by simp [hz])) h.1.2.2 h'.1.2.2⟩, ?_⟩
      rcases hfn with e | ⟨e, e'⟩
      · have e := e _ _ _ _ _ _ _ rfl
        subst e
        exact alias_trans h.2 h'.2
      · rw [e _ _ _ _ _ _ _ rfl, e' _ _ _ _ _ _ _ rfl]
        simp

theorem pyEq_trans (b : Val) (hb : OnlyFunctions b) (a c : Val) (h : pyEq a b = true) (h' : pyEq b c = true) : pyEq a c = true :=
  pyEq_trans_either b a c (.inl hb) h h'

/-! ### Equal values print alike -/

theorem pyEq_class {a b : Val} (h : pyEq a b = true) : isLiteral a = isLiteral b ∧ a.isExpression = b.isExpression ∧ a.isColumn = b.isColumn ∧
    a.isParamExpr = b.isParamExpr ∧ a.isColOrFn = b.isColOrFn := by
  cases a <;> cases b <;> first
    | exact Bool.noConfusion h
    | exact ⟨rfl, rfl, rfl, rfl, rfl⟩

theorem allScalar_eq : ∀ {as bs : List Val}, (∀ x ∈ as, ∀ y, pyEq x y = true → isScalar x = isScalar y) → pyEqList as bs = true →
    allScalar as = allScalar bs
  | [], [], _, _ => rfl
  | [], _ :: _, _, h => by simp [pyEqList] at h
  | _ :: _, [], _, h => by simp [pyEqList] at h
  | x :: xs, y :: ys, ih, h => by
    simp only [pyEqList, Bool.and_eq_true] at h
    simp only [allScalar, ih x (by simp) y h.1, (pyEq_class h.1).2.1, allScalar_eq (fun z hz => ih z (by simp [hz])) h.2]

theorem isScalar_eq : ∀ a b : Val, pyEq a b = true → isScalar a = isScalar b := by
  intro a
  induction a using Val.childInd with
  | step v ih =>
    intro b h
    cases v <;> cases b <;> first
      | exact Bool.noConfusion h
      | rfl
      | skip
    all_goals simp only [pyEq, Val.children, isScalar] at h ih ⊢
    all_goals exact allScalar_eq ih h

theorem sample_eq {a b : Option PyFloat} (h : optEq PyFloat.eqF a b = true) (hz : ∀ f, a = some f → ¬ IsZero f) : a = b := by
  cases a <;> cases b <;> simp only [optEq, Bool.false_eq_true] at h
  · rfl
  · rename_i f g
    have hf := hz f rfl
    cases f <;> cases g <;> simp only [PyFloat.eqF, Bool.and_eq_true, Bool.or_eq_true, beq_iff_eq, Bool.false_eq_true] at h
    · rename_i d d'
      obtain ⟨⟨h1, h2⟩, h3⟩ := h
      rcases h3 with h3 | h3
      · cases d; cases d'; simp_all
      · exact absurd ⟨d, rfl, h3⟩ hf
    · rw [h]

theorem colStr_eq {cfg : Cfg} {a b : ColumnObj} (h : a.pyEq b = true) : colStr cfg a = colStr cfg b := by
  simp only [ColumnObj.pyEq, Bool.and_eq_true, beq_iff_eq] at h
  obtain ⟨⟨⟨h1, h2⟩, _⟩, _⟩ := h
  unfold colStr
  cases ha : a.entity <;> cases hb : b.entity <;> rw [ha, hb] at h2 <;> simp only [optEq, Bool.false_eq_true] at h2
  · exact h1
  · simp only [EntityObj.pyEq, Bool.and_eq_true, beq_iff_eq] at h2
    simp only [h1, h2.1.1.2]

theorem cols_eq {cfg : Cfg} : ∀ {as bs : List ColumnObj}, listEq ColumnObj.pyEq as bs = true → as.map (colStr cfg) = bs.map (colStr cfg)
  | [], [], _ => rfl
  | [], _ :: _, h => by simp [listEq] at h
  | _ :: _, [], h => by simp [listEq] at h
  | x :: xs, y :: ys, h => by
    simp only [listEq, Bool.and_eq_true] at h
    simp only [List.map_cons, colStr_eq h.1, cols_eq h.2]

theorem entityStr_eq {cfg : Cfg} {a b : EntityObj} (h : a.pyEq b = true) (hz : ∀ f, a.sample = some f → ¬ IsZero f) :
    entityStr cfg a = entityStr cfg b := by
  simp only [EntityObj.pyEq, Bool.and_eq_true, beq_iff_eq] at h
  unfold entityStr
  rw [h.1.1.1, h.1.1.2, sample_eq h.1.2 hz]

theorem relStr_eq {cfg : Cfg} {a b : RelObj} (h : a.pyEq b = true) (hl : ∀ f, a.lhs.sample = some f → ¬ IsZero f)
    (hr : ∀ f, a.rhs.sample = some f → ¬ IsZero f) : relStr cfg a = relStr cfg b := by
  simp only [RelObj.pyEq, Bool.and_eq_true, beq_iff_eq] at h
  unfold relStr
  rw [entityStr_eq h.1.1 hl, h.1.2, entityStr_eq h.2 hr]

theorem rels_eq {cfg : Cfg} : ∀ {as bs : List RelObj}, listEq RelObj.pyEq as bs = true →
    (∀ r ∈ as, (∀ f, r.lhs.sample = some f → ¬ IsZero f) ∧ ∀ f, r.rhs.sample = some f → ¬ IsZero f) → as.map (relStr cfg) = bs.map (relStr cfg)
  | [], [], _, _ => rfl
  | [], _ :: _, h, _ => by simp [listEq] at h
  | _ :: _, [], h, _ => by simp [listEq] at h
  | x :: xs, y :: ys, h, hz => by
    simp only [listEq, Bool.and_eq_true] at h
    simp only [List.map_cons, relStr_eq h.1 (hz x (by simp)).1 (hz x (by simp)).2, rels_eq h.2 fun r hr => hz r (by simp [hr])]

theorem datetime_utc_eq {a b : Datetime} (h : a.pyEq b = true) (ha : a.tz ≠ some none) (hb : b.tz ≠ some none) : a.toNaiveUtc = b.toNaiveUtc := by
  unfold Datetime.pyEq at h
  unfold Datetime.toNaiveUtc
  match hza : a.tz, hzb : b.tz with
  | none, none =>
    simp only [hza, hzb, Option.bind_none, beq_iff_eq] at h
    rw [localMicros_eq, localMicros_eq] at h
    simp only
    rw [inst_inj hza hzb (by exact_mod_cast h)]
  | some none, _ => exact absurd hza ha
  | _, some none => exact absurd hzb hb
  | some (some x), some (some y) =>
    simp only [hza, hzb, Option.bind_some, id, beq_iff_eq] at h
    simp only [h]
  | none, some (some y) => simp [hza, hzb] at h
  | some (some x), none => simp [hza, hzb] at h

/-- The hypothesis on the aliases of two values. -/
def AliasesTold (a b : Val) : Prop := (OnlyFunctions a ∧ OnlyFunctions b) ∨ (NoAliases a ∧ NoAliases b)

theorem AliasesTold.child {a b x y : Val} (h : AliasesTold a b) (hx : x ∈ a.children) (hy : y ∈ b.children) : AliasesTold x y :=
  h.imp (fun h => ⟨fun w hw => h.1 w (part_child hx hw), fun w hw => h.2 w (part_child hy hw)⟩)
    (fun h => ⟨fun w hw => h.1 w (part_child hx hw), fun w hw => h.2 w (part_child hy hw)⟩)

theorem AliasesTold.same {n n' : Str} {f f' : Bool} {ik ik' pk pk' : SeqKind} {is is' ps ps' : List Val} {a a' : Option Str}
    (h : AliasesTold (.curried f n ik is pk ps a) (.curried f' n' ik' is' pk' ps' a')) (e : (!(f && f') || a == a') = true) : a = a' := by
  rcases h with h | h
  · have e1 := h.1 _ .here _ _ _ _ _ _ _ rfl
    have e2 := h.2 _ .here _ _ _ _ _ _ _ rfl
    subst e1 e2
    simpa using e
  · rw [h.1 _ .here _ _ _ _ _ _ _ rfl, h.2 _ .here _ _ _ _ _ _ _ rfl]

theorem ordinary_child {v x : Val} (h : Ordinary v) (hx : x ∈ v.children) : Ordinary x := fun y hy => h y (part_child hx hy)

theorem lists_eq {cfg : Cfg} : ∀ {as bs : List Val}, (∀ x ∈ as, ∀ y ∈ bs, pyEq x y = true → translate cfg x = translate cfg y) →
    pyEqList as bs = true → translateAll cfg as = translateAll cfg bs ∧ translateInits cfg as = translateInits cfg bs ∧
      translateParams cfg as = translateParams cfg bs
  | [], [], _, _ => ⟨rfl, rfl, rfl⟩
  | [], _ :: _, _, h => by simp [pyEqList] at h
  | _ :: _, [], _, h => by simp [pyEqList] at h
  | x :: xs, y :: ys, ih, h => by
    simp only [pyEqList, Bool.and_eq_true] at h
    obtain ⟨h1, h2, h3⟩ := lists_eq (fun z hz w hw => ih z (by simp [hz]) w (by simp [hw])) h.2
    have e := ih x (by simp) y (by simp) h.1
    obtain ⟨c1, c2, c3, c4, c5⟩ := pyEq_class h.1
    refine ⟨?_, ?_, ?_⟩
    · simp only [translateAll, e, h1]
    · simp only [translateInits, e, h2, c1, c3]
    · simp only [translateParams, usesParam, e, h3, c4, isScalar_eq _ _ h.1]

theorem pyEq_prints (cfg : Cfg) : ∀ a b : Val, pyEq a b = true → Ordinary a → Ordinary b → AliasesTold a b → translate cfg a = translate cfg b := by
  intro a
  induction a using Val.childInd with
  | step v ih =>
    intro b h ha hb hal
    have ih' : ∀ x ∈ v.children, ∀ y ∈ b.children, pyEq x y = true → translate cfg x = translate cfg y :=
      fun x hx y hy e => ih x hx y e (ordinary_child ha hx) (ordinary_child hb hy) (hal.child hx hy)
    obtain ⟨a1, a2, a3⟩ := ha v .here
    obtain ⟨b1, b2, b3⟩ := hb b .here
    clear ih ha hb
    cases v <;> cases b <;> first
      | exact Bool.noConfusion h
      | skip
    all_goals try exact (a1 (.bool _)).elim
    all_goals try exact (b1 (.bool _)).elim
    all_goals simp only [pyEq, Bool.and_eq_true, beq_iff_eq, Val.children] at h ih'
    all_goals first
      | (subst h; rfl)
      | skip
    case none.none => rfl
    case int.float i f =>
      cases f <;> simp only [PyFloat.eqInt, Bool.false_eq_true, Dbl.toInt?, beq_iff_eq] at h
      rename_i d
      by_cases hd : 0 ≤ d.e
      · exact (b1 (.whole d hd)).elim
      · rw [if_neg hd] at h; cases h
    case float.int f i =>
      cases f <;> simp only [PyFloat.eqInt, Bool.false_eq_true, Dbl.toInt?, beq_iff_eq] at h
      rename_i d
      by_cases hd : 0 ≤ d.e
      · exact (a1 (.whole d hd)).elim
      · rw [if_neg hd] at h; cases h
    case float.float f g =>
      have e : some f = some g := sample_eq h (by
        rintro x hx ⟨d, rfl, hd⟩
        cases hx
        rcases dbl_cases d with ⟨_, h0⟩ | h0
        · exact a1 (.whole d (by omega))
        · omega)
      cases e; rfl
    case datetime.datetime d d' => simp only [translate, datetime_utc_eq h (a3 _ rfl) (b3 _ rfl)]
    case list.list xs ys => simp only [translate, allScalar_eq (fun x _ => isScalar_eq x) h, (lists_eq ih' h).1]
    case tuple.tuple xs ys => simp only [translate, allScalar_eq (fun x _ => isScalar_eq x) h, (lists_eq ih' h).1]
    case column.column c c' => simp only [translate, colStr_eq h]
    case curried.curried f n ik is pk ps a f' n' ik' is' pk' ps' a' =>
      obtain ⟨⟨⟨h1, h2, h3⟩, h4, h5⟩, h6⟩ := h
      simp only [translate, h1, h2, h4, hal.same h6, (lists_eq (fun x hx y hy => ih' x (by simp [hx]) y (by simp [hy])) h3).2.1,
        (lists_eq (fun x hx y hy => ih' x (by simp [hx]) y (by simp [hy])) h5).2.2]
    case lam.lam k ids b k' ids' b' => simp only [translate, h.1.2, ih' b (by simp) b' (by simp) h.2]
    case aliased.aliased c a c' a' => simp only [translate, colStr_eq h.1, h.2]
    case cond.cond l o r l' o' r' =>
      simp only [translate, rhsText, ih' l (by simp) l' (by simp) h.1.1, ih' r (by simp) r' (by simp) h.2, h.1.2, (pyEq_class h.2).2.2.2.2,
        isScalar_eq _ _ h.2]
    case boolCond.boolCond c o k cs c' o' k' cs' => simp only [translate, (lists_eq ih' h.2).1, h.1.1.2]
    case orderby.orderby e d e' d' => simp only [translate, ih' e (by simp) e' (by simp) h.1, h.2]
    case limitby.limitby k cs n k' cs' n' =>
      cases n with
      | bool b => exact (a1 (.count _ _ b)).elim
      | int i => cases n' with
        | bool b => exact (b1 (.count _ _ b)).elim
        | int j =>
          have : i = j := h.2
          simp only [translate, cols_eq h.1.2, this]
    case limit.limit n n' => simp only [translate, h]
    case offset.offset n n' => simp only [translate, h]
    case granularity.granularity n n' => simp only [translate, h]
    case entity.entity e e' => simp only [translate, entityStr_eq h fun f hf => a2 f (by simp [ownSamples, ownEntities, hf])]
    case storage.storage s s' =>
      simp only [StorageObj.pyEq, Bool.and_eq_true, beq_iff_eq] at h
      simp only [translate, storageStr, h.1.1, sample_eq h.1.2 fun f hf => a2 f (by simp [ownSamples, hf])]
    case rel.rel r r' =>
      simp only [translate, relStr_eq h (fun f hf => a2 f (by simp [ownSamples, ownEntities, hf])) fun f hf => a2 f (by simp [ownSamples, ownEntities, hf])]
    case join.join k rs k' rs' =>
      simp only [translate, joinStr]
      rw [rels_eq h.2]
      intro r hr
      constructor
      · intro f hf
        refine a2 f ?_
        simp only [ownSamples, ownEntities, List.mem_filterMap, List.mem_flatMap]
        exact ⟨r.lhs, ⟨r, hr, by simp⟩, hf⟩
      · intro f hf
        refine a2 f ?_
        simp only [ownSamples, ownEntities, List.mem_filterMap, List.mem_flatMap]
        exact ⟨r.rhs, ⟨r, hr, by simp⟩, hf⟩
    case dataModel.dataModel d d' => rfl

end Verif
