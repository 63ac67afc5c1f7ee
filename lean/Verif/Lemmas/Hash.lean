import Verif.Model.Hash
import Verif.Lemmas.Equal
import Verif.Lemmas.Errors

/-!
# Lemmas: hashes
-/

namespace Verif
open Spec

theorem bool_ok {α : Type} {p : Bool} {e : Err} {x : α} : (∃ t, (if p = true then (.ok x : Except Err α) else .error e) = .ok t) ↔ p = true := by
  cases p <;> simp

theorem eqInt_hash {f : PyFloat} {i : Int} (h : f.eqInt i = true) : f.hashTree = .num i := by
  cases f with
  | fin d =>
    simp only [PyFloat.eqInt, beq_iff_eq] at h
    simp only [PyFloat.hashTree, h]
  | inf b => cases h
  | nan => cases h

theorem eqF_hash {f g : PyFloat} (h : f.eqF g = true) : f.hashTree = g.hashTree := by
  cases f <;> cases g <;> simp only [PyFloat.eqF, Bool.false_eq_true, Bool.and_eq_true, Bool.or_eq_true, beq_iff_eq] at h
  · rename_i d d'
    obtain ⟨⟨h1, h2⟩, h3⟩ := h
    have e : d.toInt? = d'.toInt? ∧ (d.toInt? = none → d.neg = d'.neg) := by
      rcases h3 with h3 | h3
      · unfold Dbl.toInt?
        rw [h1, h2, h3]
        exact ⟨rfl, fun _ => rfl⟩
      · have h4 : d'.m = 0 := by omega
        have h5 : 0 ≤ d.e := by rcases dbl_cases d with ⟨_, h⟩ | h <;> omega
        unfold Dbl.toInt?
        rw [if_pos h5, if_pos (h2 ▸ h5), h3, h4]
        constructor
        · cases d.neg <;> cases d'.neg <;> simp
        · simp
    simp only [PyFloat.hashTree, e.1]
    split
    · rfl
    · rename_i hn
      rw [e.2 (e.1.trans hn), h1, h2]
  · subst h; rfl

theorem sample_hash {a b : Option PyFloat} (h : optEq PyFloat.eqF a b = true) : optHash PyFloat.hashTree a = optHash PyFloat.hashTree b := by
  cases a <;> cases b <;> simp only [optEq, Bool.false_eq_true] at h
  · rfl
  · exact eqF_hash h

theorem entity_hash {a b : EntityObj} (h : a.pyEq b = true) : a.hashTree = b.hashTree := by
  simp only [EntityObj.pyEq, Bool.and_eq_true, beq_iff_eq] at h
  simp only [EntityObj.hashTree, h.1.1.1, h.1.1.2, sample_hash h.1.2]

theorem storage_hash {a b : StorageObj} (h : a.pyEq b = true) : a.hashTree = b.hashTree := by
  simp only [StorageObj.pyEq, Bool.and_eq_true, beq_iff_eq] at h
  simp only [StorageObj.hashTree, h.1.1, sample_hash h.1.2]

theorem column_hash {a b : ColumnObj} (h : a.pyEq b = true) : a.hashTree = b.hashTree := by
  simp only [ColumnObj.pyEq, Bool.and_eq_true, beq_iff_eq] at h
  have e : optHash EntityObj.hashTree a.entity = optHash EntityObj.hashTree b.entity := by
    have := h.1.1.2
    cases ha : a.entity <;> cases hb : b.entity <;> rw [ha, hb] at this <;> first
      | rfl
      | exact Bool.noConfusion this
      | exact entity_hash this
  simp only [ColumnObj.hashTree, h.1.1.1, e, h.1.2, h.2]

theorem rel_hash {a b : RelObj} (h : a.pyEq b = true) : a.hashTree = b.hashTree := by
  simp only [RelObj.pyEq, Bool.and_eq_true, beq_iff_eq] at h
  simp only [RelObj.hashTree, entity_hash h.1.1, h.1.2, entity_hash h.2]

theorem listEq_hash {α : Type} {f : α → α → Bool} {g : α → HashTree} (hf : ∀ a b, f a b = true → g a = g b) :
    ∀ {as bs : List α}, listEq f as bs = true → as.map g = bs.map g
  | [], [], _ => rfl
  | [], _ :: _, h => by cases h
  | _ :: _, [], h => by cases h
  | a :: as, b :: bs, h => by
    simp only [listEq, Bool.and_eq_true] at h
    simp only [List.map_cons, hf a b h.1, listEq_hash hf h.2]

theorem datetime_hash {a b : Datetime} (h : a.pyEq b = true) : a.hashTree = b.hashTree := by
  unfold Datetime.pyEq at h
  unfold Datetime.hashTree
  generalize a.tz.bind id = x at h ⊢
  generalize b.tz.bind id = y at h ⊢
  cases x <;> cases y <;> simp only [beq_iff_eq, Bool.false_eq_true] at h
  · simp only [h]
  · simp only [h]

theorem hashTrees_eq : ∀ {as bs : List Val}, (∀ x ∈ as, ∀ y ∈ bs, pyEq x y = true → hashTree x = hashTree y) → pyEqList as bs = true →
    hashTrees as = hashTrees bs
  | [], [], _, _ => rfl
  | [], _ :: _, _, h => by simp [pyEqList] at h
  | _ :: _, [], _, h => by simp [pyEqList] at h
  | x :: xs, y :: ys, ih, h => by
    simp only [pyEqList, Bool.and_eq_true] at h
    simp only [hashTrees, ih x (by simp) y (by simp) h.1, hashTrees_eq (fun z hz w hw => ih z (by simp [hz]) w (by simp [hw])) h.2]

theorem pyEq_hash : ∀ a b : Val, pyEq a b = true → AliasesTold a b → hashTree a = hashTree b := by
  intro a
  induction a using Val.childInd with
  | step v ih =>
    intro b h hal
    have ih' : ∀ x ∈ v.children, ∀ y ∈ b.children, pyEq x y = true → hashTree x = hashTree y :=
      fun x hx y hy e => ih x hx y e (hal.child hx hy)
    clear ih
    cases v <;> cases b <;> first
      | exact Bool.noConfusion h
      | skip
    all_goals simp only [pyEq, Bool.and_eq_true, beq_iff_eq, Val.children] at h ih'
    all_goals first
      | (subst h; rfl)
      | skip
    case none.none => rfl
    case bool.float b f => simp only [hashTree, eqInt_hash h]
    case int.float i f => simp only [hashTree, eqInt_hash h]
    case float.bool f b => simp only [hashTree, eqInt_hash h]
    case float.int f i => simp only [hashTree, eqInt_hash h]
    case float.float f g => simp only [hashTree, eqF_hash h]
    case datetime.datetime d d' => simp only [hashTree, datetime_hash h]
    case list.list xs ys => rfl
    case tuple.tuple xs ys => simp only [hashTree, hashTrees_eq ih' h]
    case column.column c c' => simp only [hashTree, column_hash h]
    case curried.curried f n ik is pk ps a f' n' ik' is' pk' ps' a' =>
      obtain ⟨⟨⟨h1, h2, h3⟩, h4, h5⟩, h6⟩ := h
      simp only [hashTree, h1, h2, h4, hal.same h6, hashTrees_eq (fun x hx y hy => ih' x (by simp [hx]) y (by simp [hy])) h3,
        hashTrees_eq (fun x hx y hy => ih' x (by simp [hx]) y (by simp [hy])) h5]
    case lam.lam k ids b k' ids' b' => simp only [hashTree, h.1.1, h.1.2, ih' b (by simp) b' (by simp) h.2]
    case aliased.aliased c a c' a' => simp only [hashTree, column_hash h.1, h.2]
    case cond.cond l o r l' o' r' => simp only [hashTree, ih' l (by simp) l' (by simp) h.1.1, ih' r (by simp) r' (by simp) h.2, h.1.2]
    case boolCond.boolCond c o k cs c' o' k' cs' => simp only [hashTree, hashTrees_eq ih' h.2, h.1.1.2, h.1.2]
    case orderby.orderby e d e' d' => simp only [hashTree, ih' e (by simp) e' (by simp) h.1, h.2]
    case limitby.limitby k cs n k' cs' n' => simp only [hashTree, h.1.1, listEq_hash (f := ColumnObj.pyEq) (fun _ _ => column_hash) h.1.2, h.2]
    case limit.limit n n' => simp only [hashTree, h]
    case offset.offset n n' => simp only [hashTree, h]
    case granularity.granularity n n' => simp only [hashTree, h]
    case entity.entity e e' => simp only [hashTree, entity_hash h]
    case storage.storage s s' => simp only [hashTree, storage_hash h]
    case rel.rel r r' => simp only [hashTree, rel_hash h]
    case join.join k rs k' rs' => simp only [hashTree, h.1, listEq_hash (f := RelObj.pyEq) (fun _ _ => rel_hash) h.2]
    case dataModel.dataModel d d' => rfl

theorem seqHash_ok {k : SeqKind} {xs : List HashTree} {t : HashTree} : seqHash k xs = .ok t ↔ k ≠ .list ∧ t = .seq k xs := by
  unfold seqHash
  split
  · rename_i h; simp [h]
  · rename_i h; simp [h, eq_comm]

theorem seqHash_error {k : SeqKind} {xs : List HashTree} {e : Err} (h : seqHash k xs = .error e) : e = .typeError := by
  unfold seqHash at h
  split at h <;> cases h
  rfl

theorem hashTrees_error : ∀ {xs : List Val} {e : Err}, (∀ x ∈ xs, ∀ {e : Err}, hashTree x = .error e → e = .typeError) → hashTrees xs = .error e → e = .typeError
  | [], _, _, h => by cases h
  | x :: xs, e, ih, h => by
    simp only [hashTrees, bind_eq_error] at h
    rcases h with h | ⟨_, _, h | ⟨_, _, h⟩⟩
    · exact ih x (by simp) h
    · exact hashTrees_error (fun y hy => ih y (by simp [hy])) h
    · cases h

theorem hashTree_error : ∀ (v : Val) {e : Err}, hashTree v = .error e → e = .typeError := by
  intro v
  induction v using Val.childInd with
  | step v ih =>
    intro e h
    cases v <;> simp only [Val.children] at ih <;> simp only [hashTree, bind_eq_error, Except.error.injEq, reduceCtorEq, and_false, exists_false, or_false] at h
    case list => exact h.symm
    case dataModel => exact h.symm
    case tuple => exact hashTrees_error ih h
    case curried f n ik is pk ps a =>
      rcases h with h | ⟨_, _, h | ⟨_, _, h | ⟨_, _, h⟩⟩⟩
      · exact hashTrees_error (fun y hy => ih y (by simp [hy])) h
      · exact seqHash_error h
      · exact hashTrees_error (fun y hy => ih y (by simp [hy])) h
      · exact seqHash_error h
    case lam k ids b =>
      rcases h with h | ⟨_, _, h⟩
      · exact seqHash_error h
      · exact ih b (by simp) h
    case cond l o r =>
      rcases h with h | ⟨_, _, h⟩
      · exact ih l (by simp) h
      · exact ih r (by simp) h
    case boolCond c o k cs =>
      rcases h with h | ⟨_, _, h⟩
      · exact hashTrees_error ih h
      · exact seqHash_error h
    case orderby x d => exact ih x (by simp) h
    case limitby => exact seqHash_error h
    case join => exact seqHash_error h

theorem hashTrees_ok : ∀ {xs : List Val}, (∀ x ∈ xs, (∃ t, hashTree x = .ok t) ↔ ¬ Unhashable x) →
    ((∃ ts, hashTrees xs = .ok ts) ↔ ∀ x ∈ xs, ¬ Unhashable x)
  | [], _ => by simp [hashTrees]
  | x :: xs, ih => by
    have h1 := ih x (by simp)
    have h2 := hashTrees_ok fun y hy => ih y (List.mem_cons_of_mem x hy)
    simp only [hashTrees, bind_eq_ok, Except.ok.injEq, List.mem_cons, forall_eq_or_imp, ← h1, ← h2]
    constructor
    · rintro ⟨_, t, e1, ts, e2, rfl⟩; exact ⟨⟨t, e1⟩, ts, e2⟩
    · rintro ⟨⟨t, e1⟩, ts, e2⟩; exact ⟨_, t, e1, ts, e2, rfl⟩

theorem hashTree_ok : ∀ v : Val, (∃ t, hashTree v = .ok t) ↔ ¬ Unhashable v := by
  intro v
  induction v using Val.childInd with
  | step v ih =>
    cases v <;> simp only [Val.children] at ih
    case list xs => simp [hashTree, Unhashable.list]
    case dataModel d => simp [hashTree, Unhashable.dataModel]
    case tuple xs =>
      have h := hashTrees_ok ih
      constructor
      · rintro ⟨t, e⟩ hu
        simp only [hashTree, bind_eq_ok, Except.ok.injEq] at e
        obtain ⟨hs, e, _⟩ := e
        cases hu with
        | tuple _ x hx hu => exact h.1 ⟨_, e⟩ x hx hu
      · intro hu
        obtain ⟨ts, e⟩ := h.2 fun x hx hx' => hu (.tuple _ x hx hx')
        simp only [hashTree, e, ok_bind, Except.ok.injEq, exists_eq']
    case curried f n ik is pk ps a =>
      have h1 := hashTrees_ok (xs := is) fun x hx => ih x (by simp [hx])
      have h2 := hashTrees_ok (xs := ps) fun x hx => ih x (by simp [hx])
      constructor
      · rintro ⟨t, e⟩ hu
        simp only [hashTree, bind_eq_ok, Except.ok.injEq, seqHash_ok] at e
        obtain ⟨hi, e1, _, ⟨e2, -⟩, hp, e3, _, ⟨e4, -⟩, _⟩ := e
        cases hu with
        | initializerList => exact e2 rfl
        | parameterList => exact e4 rfl
        | initializer _ _ _ _ _ _ _ x hx hu => exact h1.1 ⟨_, e1⟩ x hx hu
        | parameter _ _ _ _ _ _ _ x hx hu => exact h2.1 ⟨_, e3⟩ x hx hu
      · intro hu
        obtain ⟨ts, e⟩ := h1.2 fun x hx hx' => hu (.initializer _ _ _ _ _ _ _ x hx hx')
        obtain ⟨ts', e'⟩ := h2.2 fun x hx hx' => hu (.parameter _ _ _ _ _ _ _ x hx hx')
        have k1 : ik ≠ .list := by rintro rfl; exact hu (.initializerList ..)
        have k2 : pk ≠ .list := by rintro rfl; exact hu (.parameterList ..)
        simp only [hashTree, e, e', ok_bind, seqHash_ok.2 ⟨k1, rfl⟩, seqHash_ok.2 ⟨k2, rfl⟩, Except.ok.injEq, exists_eq']
    case lam k ids b =>
      have h := ih b (by simp)
      constructor
      · rintro ⟨t, e⟩ hu
        simp only [hashTree, bind_eq_ok, Except.ok.injEq, seqHash_ok] at e
        obtain ⟨_, ⟨e1, -⟩, _, e2, _⟩ := e
        cases hu with
        | identifierList => exact e1 rfl
        | lambdaBody _ _ _ hu => exact h.1 ⟨_, e2⟩ hu
      · intro hu
        obtain ⟨t, e⟩ := h.2 fun hx => hu (.lambdaBody _ _ _ hx)
        have k1 : k ≠ .list := by rintro rfl; exact hu (.identifierList ..)
        simp only [hashTree, e, ok_bind, seqHash_ok.2 ⟨k1, rfl⟩, Except.ok.injEq, exists_eq']
    case cond l o r =>
      have h1 := ih l (by simp)
      have h2 := ih r (by simp)
      constructor
      · rintro ⟨t, e⟩ hu
        simp only [hashTree, bind_eq_ok, Except.ok.injEq] at e
        obtain ⟨_, e1, _, e2, _⟩ := e
        cases hu with
        | left _ _ _ hu => exact h1.1 ⟨_, e1⟩ hu
        | right _ _ _ hu => exact h2.1 ⟨_, e2⟩ hu
      · intro hu
        obtain ⟨t, e⟩ := h1.2 fun hx => hu (.left _ _ _ hx)
        obtain ⟨t', e'⟩ := h2.2 fun hx => hu (.right _ _ _ hx)
        simp only [hashTree, e, e', ok_bind, Except.ok.injEq, exists_eq']
    case boolCond c o k cs =>
      have h := hashTrees_ok ih
      constructor
      · rintro ⟨t, e⟩ hu
        simp only [hashTree, bind_eq_ok, Except.ok.injEq, seqHash_ok] at e
        obtain ⟨_, e2, _, ⟨e1, -⟩, _⟩ := e
        cases hu with
        | conditionList => exact e1 rfl
        | condition _ _ _ _ x hx hu => exact h.1 ⟨_, e2⟩ x hx hu
      · intro hu
        obtain ⟨t, e⟩ := h.2 fun x hx hx' => hu (.condition _ _ _ _ x hx hx')
        have k1 : k ≠ .list := by rintro rfl; exact hu (.conditionList ..)
        simp only [hashTree, e, ok_bind, seqHash_ok.2 ⟨k1, rfl⟩, Except.ok.injEq, exists_eq']
    case orderby x d =>
      have h := ih x (by simp)
      constructor
      · rintro ⟨t, e⟩ hu
        simp only [hashTree, bind_eq_ok, Except.ok.injEq] at e
        obtain ⟨_, e2, _⟩ := e
        cases hu with
        | ordered _ _ hu => exact h.1 ⟨_, e2⟩ hu
      · intro hu
        obtain ⟨t, e⟩ := h.2 fun hx => hu (.ordered _ _ hx)
        simp only [hashTree, e, ok_bind, Except.ok.injEq, exists_eq']
    case limitby k cs n =>
      constructor
      · rintro ⟨t, e⟩ hu
        simp only [hashTree, bind_eq_ok, Except.ok.injEq, seqHash_ok] at e
        obtain ⟨_, ⟨e1, -⟩, _⟩ := e
        cases hu with
        | columnList => exact e1 rfl
      · intro hu
        have k1 : k ≠ .list := by rintro rfl; exact hu (.columnList ..)
        simp only [hashTree, ok_bind, seqHash_ok.2 ⟨k1, rfl⟩, Except.ok.injEq, exists_eq']
    case join k rs =>
      constructor
      · rintro ⟨t, e⟩ hu
        simp only [hashTree, bind_eq_ok, Except.ok.injEq, seqHash_ok] at e
        obtain ⟨_, ⟨e1, -⟩, _⟩ := e
        cases hu with
        | relationshipList => exact e1 rfl
      · intro hu
        have k1 : k ≠ .list := by rintro rfl; exact hu (.relationshipList ..)
        simp only [hashTree, ok_bind, seqHash_ok.2 ⟨k1, rfl⟩, Except.ok.injEq, exists_eq']
    all_goals exact ⟨fun _ hu => (by cases hu), fun _ => ⟨_, rfl⟩⟩

end Verif
