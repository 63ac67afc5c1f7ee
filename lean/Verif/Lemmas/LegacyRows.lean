import Verif.Spec.LegacyRows
import Verif.Lemmas.Legacy

/-!
# Lemmas for C77
-/

namespace Verif
open Spec

theorem Tri.and_assoc' (a b c : Tri) : (a.and b).and c = a.and (b.and c) := by cases a <;> cases b <;> cases c <;> rfl

theorem Tri.and_yes' (a : Tri) : a.and .yes = a := by cases a <;> rfl

theorem Tri.or_no' (a : Tri) : a.or .no = a := by cases a <;> rfl

theorem evalAll_append {E : Type} (I : Interp E) : ∀ xs ys : List Val, I.evalAll (xs ++ ys) = (I.evalAll xs).and (I.evalAll ys)
  | [], ys => by cases h : I.evalAll ys <;> simp [Interp.evalAll, h, Tri.and]
  | x :: xs, ys => by simp [Interp.evalAll, evalAll_append I xs ys, Tri.and_assoc']

theorem evalAny_list {E : Type} (I : Interp E) : ∀ xs : List Val, I.evalAny xs = Tri.any (xs.map I.eval)
  | [] => rfl
  | x :: xs => by simp [Interp.evalAny, Tri.any, evalAny_list I xs]

theorem evalAll_one {E : Type} (I : Interp E) (x : Val) : I.evalAll [x] = I.eval x := by simp [Interp.evalAll, Tri.and_yes']

section
variable [U : PyUnicode] [D : PyDecimal] {E : Type} {T : List Val → Tri} {I : Interp E}

theorem group_truth (ht : TruthAgrees T I) {vs cs : List Val} (h : GroupOf vs cs) : MembersTruth T vs (cs.map I.eval) := by
  induction vs generalizing cs with
  | nil => cases h; exact .nil
  | cons v vs ih =>
    cases h with
    | cons hi hc hs =>
      rw [List.map_cons, ← ht _ _ hc]
      exact .cons hi (ih hs)

theorem where_entry_truth (ht : TruthAgrees T I) {v : Val} {cs : List Val} (h : WhereEntry v cs) : EntryTruth T v (I.evalAll cs) := by
  cases h with
  | condition hi hs hc => rw [evalAll_one, ← ht _ _ hc]; exact .condition hi hs
  | group hi hs hg hl =>
    rw [evalAll_one, Interp.eval, evalAny_list]
    refine .group hi hs ?_ (group_truth ht hg)
    rintro rfl
    cases hg
    simp at hl
  | single hi hs hg =>
    have := EntryTruth.group hi hs (by rintro rfl; cases hg) (group_truth ht hg)
    simpa [evalAll_one, Tri.any, Tri.or_no'] using this
  | empty hi => exact .empty hi

theorem where_entries_truth (ht : TruthAgrees T I) {vs cs : List Val} (h : WhereEntries vs cs) : EntriesTruth T vs (I.evalAll cs) := by
  induction vs generalizing cs with
  | nil => cases h; exact .nil
  | cons v vs ih =>
    cases h with
    | cons he hs => rw [evalAll_append]; exact .cons (where_entry_truth ht he) (ih hs)

theorem having_entries_truth (ht : TruthAgrees T I) {vs cs : List Val} (h : HavingEntries vs cs) : EntriesTruth T vs (I.evalAll cs) := by
  induction vs generalizing cs with
  | nil => cases h; exact .nil
  | cons v vs ih =>
    cases h with
    | cons he hs =>
      refine .cons ?_ (ih hs)
      cases he with
      | condition hi hs hc => rw [← ht _ _ hc]; exact .condition hi hs
      | group hi hs hg hl =>
        rw [Interp.eval, evalAny_list]
        refine .group hi hs ?_ (group_truth ht hg)
        rintro rfl
        cases hg
        simp at hl

theorem organization_truth {v : Val} {cs : List Val} (h : OrganizationOf v cs) : MemberTruth I c!"org_id" v (I.evalAll cs) := by
  cases h with
  | absent h => exact .absent h
  | one h hn => rw [evalAll_one]; exact .one h hn
  | many h hs hx _ => rw [evalAll_one]; exact .many h hs hx
  | other h h1 h2 => exact .other h h1 h2

theorem project_truth {v : Val} {cs : List Val} (h : ProjectOf v cs) : MemberTruth I c!"project_id" v (I.evalAll cs) := by
  cases h with
  | absent h => exact .absent h
  | one h hn =>
    have := MemberTruth.one (I := I) (column := c!"project_id") h hn
    simpa [evalAll_one, Interp.eval, Interp.atom, Tri.any, Tri.or_no'] using this
  | many h hs hx _ => rw [evalAll_one]; exact .many h hs hx
  | other h h1 h2 => exact .other h h1 h2

theorem bound_truth {c : Str} {o : Op} (ho : o = .gte ∨ o = .lt) {v : Val} {cs : List Val} (h : BoundOf c o v cs) : BoundTruth I c o v (I.evalAll cs) := by
  cases h with
  | absent h => exact .absent h
  | date h => rw [evalAll_one]; rcases ho with rfl | rfl <;> exact .date h

theorem bounds_truth {b : LegacyBody} {entity : Str} {cs : List Val} (h : BoundsOf b entity cs) : BoundsTruth I b entity (I.evalAll cs) := by
  cases h with
  | none h => exact .none h
  | both hc hv hx hw hy => rw [evalAll_append]; exact .both hc hv (bound_truth (.inl rfl) hx) hw (bound_truth (.inr rfl) hy)

theorem where_truth (ht : TruthAgrees T I) {b : LegacyBody} {entity : Str} {cs : List Val} (h : WhereOf b entity cs) :
    BodyTruth T I b entity (I.evalAll cs) := by
  cases h with
  | mk hv ho hb hw hp hi he =>
    have := BodyTruth.mk (I := I) (T := T) hv (organization_truth ho) (bounds_truth hb) hw (project_truth hp) hi (where_entries_truth ht he)
    simpa [evalAll_append, Tri.and_assoc'] using this

/-! ### One truth -/

omit U D in
theorem membersTruth_unique {vs : List Val} {ts us : List Tri} (h : MembersTruth T vs ts) (h' : MembersTruth T vs us) : ts = us := by
  induction h generalizing us with
  | nil => cases h'; rfl
  | cons hi _ ih =>
    cases h' with
    | cons hi' hs' => cases itemsOf_unique hi hi'; rw [ih hs']

omit U D in
theorem not_shape_nil : ¬ ConditionShape [] := by intro h; cases h

omit U D in
theorem entryTruth_unique {v : Val} {t u : Tri} (h : EntryTruth T v t) (h' : EntryTruth T v u) : t = u := by
  cases h with
  | condition hi hs =>
    cases h' with
    | condition hi' _ => cases itemsOf_unique hi hi'; rfl
    | group hi' hn _ _ => cases itemsOf_unique hi hi'; exact absurd hs hn
    | empty hi' => cases itemsOf_unique hi hi'; exact absurd hs not_shape_nil
  | group hi hn hne hm =>
    cases h' with
    | condition hi' hs => cases itemsOf_unique hi hi'; exact absurd hs hn
    | group hi' _ _ hm' => cases itemsOf_unique hi hi'; rw [membersTruth_unique hm hm']
    | empty hi' => cases itemsOf_unique hi hi'; exact absurd rfl hne
  | empty hi =>
    cases h' with
    | condition hi' hs => cases itemsOf_unique hi hi'; exact absurd hs not_shape_nil
    | group hi' _ hne _ => cases itemsOf_unique hi hi'; exact absurd rfl hne
    | empty hi' => rfl

omit U D in
theorem entriesTruth_unique {vs : List Val} {t u : Tri} (h : EntriesTruth T vs t) (h' : EntriesTruth T vs u) : t = u := by
  induction h generalizing u with
  | nil => cases h'; rfl
  | cons he _ ih =>
    cases h' with
    | cons he' hs' => rw [entryTruth_unique he he', ih hs']

omit U in
theorem memberTruth_unique {c : Str} {v : Val} {t u : Tri} (h : MemberTruth I c v t) (h' : MemberTruth I c v u) : t = u := by
  have notSeq : ∀ {v : Val} {n : PyInt} {k : SeqKind} {xs : List Val}, IntLike v n → SeqOf v k xs → False := by
    intro v n k xs h1 h2
    cases h1 <;> cases h2
  cases h with
  | absent hf => cases h' <;> first | rfl | contradiction
  | one hf hn =>
    cases h' with
    | absent hf' => contradiction
    | one _ _ => rfl
    | many _ hs _ => exact (notSeq hn hs).elim
    | other _ hn' _ => exact absurd hn (hn' _)
  | many hf hs hx =>
    cases h' with
    | absent hf' => contradiction
    | one _ hn => exact (notSeq hn hs).elim
    | many _ hs' hx' =>
      have : ∀ {v : Val} {k k' : SeqKind} {xs ys : List Val}, SeqOf v k xs → SeqOf v k' ys → xs = ys := by
        intro v k k' xs ys h1 h2
        cases h1 <;> cases h2 <;> rfl
      cases this hs hs'
      have e1 := scalarsOf_unique (k := false) (by simp) _ hx
      have e2 := scalarsOf_unique (k := false) (by simp) _ hx'
      rw [← e1, ← e2]
    | other _ _ hq => exact absurd (by cases hs <;> constructor) hq
  | other hf h1 h2 =>
    cases h' with
    | absent hf' => contradiction
    | one _ hn => exact absurd hn (h1 _)
    | many _ hs _ => exact absurd (by cases hs <;> constructor) h2
    | other _ _ _ => rfl

omit U in
theorem boundTruth_unique {c : Str} {o : Op} {v : Val} {t u : Tri} (h : BoundTruth I c o v t) (h' : BoundTruth I c o v u) : t = u := by
  cases h with
  | absent hf =>
    cases h' with
    | absent _ => rfl
    | date hd => cases hf; exact absurd hd legacyDate_ne
  | date hd =>
    cases h' with
    | absent hf => cases hf; exact absurd hd legacyDate_ne
    | date hd' =>
      cases (parseDatetime_iff.2 hd).symm.trans (parseDatetime_iff.2 hd')
      rfl

omit D U in
theorem valueAt_one {b : LegacyBody} {k : Str} {v w : Val} (h : ValueAt b k v) (h' : ValueAt b k w) : v = w :=
  (valueAt_iff.2 h).symm.trans (valueAt_iff.2 h')

omit D U in
theorem itemsAt_one {b : LegacyBody} {k : Str} {v w : List Val} (h : ItemsAt b k v) (h' : ItemsAt b k w) : v = w := by
  have e := (itemsAt_iff.2 h).symm.trans (itemsAt_iff.2 h')
  cases e; rfl

omit U in
theorem boundsTruth_unique {b : LegacyBody} {entity : Str} {t u : Tri} (h : BoundsTruth I b entity t) (h' : BoundsTruth I b entity u) : t = u := by
  cases h with
  | none hn =>
    cases h' with
    | none _ => rfl
    | both hc _ _ _ _ => exact absurd hc (hn _)
  | both hc hv hx hw hy =>
    cases h' with
    | none hn => exact absurd hc (hn _)
    | both hc' hv' hx' hw' hy' =>
      cases (timeColumn_iff.2 hc).symm.trans (timeColumn_iff.2 hc')
      cases valueAt_one hv hv'
      cases valueAt_one hw hw'
      rw [boundTruth_unique hx hx', boundTruth_unique hy hy']

omit U in
theorem bodyTruth_unique {b : LegacyBody} {entity : Str} {t u : Tri} (h : BodyTruth T I b entity t) (h' : BodyTruth T I b entity u) : t = u := by
  cases h with
  | mk hv ho hb hw hp hi he =>
    cases h' with
    | mk hv' ho' hb' hw' hp' hi' he' =>
      cases valueAt_one hv hv'
      cases valueAt_one hw hw'
      cases itemsAt_one hi hi'
      rw [memberTruth_unique ho ho', boundsTruth_unique hb hb', memberTruth_unique hp hp', entriesTruth_unique he he']

omit U D in
theorem havingTruth_unique {b : LegacyBody} {t u : Tri} (h : HavingTruth T b t) (h' : HavingTruth T b u) : t = u := by
  cases h with
  | mk hi he =>
    cases h' with
    | mk hi' he' => cases itemsAt_one hi hi'; exact entriesTruth_unique he he'

end

end Verif
