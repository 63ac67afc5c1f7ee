import Verif.Spec.MetricsEqual
import Verif.Model.MetricsEq
import Verif.Lemmas.QueryEqual
import Verif.Lemmas.Errors

/-!
# Lemmas: equal metrics queries
-/

namespace Verif
open Spec

/-! ### The laws of equality for nested structures -/

theorem lookup_mem {α : Type} {k : Str} {x : α} : ∀ {kvs : List (Str × α)}, kvs.lookup k = some x → (k, x) ∈ kvs
  | [], h => by simp at h
  | (k', y) :: kvs, h => by
    simp only [List.lookup] at h
    split at h
    · rename_i e
      simp only [beq_iff_eq] at e
      cases h; subst e; simp
    · exact List.mem_cons_of_mem _ (lookup_mem h)

theorem mem_lookup {α : Type} {k : Str} {x : α} : ∀ {kvs : List (Str × α)}, (kvs.map Prod.fst).Nodup → (k, x) ∈ kvs → kvs.lookup k = some x
  | [], _, h => by cases h
  | (k', y) :: kvs, hn, h => by
    simp only [List.map_cons, List.nodup_cons] at hn
    simp only [List.lookup]
    rcases List.mem_cons.1 h with h | h
    · cases h; simp
    · have : k ≠ k' := by
        intro e
        rw [← e] at hn
        exact hn.1 (List.mem_map.2 ⟨(k, x), h, rfl⟩)
      simp only [beq_eq_false_iff_ne.2 this]
      exact mem_lookup hn.2 h

theorem key_lookup {α : Type} {k : Str} : ∀ {kvs : List (Str × α)}, k ∈ kvs.map Prod.fst → ∃ x, kvs.lookup k = some x
  | [], h => by simp at h
  | (k', y) :: kvs, h => by
    simp only [List.lookup]
    by_cases e : k = k'
    · subst e; exact ⟨y, by simp⟩
    · simp only [beq_eq_false_iff_ne.2 e]
      simp only [List.map_cons, List.mem_cons] at h
      rcases h with h | h
      · exact (e h).elim
      · exact key_lookup h

theorem subset_of_length {α : Type} [BEq α] [LawfulBEq α] : ∀ {as bs : List α}, as.Nodup → (∀ x ∈ as, x ∈ bs) → bs.length ≤ as.length →
    ∀ x ∈ bs, x ∈ as
  | [], bs, _, _, hl, x, hx => by
    simp only [List.length_nil, Nat.le_zero_eq, List.length_eq_zero_iff] at hl
    subst hl; cases hx
  | a :: as, bs, hn, hs, hl, x, hx => by
    simp only [List.nodup_cons] at hn
    by_cases e : x = a
    · subst e; simp
    · refine List.mem_cons_of_mem _ (subset_of_length (bs := bs.erase a) hn.2 ?_ ?_ x ((List.mem_erase_of_ne e).2 hx))
      · intro y hy
        refine (List.mem_erase_of_ne ?_).2 (hs y (by simp [hy]))
        rintro rfl; exact hn.1 hy
      · rw [List.length_erase_of_mem (hs a (by simp))]
        simp only [List.length_cons] at hl
        omega

theorem dictWithin_iff : ∀ {kvs kvs' : List (Str × Data)}, dictWithin kvs kvs' = true ↔
    ∀ k x, (k, x) ∈ kvs → ∃ y, kvs'.lookup k = some y ∧ x.pyEq y = true
  | [], kvs' => by simp [dictWithin]
  | (k, x) :: kvs, kvs' => by
    simp only [dictWithin, Bool.and_eq_true, dictWithin_iff (kvs := kvs), List.mem_cons]
    constructor
    · rintro ⟨h1, h2⟩ k' x' (h | h)
      · cases h
        split at h1
        · rename_i y e; exact ⟨y, e, h1⟩
        · cases h1
      · exact h2 _ _ h
    · intro h
      refine ⟨?_, fun k' x' h' => h k' x' (.inr h')⟩
      obtain ⟨y, e, h1⟩ := h k x (.inl rfl)
      rw [e]; exact h1

/-- Induction over nested structures. -/
theorem Data.ind {P : Data → Prop} (val : ∀ v, P (.val v)) (list : ∀ xs, (∀ x ∈ xs, P x) → P (.list xs))
    (dict : ∀ kvs, (∀ k x, (k, x) ∈ kvs → P x) → P (.dict kvs)) : ∀ d, P d := by
  intro d
  exact Data.rec (motive_1 := P) (motive_2 := fun xs => ∀ x ∈ xs, P x) (motive_3 := fun kvs => ∀ k x, (k, x) ∈ kvs → P x)
    (motive_4 := fun p => P p.2) val list dict (by simp)
    (fun x xs hx hxs y hy => by
      rcases List.mem_cons.1 hy with rfl | hy
      · exact hx
      · exact hxs y hy)
    (by simp)
    (fun p kvs hp hk k x h => by
      rcases List.mem_cons.1 h with rfl | h
      · exact hp
      · exact hk k x h)
    (fun _ _ h => h) d

theorem dataEqAll_refl : ∀ {xs : List Data}, (∀ x ∈ xs, x.pyEq x = true) → dataEqAll xs xs = true
  | [], _ => rfl
  | x :: xs, h => by
    simp only [dataEqAll, Bool.and_eq_true]
    exact ⟨h x (by simp), dataEqAll_refl fun y hy => h y (by simp [hy])⟩

theorem data_refl : ∀ d : Data, (∀ v, InData d (.val v) → NoNans v) → KeysOnce d → d.pyEq d = true := by
  intro d
  induction d using Data.ind with
  | val v => intro h _; exact pyEq_refl v (h v (.self _))
  | list xs ih =>
    intro h hk
    exact dataEqAll_refl fun x hx => ih x hx (fun v hv => h v (.item _ _ _ hx hv)) fun kvs hv => hk kvs (.item _ _ _ hx hv)
  | dict kvs ih =>
    intro h hk
    simp only [Data.pyEq, Bool.and_eq_true, beq_self_eq_true, true_and, dictWithin_iff]
    intro k x hx
    exact ⟨x, mem_lookup (hk _ (.self _)) hx, ih k x hx (fun v hv => h v (.entry _ _ _ _ hx hv)) fun kvs hv => hk kvs (.entry _ _ _ _ hx hv)⟩

theorem dataEqAll_symm : ∀ {xs ys : List Data}, (∀ x ∈ xs, ∀ y ∈ ys, x.pyEq y = true → y.pyEq x = true) → dataEqAll xs ys = true →
    dataEqAll ys xs = true
  | [], [], _, _ => rfl
  | [], _ :: _, _, h => by simp [dataEqAll] at h
  | _ :: _, [], _, h => by simp [dataEqAll] at h
  | x :: xs, y :: ys, ih, h => by
    simp only [dataEqAll, Bool.and_eq_true] at h ⊢
    exact ⟨ih x (by simp) y (by simp) h.1, dataEqAll_symm (fun a ha b hb => ih a (by simp [ha]) b (by simp [hb])) h.2⟩

theorem data_symm : ∀ d e : Data, KeysOnce d → KeysOnce e → d.pyEq e = true → e.pyEq d = true := by
  intro d
  induction d using Data.ind with
  | val v =>
    intro e _ _ h
    cases e with
    | val w => exact pyEq_symm _ _ h
    | _ => simp [Data.pyEq] at h
  | list xs ih =>
    intro e hd he h
    cases e with
    | list ys =>
      exact dataEqAll_symm (fun x hx y hy => ih x hx y (fun kvs hv => hd kvs (.item _ _ _ hx hv)) fun kvs hv => he kvs (.item _ _ _ hy hv)) h
    | _ => simp [Data.pyEq] at h
  | dict kvs ih =>
    intro e hd he h
    cases e with
    | dict kvs' =>
      simp only [Data.pyEq, Bool.and_eq_true, beq_iff_eq, dictWithin_iff] at h ⊢
      refine ⟨h.1.symm, fun k y hy => ?_⟩
      have hk : k ∈ kvs.map Prod.fst := by
        refine subset_of_length (bs := kvs'.map Prod.fst) (hd _ (.self _)) ?_ (by simp [h.1]) k (List.mem_map.2 ⟨_, hy, rfl⟩)
        intro k' hk'
        obtain ⟨⟨k', x⟩, hx, rfl⟩ := List.mem_map.1 hk'
        obtain ⟨y, e, _⟩ := h.2 _ _ hx
        exact List.mem_map.2 ⟨_, lookup_mem e, rfl⟩
      obtain ⟨x, hx⟩ := key_lookup hk
      obtain ⟨y', e, h'⟩ := h.2 _ _ (lookup_mem hx)
      rw [mem_lookup (he _ (.self _)) hy] at e
      cases e
      exact ⟨x, hx, ih k x (lookup_mem hx) y (fun kvs hv => hd kvs (.entry _ _ _ _ (lookup_mem hx) hv))
        (fun kvs hv => he kvs (.entry _ _ _ _ hy hv)) h'⟩
    | _ => simp [Data.pyEq] at h

theorem dataEqAll_trans : ∀ {xs ys zs : List Data}, (∀ y ∈ ys, ∀ x ∈ xs, ∀ z ∈ zs, x.pyEq y = true → y.pyEq z = true → x.pyEq z = true) →
    dataEqAll xs ys = true → dataEqAll ys zs = true → dataEqAll xs zs = true
  | [], [], [], _, _, _ => rfl
  | [], _ :: _, _, _, h, _ => by simp [dataEqAll] at h
  | _ :: _, [], _, _, h, _ => by simp [dataEqAll] at h
  | _, [], _ :: _, _, _, h => by simp [dataEqAll] at h
  | _, _ :: _, [], _, _, h => by simp [dataEqAll] at h
  | x :: xs, y :: ys, z :: zs, ih, h, h' => by
    simp only [dataEqAll, Bool.and_eq_true] at h h' ⊢
    exact ⟨ih y (by simp) x (by simp) z (by simp) h.1 h'.1,
      dataEqAll_trans (fun b hb a ha c hc => ih b (by simp [hb]) a (by simp [ha]) c (by simp [hc])) h.2 h'.2⟩

theorem Spec.DataAll.item {P : Val → Prop} {xs : List Data} (h : DataAll P (.list xs)) {x : Data} (hx : x ∈ xs) : DataAll P x :=
  fun v hv => h v (.item _ _ _ hx hv)

theorem Spec.DataAll.entry {P : Val → Prop} {kvs : List (Str × Data)} (h : DataAll P (.dict kvs)) {k : Str} {x : Data} (hx : (k, x) ∈ kvs) :
    DataAll P x := fun v hv => h v (.entry _ _ _ _ hx hv)

theorem data_trans : ∀ b a c : Data, (DataAll OnlyFunctions b ∨ (DataAll NoAliases a ∧ DataAll NoAliases c)) → a.pyEq b = true →
    b.pyEq c = true → a.pyEq c = true := by
  intro b
  induction b using Data.ind with
  | val v =>
    intro a c hf h h'
    cases a <;> cases c <;> simp only [Data.pyEq, Bool.false_eq_true] at h h' ⊢
    refine pyEq_trans_either v _ _ ?_ h h'
    rcases hf with hf | hf
    · exact .inl (hf v (.self _))
    · exact .inr ⟨hf.1 _ (.self _), hf.2 _ (.self _)⟩
  | list ys ih =>
    intro a c hf h h'
    cases a <;> cases c <;> simp only [Data.pyEq, Bool.false_eq_true] at h h' ⊢
    refine dataEqAll_trans (fun y hy x hx z hz => ih y hy x z ?_) h h'
    rcases hf with hf | hf
    · exact .inl (hf.item hy)
    · exact .inr ⟨hf.1.item hx, hf.2.item hz⟩
  | dict kvs ih =>
    intro a c hf h h'
    cases a <;> cases c <;> simp only [Data.pyEq, Bool.false_eq_true, Bool.and_eq_true, beq_iff_eq, dictWithin_iff] at h h' ⊢
    refine ⟨h.1.trans h'.1, fun k x hx => ?_⟩
    obtain ⟨y, e, hy⟩ := h.2 _ _ hx
    obtain ⟨z, e', hz⟩ := h'.2 _ _ (lookup_mem e)
    refine ⟨z, e', ih k y (lookup_mem e) x z ?_ hy hz⟩
    rcases hf with hf | hf
    · exact .inl (hf.entry (lookup_mem e))
    · exact .inr ⟨hf.1.entry hx, hf.2.entry (lookup_mem e')⟩

/-! ### The laws of equality for the objects of the metrics layer -/

/-- Induction over the objects of the metrics layer. -/
theorem MVal.full {P : MVal → Prop} (val : ∀ v, P (.val v)) (metric : ∀ m, P (.metric m)) (ts : ∀ t, P (.ts t))
    (formula : ∀ n p a f g, P p → P (.formula n p a f g)) (rollup : ∀ r, P (.rollup r)) (scope : ∀ s, P (.scope s))
    (list : ∀ xs, (∀ x ∈ xs, P x) → P (.list xs)) (tuple : ∀ xs, (∀ x ∈ xs, P x) → P (.tuple xs)) (data : ∀ d, P (.data d)) : ∀ x, P x := by
  intro x
  exact MVal.rec (motive_1 := P) (motive_2 := fun xs => ∀ x ∈ xs, P x) val metric ts formula rollup scope list tuple data (by simp)
    (fun x xs hx hxs y hy => by
      rcases List.mem_cons.1 hy with rfl | hy
      · exact hx
      · exact hxs y hy) x

theorem Spec.Entirely.data {P : Val → Prop} {d : Data} (h : Entirely P (.data d)) : DataAll P d := fun v hv => h v (.data _ _ hv)

theorem Spec.Entirely.params {P : Val → Prop} {n : Val} {p : MVal} {a f g : Val} (h : Entirely P (.formula n p a f g)) : Entirely P p :=
  fun v hv => h v (.params _ _ _ _ _ _ hv)

theorem Spec.Entirely.item {P : Val → Prop} {s : MVal} {xs : List MVal} (hs : MSeq s xs) (h : Entirely P s) {x : MVal} (hx : x ∈ xs) : Entirely P x :=
  fun v hv => h v (.item _ _ _ _ hs hx hv)

theorem Spec.Keyed.data {d : Data} (h : Keyed (.data d)) : KeysOnce d := fun v hv => h v (.data _ _ hv)

theorem Spec.Keyed.params {n : Val} {p : MVal} {a f g : Val} (h : Keyed (.formula n p a f g)) : Keyed p :=
  fun v hv => h v (.params _ _ _ _ _ _ hv)

theorem Spec.Keyed.item {s : MVal} {xs : List MVal} (hs : MSeq s xs) (h : Keyed s) {x : MVal} (hx : x ∈ xs) : Keyed x :=
  fun v hv => h v (.item _ _ _ _ hs hx hv)

theorem mvalEqAll_refl : ∀ {xs : List MVal}, (∀ x ∈ xs, x.pyEq x = true) → mvalEqAll xs xs = true
  | [], _ => rfl
  | x :: xs, h => by
    simp only [mvalEqAll, Bool.and_eq_true]
    exact ⟨h x (by simp), mvalEqAll_refl fun y hy => h y (by simp [hy])⟩

theorem mval_refl : ∀ x : MVal, Entirely NoNans x → Keyed x → x.pyEq x = true := by
  intro x
  induction x using MVal.full with
  | val v => intro h _; exact pyEq_refl v (h v (.val _))
  | metric m =>
    intro h _
    simp only [MVal.pyEq, MetricObj.pyEq, Bool.and_eq_true]
    refine ⟨⟨?_, ?_⟩, ?_⟩ <;> exact pyEq_refl _ (h _ (.metric _ _ (by simp)))
  | ts t =>
    intro h _
    simp only [MVal.pyEq, TimeseriesObj.pyEq, MetricObj.pyEq, Bool.and_eq_true]
    refine ⟨⟨⟨⟨⟨⟨?_, ?_⟩, ?_⟩, ?_⟩, ?_⟩, ?_⟩, ?_⟩ <;> exact pyEq_refl _ (h _ (.ts _ _ (by simp)))
  | formula n p a f g ih =>
    intro h hk
    simp only [MVal.pyEq, Bool.and_eq_true]
    refine ⟨⟨⟨⟨?_, ih h.params hk.params⟩, ?_⟩, ?_⟩, ?_⟩ <;> exact pyEq_refl _ (h _ (.formula _ _ _ _ _ _ (by simp)))
  | rollup r =>
    intro h _
    simp only [MVal.pyEq, RollupObj.pyEq, Bool.and_eq_true]
    refine ⟨⟨⟨?_, ?_⟩, ?_⟩, ?_⟩ <;> exact pyEq_refl _ (h _ (.rollup _ _ (by simp)))
  | scope s =>
    intro h _
    simp only [MVal.pyEq, ScopeObj.pyEq, Bool.and_eq_true]
    refine ⟨⟨?_, ?_⟩, ?_⟩ <;> exact pyEq_refl _ (h _ (.scope _ _ (by simp)))
  | list xs ih => intro h hk; exact mvalEqAll_refl fun x hx => ih x hx (h.item (.list _) hx) (hk.item (.list _) hx)
  | tuple xs ih => intro h hk; exact mvalEqAll_refl fun x hx => ih x hx (h.item (.tuple _) hx) (hk.item (.tuple _) hx)
  | data d => intro h hk; exact data_refl d h.data hk.data

theorem mvalEqAll_symm : ∀ {xs ys : List MVal}, (∀ x ∈ xs, ∀ y ∈ ys, x.pyEq y = true → y.pyEq x = true) → mvalEqAll xs ys = true →
    mvalEqAll ys xs = true
  | [], [], _, _ => rfl
  | [], _ :: _, _, h => by simp [mvalEqAll] at h
  | _ :: _, [], _, h => by simp [mvalEqAll] at h
  | x :: xs, y :: ys, ih, h => by
    simp only [mvalEqAll, Bool.and_eq_true] at h ⊢
    exact ⟨ih x (by simp) y (by simp) h.1, mvalEqAll_symm (fun a ha b hb => ih a (by simp [ha]) b (by simp [hb])) h.2⟩

theorem metric_symm {a b : MetricObj} (h : a.pyEq b = true) : b.pyEq a = true := by
  simp only [MetricObj.pyEq, Bool.and_eq_true] at h ⊢
  exact ⟨⟨pyEq_symm _ _ h.1.1, pyEq_symm _ _ h.1.2⟩, pyEq_symm _ _ h.2⟩

theorem mval_symm : ∀ x y : MVal, Keyed x → Keyed y → x.pyEq y = true → y.pyEq x = true := by
  intro x
  induction x using MVal.full with
  | val v =>
    intro y _ _ h
    cases y <;> simp only [MVal.pyEq, Bool.false_eq_true] at h ⊢
    exact pyEq_symm _ _ h
  | metric m =>
    intro y _ _ h
    cases y <;> simp only [MVal.pyEq, Bool.false_eq_true] at h ⊢
    exact metric_symm h
  | ts t =>
    intro y _ _ h
    cases y <;> simp only [MVal.pyEq, Bool.false_eq_true] at h ⊢
    simp only [TimeseriesObj.pyEq, Bool.and_eq_true] at h ⊢
    exact ⟨⟨⟨⟨metric_symm h.1.1.1.1, pyEq_symm _ _ h.1.1.1.2⟩, pyEq_symm _ _ h.1.1.2⟩, pyEq_symm _ _ h.1.2⟩, pyEq_symm _ _ h.2⟩
  | formula n p a f g ih =>
    intro y hx hy h
    cases y <;> simp only [MVal.pyEq, Bool.false_eq_true, Bool.and_eq_true] at h ⊢
    exact ⟨⟨⟨⟨pyEq_symm _ _ h.1.1.1.1, ih _ hx.params hy.params h.1.1.1.2⟩, pyEq_symm _ _ h.1.1.2⟩, pyEq_symm _ _ h.1.2⟩, pyEq_symm _ _ h.2⟩
  | rollup r =>
    intro y _ _ h
    cases y <;> simp only [MVal.pyEq, Bool.false_eq_true] at h ⊢
    simp only [RollupObj.pyEq, Bool.and_eq_true] at h ⊢
    exact ⟨⟨⟨pyEq_symm _ _ h.1.1.1, pyEq_symm _ _ h.1.1.2⟩, pyEq_symm _ _ h.1.2⟩, pyEq_symm _ _ h.2⟩
  | scope s =>
    intro y _ _ h
    cases y <;> simp only [MVal.pyEq, Bool.false_eq_true] at h ⊢
    simp only [ScopeObj.pyEq, Bool.and_eq_true] at h ⊢
    exact ⟨⟨pyEq_symm _ _ h.1.1, pyEq_symm _ _ h.1.2⟩, pyEq_symm _ _ h.2⟩
  | list xs ih =>
    intro y hx hy h
    cases y <;> simp only [MVal.pyEq, Bool.false_eq_true] at h ⊢
    exact mvalEqAll_symm (fun a ha b hb => ih a ha b (hx.item (.list _) ha) (hy.item (.list _) hb)) h
  | tuple xs ih =>
    intro y hx hy h
    cases y <;> simp only [MVal.pyEq, Bool.false_eq_true] at h ⊢
    exact mvalEqAll_symm (fun a ha b hb => ih a ha b (hx.item (.tuple _) ha) (hy.item (.tuple _) hb)) h
  | data d =>
    intro y hx hy h
    cases y <;> simp only [MVal.pyEq, Bool.false_eq_true] at h ⊢
    exact data_symm _ _ hx.data hy.data h

theorem mvalEqAll_trans : ∀ {xs ys zs : List MVal}, (∀ y ∈ ys, ∀ x ∈ xs, ∀ z ∈ zs, x.pyEq y = true → y.pyEq z = true → x.pyEq z = true) →
    mvalEqAll xs ys = true → mvalEqAll ys zs = true → mvalEqAll xs zs = true
  | [], [], [], _, _, _ => rfl
  | [], _ :: _, _, _, h, _ => by simp [mvalEqAll] at h
  | _ :: _, [], _, _, h, _ => by simp [mvalEqAll] at h
  | _, [], _ :: _, _, _, h => by simp [mvalEqAll] at h
  | _, _ :: _, [], _, _, h => by simp [mvalEqAll] at h
  | x :: xs, y :: ys, z :: zs, ih, h, h' => by
    simp only [mvalEqAll, Bool.and_eq_true] at h h' ⊢
    exact ⟨ih y (by simp) x (by simp) z (by simp) h.1 h'.1,
      mvalEqAll_trans (fun b hb a ha c hc => ih b (by simp [hb]) a (by simp [ha]) c (by simp [hc])) h.2 h'.2⟩

/-- Aliases do not stand in the way of transitivity. -/
def Through (x y z : MVal) : Prop := Entirely OnlyFunctions y ∨ (Entirely NoAliases x ∧ Entirely NoAliases z)

theorem through_trans {x y z : MVal} (hf : Through x y z) {u v w : Val} (hu : InObject x (.val u)) (hv : InObject y (.val v))
    (hw : InObject z (.val w)) (h : Verif.pyEq u v = true) (h' : Verif.pyEq v w = true) : Verif.pyEq u w = true := by
  refine pyEq_trans_either v u w ?_ h h'
  rcases hf with hf | hf
  · exact .inl (hf v hv)
  · exact .inr ⟨hf.1 u hu, hf.2 w hw⟩

theorem mval_trans : ∀ y x z : MVal, Through x y z → x.pyEq y = true → y.pyEq z = true → x.pyEq z = true := by
  intro y
  induction y using MVal.full with
  | val v =>
    intro x z hf h h'
    cases x <;> simp only [MVal.pyEq, Bool.false_eq_true] at h <;> cases z <;> simp only [MVal.pyEq, Bool.false_eq_true] at h' ⊢
    exact through_trans hf (.val _) (.val _) (.val _) h h'
  | metric m =>
    intro x z hf h h'
    cases x <;> simp only [MVal.pyEq, Bool.false_eq_true] at h <;> cases z <;> simp only [MVal.pyEq, Bool.false_eq_true] at h' ⊢
    simp only [MetricObj.pyEq, Bool.and_eq_true] at h h' ⊢
    have key : ∀ {u v w}, _ → _ → _ → _ := fun {u v w} hu hv hw => through_trans hf (u := u) (v := v) (w := w) (.metric _ _ hu) (.metric _ _ hv) (.metric _ _ hw)
    exact ⟨⟨key (by simp) (by simp) (by simp) h.1.1 h'.1.1, key (by simp) (by simp) (by simp) h.1.2 h'.1.2⟩,
      key (by simp) (by simp) (by simp) h.2 h'.2⟩
  | ts t =>
    intro x z hf h h'
    cases x <;> simp only [MVal.pyEq, Bool.false_eq_true] at h <;> cases z <;> simp only [MVal.pyEq, Bool.false_eq_true] at h' ⊢
    simp only [TimeseriesObj.pyEq, MetricObj.pyEq, Bool.and_eq_true] at h h' ⊢
    have key : ∀ {u v w}, _ → _ → _ → _ := fun {u v w} hu hv hw => through_trans hf (u := u) (v := v) (w := w) (.ts _ _ hu) (.ts _ _ hv) (.ts _ _ hw)
    obtain ⟨⟨⟨⟨⟨⟨h1, h2⟩, h3⟩, h4⟩, h5⟩, h6⟩, h7⟩ := h
    obtain ⟨⟨⟨⟨⟨⟨k1, k2⟩, k3⟩, k4⟩, k5⟩, k6⟩, k7⟩ := h'
    exact ⟨⟨⟨⟨⟨⟨key (by simp) (by simp) (by simp) h1 k1, key (by simp) (by simp) (by simp) h2 k2⟩, key (by simp) (by simp) (by simp) h3 k3⟩,
      key (by simp) (by simp) (by simp) h4 k4⟩, key (by simp) (by simp) (by simp) h5 k5⟩, key (by simp) (by simp) (by simp) h6 k6⟩,
      key (by simp) (by simp) (by simp) h7 k7⟩
  | formula n p a f g ih =>
    intro x z hf h h'
    cases x <;> simp only [MVal.pyEq, Bool.false_eq_true] at h <;> cases z <;> simp only [MVal.pyEq, Bool.false_eq_true] at h' ⊢
    simp only [Bool.and_eq_true] at h h' ⊢
    have key : ∀ {u v w}, _ → _ → _ → _ := fun {u v w} hu hv hw => through_trans hf (u := u) (v := v) (w := w) (.formula _ _ _ _ _ _ hu) (.formula _ _ _ _ _ _ hv) (.formula _ _ _ _ _ _ hw)
    obtain ⟨⟨⟨⟨h1, h2⟩, h3⟩, h4⟩, h5⟩ := h
    obtain ⟨⟨⟨⟨k1, k2⟩, k3⟩, k4⟩, k5⟩ := h'
    refine ⟨⟨⟨⟨key (by simp) (by simp) (by simp) h1 k1, ih _ _ ?_ h2 k2⟩, key (by simp) (by simp) (by simp) h3 k3⟩,
      key (by simp) (by simp) (by simp) h4 k4⟩, key (by simp) (by simp) (by simp) h5 k5⟩
    rcases hf with hf | hf
    · exact .inl hf.params
    · exact .inr ⟨hf.1.params, hf.2.params⟩
  | rollup r =>
    intro x z hf h h'
    cases x <;> simp only [MVal.pyEq, Bool.false_eq_true] at h <;> cases z <;> simp only [MVal.pyEq, Bool.false_eq_true] at h' ⊢
    simp only [RollupObj.pyEq, Bool.and_eq_true] at h h' ⊢
    have key : ∀ {u v w}, _ → _ → _ → _ := fun {u v w} hu hv hw => through_trans hf (u := u) (v := v) (w := w) (.rollup _ _ hu) (.rollup _ _ hv) (.rollup _ _ hw)
    exact ⟨⟨⟨key (by simp) (by simp) (by simp) h.1.1.1 h'.1.1.1, key (by simp) (by simp) (by simp) h.1.1.2 h'.1.1.2⟩,
      key (by simp) (by simp) (by simp) h.1.2 h'.1.2⟩, key (by simp) (by simp) (by simp) h.2 h'.2⟩
  | scope s =>
    intro x z hf h h'
    cases x <;> simp only [MVal.pyEq, Bool.false_eq_true] at h <;> cases z <;> simp only [MVal.pyEq, Bool.false_eq_true] at h' ⊢
    simp only [ScopeObj.pyEq, Bool.and_eq_true] at h h' ⊢
    have key : ∀ {u v w}, _ → _ → _ → _ := fun {u v w} hu hv hw => through_trans hf (u := u) (v := v) (w := w) (.scope _ _ hu) (.scope _ _ hv) (.scope _ _ hw)
    exact ⟨⟨key (by simp) (by simp) (by simp) h.1.1 h'.1.1, key (by simp) (by simp) (by simp) h.1.2 h'.1.2⟩,
      key (by simp) (by simp) (by simp) h.2 h'.2⟩
  | list ys ih =>
    intro x z hf h h'
    cases x <;> simp only [MVal.pyEq, Bool.false_eq_true] at h <;> cases z <;> simp only [MVal.pyEq, Bool.false_eq_true] at h' ⊢
    refine mvalEqAll_trans (fun b hb a ha c hc => ih b hb a c ?_) h h'
    rcases hf with hf | hf
    · exact .inl (hf.item (.list _) hb)
    · exact .inr ⟨hf.1.item (.list _) ha, hf.2.item (.list _) hc⟩
  | tuple ys ih =>
    intro x z hf h h'
    cases x <;> simp only [MVal.pyEq, Bool.false_eq_true] at h <;> cases z <;> simp only [MVal.pyEq, Bool.false_eq_true] at h' ⊢
    refine mvalEqAll_trans (fun b hb a ha c hc => ih b hb a c ?_) h h'
    rcases hf with hf | hf
    · exact .inl (hf.item (.tuple _) hb)
    · exact .inr ⟨hf.1.item (.tuple _) ha, hf.2.item (.tuple _) hc⟩
  | data d =>
    intro x z hf h h'
    cases x <;> simp only [MVal.pyEq, Bool.false_eq_true] at h <;> cases z <;> simp only [MVal.pyEq, Bool.false_eq_true] at h' ⊢
    refine data_trans _ _ _ ?_ h h'
    rcases hf with hf | hf
    · exact .inl hf.data
    · exact .inr ⟨hf.1.data, hf.2.data⟩

end Verif
