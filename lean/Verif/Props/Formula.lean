import Verif.Lemmas.PyEq
import Verif.Props.Timeseries

/-!
# C34: consistency of the grouping in formulas
-/

namespace Verif
open Spec

/-- The elements of a list or tuple of the metrics layer. -/
def MVal.items : MVal → List MVal
  | .list xs => xs
  | .tuple xs => xs
  | _ => []

/-- Induction over formula trees. -/
theorem MVal.ind {P : MVal → Prop}
    (step : ∀ x, (∀ n ps a f g, x = .formula n ps a f g → ∀ p ∈ ps.items, P p) → P x) : ∀ x, P x := by
  intro x
  have := MVal.rec (motive_1 := fun x => P x ∧ ∀ p ∈ x.items, P p) (motive_2 := fun xs => ∀ x ∈ xs, P x)
    (fun v => ⟨step _ (by simp), by simp [MVal.items]⟩)
    (fun v => ⟨step _ (by simp), by simp [MVal.items]⟩)
    (fun v => ⟨step _ (by simp), by simp [MVal.items]⟩)
    (fun n ps a f g ih => ⟨step _ (by rintro n ps a f g ⟨⟩; exact ih.2), by simp [MVal.items]⟩)
    (fun v => ⟨step _ (by simp), by simp [MVal.items]⟩)
    (fun v => ⟨step _ (by simp), by simp [MVal.items]⟩)
    (fun xs ih => ⟨step _ (by simp), ih⟩)
    (fun xs ih => ⟨step _ (by simp), ih⟩)
    (fun v => ⟨step _ (by simp), by simp [MVal.items]⟩)
    (by simp)
    (fun x xs hx hxs y hy => by
      rcases List.mem_cons.1 hy with rfl | hy
      · exact hx.1
      · exact hxs y hy) x
  exact this.1

theorem inFormula_trans {x y z : MVal} (h : InFormula x y) (h' : InFormula y z) : InFormula x z := by
  induction h' with
  | self => exact h
  | param _ hs hp ih => exact .param ih hs hp

theorem inFormula_formula {n ps a f g xs} (hs : MSeq ps xs) {y : MVal} :
    InFormula (.formula n ps a f g) y ↔ y = .formula n ps a f g ∨ ∃ p ∈ xs, InFormula p y := by
  constructor
  · intro h
    induction h with
    | self => exact .inl rfl
    | param h hs' hp ih =>
      rcases ih with ih | ⟨q, hq, ih⟩
      · cases ih
        cases hs <;> cases hs' <;> exact .inr ⟨_, hp, .self⟩
      · exact .inr ⟨q, hq, .param ih hs' hp⟩
  · rintro (rfl | ⟨p, hp, h⟩)
    · exact .self
    · exact inFormula_trans (.param .self hs hp) h

theorem inFormula_none {n a f g} {y : MVal} :
    InFormula (.formula n (.val .none) a f g) y ↔ y = .formula n (.val .none) a f g := by
  constructor
  · intro h
    induction h with
    | self => rfl
    | param _ hs' _ ih => cases ih; cases hs'
  · rintro rfl; exact .self

theorem inFormula_leaf {x : MVal} (hx : ∀ n ps a f g, x ≠ .formula n ps a f g) {y : MVal} : InFormula x y ↔ y = x := by
  constructor
  · intro h
    induction h with
    | self => rfl
    | param _ _ _ ih => exact absurd ih.symm (hx _ _ _ _ _)
  · rintro rfl; exact .self

theorem optGroupKey_spec {g : Val} (h : OptList PlainGroupItem g) :
    ∃ ks, optGroupKey g = .ok ks ∧ ∀ k, k ∈ ks ↔ g = .list k := by
  cases h with
  | none => exact ⟨[], rfl, by simp⟩
  | list xs h =>
    refine ⟨[xs], ?_, by simp [eq_comm]⟩
    simp [optGroupKey, Val.given, groupKey, Val.seq?, allHashable_group h]

theorem scanParams_seq {ps : MVal} {xs : List MVal} (h : MSeq ps xs) : scanParams ps = scanAll xs := by
  cases h <;> simp [scanParams]

/-- What the scan of a well-typed tree finds. -/
def Scanned (x : MVal) (r : List (List Val) × Bool) : Prop :=
  (r.2 = true ↔ ∃ t, InFormula x (.ts t)) ∧ ∀ k, k ∈ r.1 ↔ ∃ y, InFormula x y ∧ Groups y k

theorem scanAll_spec {xs : List MVal} (h : ∀ x ∈ xs, ∃ r, scanFormula x = .ok r ∧ Scanned x r) :
    ∃ r, scanAll xs = .ok r ∧ (r.2 = true ↔ ∃ x ∈ xs, ∃ t, InFormula x (.ts t)) ∧
      ∀ k, k ∈ r.1 ↔ ∃ x ∈ xs, ∃ y, InFormula x y ∧ Groups y k := by
  induction xs with
  | nil => exact ⟨_, rfl, by simp, by simp⟩
  | cons x xs ih =>
    obtain ⟨r, hr, hs⟩ := h x (by simp)
    obtain ⟨r', hr', hs'⟩ := ih fun y hy => h y (by simp [hy])
    refine ⟨(r.1 ++ r'.1, r.2 || r'.2), by simp [scanAll, hr, hr'], ?_, ?_⟩
    · simp [hs.1, hs'.1]
    · intro k; simp [hs.2, hs'.2]

theorem scanFormula_spec : ∀ x, (∀ y, InFormula x y → Typed y) → ∃ r, scanFormula x = .ok r ∧ Scanned x r := by
  intro x
  induction x using MVal.ind with
  | step x ih =>
    intro hty
    cases hty x .self with
    | formula n ps a f g hps hg =>
      obtain ⟨ks, hks, hmem⟩ := optGroupKey_spec hg
      have hself : ∀ k, Groups (.formula n ps a f g) k ↔ g = .list k := fun k =>
        ⟨by rintro ⟨⟩; rfl, by rintro rfl; exact .formula ..⟩
      rcases hps with rfl | ⟨xs, hxs⟩
      · refine ⟨(ks, false), by simp [scanFormula, scanParams, hks, Val.truthy], ?_, ?_⟩
        · simp [inFormula_none]
        · intro k; simp [inFormula_none, hmem, hself]
      · have hitems : ps.items = xs := by cases hxs <;> rfl
        obtain ⟨r, hr, h1, h2⟩ := scanAll_spec (xs := xs) fun p hp =>
          ih n ps a f g rfl p (by rw [hitems]; exact hp) fun y hy => hty y (inFormula_trans (.param .self hxs hp) hy)
        refine ⟨(ks ++ r.1, r.2), by simp [scanFormula, scanParams_seq hxs, hr, hks], ?_, ?_⟩
        · simp only [h1, inFormula_formula hxs, reduceCtorEq, false_or]
          exact ⟨fun ⟨p, hp, t, ht⟩ => ⟨t, p, hp, ht⟩, fun ⟨t, p, hp, ht⟩ => ⟨p, hp, t, ht⟩⟩
        · intro k
          simp only [List.mem_append, hmem, h2, inFormula_formula hxs]
          constructor
          · rintro (h | ⟨p, hp, y, hy, h⟩)
            · exact ⟨_, .inl rfl, (hself k).2 h⟩
            · exact ⟨y, .inr ⟨p, hp, hy⟩, h⟩
          · rintro ⟨y, rfl | ⟨p, hp, hy⟩, h⟩
            · exact .inl ((hself k).1 h)
            · exact .inr ⟨p, hp, y, hy, h⟩
    | ts t hg =>
      obtain ⟨ks, hks, hmem⟩ := optGroupKey_spec hg
      refine ⟨(ks, true), by simp [scanFormula, hks], ?_, ?_⟩
      · simp only [true_iff]; exact ⟨t, .self⟩
      · intro k
        simp only [hmem, inFormula_leaf (x := .ts t) (by simp), exists_eq_left]
        exact ⟨fun h => .ts t k h, by rintro ⟨⟩; assumption⟩
    | other _ h1 h2 =>
      refine ⟨([], false), ?_, ?_, ?_⟩
      · cases x with
        | formula n ps a f g => exact absurd rfl (h1 n ps a f g)
        | ts t => exact absurd rfl (h2 t)
        | _ => simp [scanFormula]
      · simp only [Bool.false_eq_true, inFormula_leaf h1, false_iff, not_exists]
        exact fun t ht => h2 t ht.symm
      · intro k
        simp only [List.not_mem_nil, inFormula_leaf h1, exists_eq_left, false_iff]
        rintro (⟨n, ps, a, f, g⟩ | ⟨t, g, _⟩)
        · exact h1 _ _ _ _ _ rfl
        · exact h2 _ rfl

theorem keySet_subset : ∀ (ks : List (List Val)) {k}, k ∈ keySet ks → k ∈ ks
  | [], _, h => h
  | a :: ks, k, h => by
    simp only [keySet, List.mem_cons, List.mem_filter] at h
    rcases h with rfl | ⟨h, _⟩
    · simp
    · exact List.mem_cons_of_mem _ (keySet_subset ks h)

theorem keySet_repr : ∀ (ks : List (List Val)), (∀ k ∈ ks, ∀ x ∈ k, PlainGroupItem x) →
    ∀ k ∈ ks, ∃ k' ∈ keySet ks, pyEqList k' k = true
  | [], _, _, h => by cases h
  | a :: ks, hp, k, h => by
    rcases List.mem_cons.1 h with rfl | h
    · exact ⟨k, by simp [keySet], groupList_refl (hp k (by simp))⟩
    · obtain ⟨k', hk', he⟩ := keySet_repr ks (fun x hx => hp x (by simp [hx])) k h
      by_cases ha : pyEqList a k' = true
      · refine ⟨a, by simp [keySet], groupList_trans (hp a (by simp))
          (hp k' (List.mem_cons_of_mem _ (keySet_subset ks hk'))) (hp k (by simp [h])) ha he⟩
      · exact ⟨k', by simp [keySet, hk', ha], he⟩

theorem keySet_length {ks : List (List Val)} (hp : ∀ k ∈ ks, ∀ x ∈ k, PlainGroupItem x) :
    (keySet ks).length ≤ 1 ↔ ∀ a ∈ ks, ∀ b ∈ ks, pyEqList a b = true := by
  cases ks with
  | nil => simp [keySet]
  | cons k ks =>
    have e : (keySet (k :: ks)).length ≤ 1 ↔ ∀ k' ∈ keySet ks, pyEqList k k' = true := by
      simp [keySet, List.filter_eq_nil_iff]
    rw [e]
    constructor
    · intro h
      have hk : ∀ a ∈ k :: ks, pyEqList k a = true := by
        intro a ha
        rcases List.mem_cons.1 ha with rfl | ha'
        · exact groupList_refl (hp a (by simp))
        · obtain ⟨k', hk', he⟩ := keySet_repr ks (fun x hx => hp x (by simp [hx])) a ha'
          exact groupList_trans (hp k (by simp)) (hp k' (List.mem_cons_of_mem _ (keySet_subset ks hk'))) (hp a ha) (h k' hk') he
      intro a ha b hb
      exact groupList_trans (hp a ha) (hp k (by simp)) (hp b hb) (groupList_symm (hp k (by simp)) (hp a ha) (hk a ha)) (hk b hb)
    · intro h k' hk'
      exact h k (by simp) k' (List.mem_cons_of_mem _ (keySet_subset ks hk'))

theorem isFormulaParam_iff {x : MVal} : x.isFormulaParam = true ↔ FormulaParam x := by
  constructor
  · intro h
    cases x with
    | formula => exact .formula ..
    | ts => exact .ts _
    | val v =>
      cases v <;> first | (simp [MVal.isFormulaParam] at h; done) | skip
      · exact .int _ _ (.bool _)
      · exact .int _ _ (.int _)
      · exact .float _
    | _ => simp [MVal.isFormulaParam] at h
  · rintro (_ | _ | ⟨_, _, _ | _⟩ | _) <;> rfl

/-- **C34.** A formula whose tree is typed as annotated validates exactly when its name is a string, its parameters are
numbers, timeseries or formulas, some timeseries occurs in the tree, and all groupby lists of the tree are equal. -/
theorem C34_validate_iff (name : Val) (params : MVal) (aggregateParams filters groupby : Val)
    (ht : ∀ y, InFormula (.formula name params aggregateParams filters groupby) y → Typed y) :
    validateFormula name params groupby = .ok () ↔
      (∃ s, name = .str s) ∧ (∃ xs, MSeq params xs ∧ ∀ p ∈ xs, FormulaParam p) ∧
      (∃ t, InFormula (.formula name params aggregateParams filters groupby) (.ts t)) ∧
      ∀ y z g h, InFormula (.formula name params aggregateParams filters groupby) y →
        InFormula (.formula name params aggregateParams filters groupby) z →
        Groups y g → Groups z h → pyEqList g h = true := by
  obtain ⟨r, hr, h1, h2⟩ := scanFormula_spec _ ht
  have hp : ∀ k ∈ r.1, ∀ x ∈ k, PlainGroupItem x := by
    intro k hk x hx
    obtain ⟨y, hy, hg⟩ := (h2 k).1 hk
    cases hg with
    | formula n ps a f g =>
      cases ht _ hy with
      | formula _ _ _ _ _ _ hg => cases hg with | list _ h => exact h x hx
      | other _ h1 _ => exact (h1 _ _ _ _ _ rfl).elim
    | ts t g hg =>
      cases ht _ hy with
      | ts _ ht' => rw [hg] at ht'; cases ht' with | list _ h => exact h x hx
      | other _ _ h2 => exact absurd rfl (h2 _)
  have hall : (∀ a ∈ r.1, ∀ b ∈ r.1, pyEqList a b = true) ↔
      ∀ y z g h, InFormula (.formula name params aggregateParams filters groupby) y →
        InFormula (.formula name params aggregateParams filters groupby) z →
        Groups y g → Groups z h → pyEqList g h = true := by
    constructor
    · intro H y z g h hy hz hg hh; exact H g ((h2 g).2 ⟨y, hy, hg⟩) h ((h2 h).2 ⟨z, hz, hh⟩)
    · intro H a ha b hb
      obtain ⟨y, hy, hg⟩ := (h2 a).1 ha
      obtain ⟨z, hz, hh⟩ := (h2 b).1 hb
      exact H y z a b hy hz hg hh
  rw [← hall, ← keySet_length hp, ← h1]
  simp only [scanFormula, bind_eq_ok, Except.ok.injEq] at hr
  obtain ⟨g, hg, ⟨gs, t⟩, hs, hr⟩ := hr
  simp only at hr
  subst hr
  cases hty : ht _ .self with
  | other _ h1 _ => exact (h1 _ _ _ _ _ rfl).elim
  | formula _ _ _ _ _ hps _ =>
    rcases hps with rfl | ⟨xs, hxs⟩
    · have : ¬ ∃ xs, MSeq (.val .none) xs ∧ ∀ p ∈ xs, FormulaParam p := by rintro ⟨_, ⟨⟩, _⟩
      simp only [this, false_and, and_false, iff_false]
      simp only [validateFormula, bind_eq_ok]
      rintro ⟨_, _, h⟩
      simp [MVal.seq?, Val.seq?] at h
    · have hseq : params.seq? = some xs := by cases hxs <;> rfl
      have hex : (∃ ys, MSeq params ys ∧ ∀ p ∈ ys, FormulaParam p) ↔ ∀ p ∈ xs, FormulaParam p := by
        constructor
        · rintro ⟨ys, hys, h⟩
          have : ys = xs := by cases hys <;> cases hxs <;> rfl
          rw [← this]; exact h
        · exact fun h => ⟨xs, hxs, h⟩
      rw [hex]
      simp only [validateFormula, bind_eq_ok, hseq, hg, hs, ok_bind, ensure_eq_ok, isStr_iff, List.all_eq_true,
        isFormulaParam_iff, decide_eq_true_eq]
      constructor
      · rintro ⟨_, h1, _, h2, _, h3, h4⟩; exact ⟨h1, h2, h3, h4⟩
      · rintro ⟨h1, h2, h3, h4⟩; exact ⟨(), h1, (), h2, (), h3, h4⟩

section Examples

/-- A timeseries grouped by the given columns. -/
def grouped (metric : Str) (by_ : List Str) : MVal :=
  .ts ⟨⟨.str metric, .none, .none⟩, .str c!"sum", .none, .none, .list (by_.map fun n => .column ⟨n, none, none, none⟩)⟩

/-- `sum(a) by (x) / (sum(b) by (x) + 1)`. -/
def ratioParams : MVal :=
  .list [grouped c!"a" [c!"x"], .formula (.str c!"plus") (.tuple [grouped c!"b" [c!"x"], .val (.int 1)]) .none .none .none]

example : validateFormula (.str c!"divide") ratioParams .none = .ok () := rfl
example : validateFormula (.str c!"divide") ratioParams (.list [.column ⟨c!"x", none, none, none⟩]) = .ok () := rfl

/-- Another grouping at the top, another one deep inside, no timeseries, a string as parameter. -/
example : validateFormula (.str c!"divide") ratioParams (.list [.column ⟨c!"y", none, none, none⟩]) = .error .invalidFormula := rfl
example : validateFormula (.str c!"divide") (.list [grouped c!"a" [c!"y"], ratioParams.items.getD 1 default]) .none =
    .error .invalidFormula := rfl
example : validateFormula (.str c!"divide") (.list [.val (.int 1), .val (.int 2)]) .none = .error .invalidFormula := rfl
example : validateFormula (.str c!"divide") (.list [.val (.str c!"a")]) .none = .error .invalidFormula := rfl

/-- The order of the columns counts. -/
example : validateFormula (.str c!"plus") (.list [grouped c!"a" [c!"x", c!"y"], grouped c!"b" [c!"y", c!"x"]]) .none =
    .error .invalidFormula := rfl

theorem grouped_typed (m : Str) (cs : List Str) : Typed (grouped m cs) :=
  .ts _ (.list _ (by
    intro x hx
    obtain ⟨n, _, rfl⟩ := List.mem_map.1 hx
    exact .column _ (by rintro e ⟨⟩)))

/-- The hypothesis of the theorem holds for the first example. -/
example : ∀ y, InFormula (.formula (.str c!"divide") ratioParams .none .none .none) y → Typed y := by
  intro y hy
  rcases (inFormula_formula (.list _)).1 hy with rfl | ⟨p, hp, hy⟩
  · exact .formula _ _ _ _ _ (.inr ⟨_, .list _⟩) .none
  · simp only [List.mem_cons, List.not_mem_nil, or_false] at hp
    rcases hp with rfl | rfl
    · rw [(inFormula_leaf (by simp [grouped])).1 hy]; exact grouped_typed _ _
    · rcases (inFormula_formula (.tuple _)).1 hy with rfl | ⟨q, hq, hy⟩
      · exact .formula _ _ _ _ _ (.inr ⟨_, .tuple _⟩) .none
      · simp only [List.mem_cons, List.not_mem_nil, or_false] at hq
        rcases hq with rfl | rfl
        · rw [(inFormula_leaf (by simp [grouped])).1 hy]; exact grouped_typed _ _
        · rw [(inFormula_leaf (by simp)).1 hy]; exact .other _ (by simp) (by simp)

end Examples

end Verif
