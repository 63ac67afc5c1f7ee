import Verif.Props.Formula
import Verif.Model.MetricsQuery

/-!
# C60: the setters of formulas
-/

namespace Verif
open Spec

theorem optList_check {P : Val → Prop} {p : Val → Bool} (hp : ∀ x, p x = true ↔ P x) {v : Val} :
    (!v.given || listType v p) = true ↔ OptList P v := by
  constructor
  · intro h
    cases v <;> simp [Val.given, listType] at h
    · exact .none
    · exact .list _ fun x hx => (hp x).1 (h x hx)
  · rintro (_ | ⟨xs, h⟩)
    · rfl
    · simp only [listType, Bool.or_eq_true, List.all_eq_true]
      exact .inr fun x hx => (hp x).2 (h x hx)

theorem optParams_check {v : MVal} : (!v.given || isParamList v) = true ↔ OptParams v := by
  constructor
  · intro h
    cases v with
    | list xs =>
      simp only [MVal.given, isParamList, Bool.not_true, Bool.false_or, List.all_eq_true] at h
      exact .list _ fun x hx => isFormulaParam_iff.1 (h x hx)
    | val v =>
      cases v <;> simp [MVal.given, Val.given, isParamList] at h
      · exact .none
      · exact .values _ fun x hx => isFormulaParam_iff.1 (h x hx)
    | _ => simp [MVal.given, isParamList] at h
  · rintro (_ | ⟨xs, h⟩ | ⟨xs, h⟩)
    · rfl
    · simp only [isParamList, Bool.or_eq_true, List.all_eq_true]
      exact .inr fun x hx => isFormulaParam_iff.2 (h x hx)
    · simp only [isParamList, Bool.or_eq_true, List.all_eq_true]
      exact .inr fun x hx => isFormulaParam_iff.2 (h x hx)

theorem ensure_then {b : Bool} {P : Prop} (hb : b = true ↔ P) {e : Err} {x r : MVal} :
    (((ensure b e).bind fun _ => .ok x) = .ok r ↔ P ∧ r = x) ∧
      (∀ e', ((ensure b e).bind fun _ => .ok x) = .error e' ↔ ¬ P ∧ e' = e) := by
  cases b with
  | true =>
    have h := hb.1 rfl
    simp [ensure, Except.bind, h, eq_comm]
  | false =>
    have h : ¬ P := fun h => by simp at hb; exact hb h
    simp [ensure, Except.bind, h, eq_comm]

/-- **C60.** `set_parameters` accepts `None` and the lists of numbers, timeseries and formulas; the result differs from the
formula in its parameters only. Everything else raises `InvalidFormulaError`. -/
theorem C60_set_parameters (n : Val) (p : MVal) (a f g : Val) (v : MVal) :
    (∀ r, setFormulaParameters (.formula n p a f g) v = .ok r ↔ OptParams v ∧ r = .formula n v a f g) ∧
      ∀ e, setFormulaParameters (.formula n p a f g) v = .error e ↔ ¬ OptParams v ∧ e = .invalidFormula :=
  ⟨fun _ => (ensure_then optParams_check).1, (ensure_then optParams_check (r := default)).2⟩

/-- **C60.** `set_filters` accepts `None` and the lists of conditions. -/
theorem C60_set_filters (n : Val) (p : MVal) (a f g : Val) (v : Val) :
    (∀ r, setFormulaFilters (.formula n p a f g) v = .ok r ↔ OptList Cond v ∧ r = .formula n p a v g) ∧
      ∀ e, setFormulaFilters (.formula n p a f g) v = .error e ↔ ¬ OptList Cond v ∧ e = .invalidFormula :=
  ⟨fun _ => (ensure_then (optList_check fun _ => isCondition_iff)).1,
    (ensure_then (optList_check fun _ => isCondition_iff) (r := default)).2⟩

/-- **C60.** `set_groupby` accepts `None` and the lists of columns, aliased or not. -/
theorem C60_set_groupby (n : Val) (p : MVal) (a f g : Val) (v : Val) :
    (∀ r, setFormulaGroupby (.formula n p a f g) v = .ok r ↔ OptList GroupItem v ∧ r = .formula n p a f v) ∧
      ∀ e, setFormulaGroupby (.formula n p a f g) v = .error e ↔ ¬ OptList GroupItem v ∧ e = .invalidFormula :=
  ⟨fun _ => (ensure_then (optList_check fun _ => isGroupItem_iff)).1,
    (ensure_then (optList_check fun _ => isGroupItem_iff) (r := default)).2⟩

/-- The tree of a formula after a change of its groupby. -/
theorem inFormula_regroup {n : Val} {p : MVal} {a f g g' : Val} {y : MVal} (h : InFormula (.formula n p a f g') y) :
    y = .formula n p a f g' ∨ ∃ xs q, MSeq p xs ∧ q ∈ xs ∧ InFormula q y := by
  induction h with
  | self => exact .inl rfl
  | param _ hs hp ih =>
    rcases ih with ih | ⟨xs, q, h1, h2, h3⟩
    · cases ih; exact .inr ⟨_, _, hs, hp, .self⟩
    · exact .inr ⟨xs, q, h1, h2, .param h3 hs hp⟩

theorem typed_regroup {n : Val} {p : MVal} {a f g g' : Val} (ht : ∀ y, InFormula (.formula n p a f g) y → Typed y)
    (hg : OptList PlainGroupItem g') : ∀ y, InFormula (.formula n p a f g') y → Typed y := by
  intro y hy
  rcases inFormula_regroup (g := g) hy with rfl | ⟨xs, q, h1, h2, h3⟩
  · cases ht _ .self with
    | formula _ _ _ _ _ hp _ => exact .formula _ _ _ _ _ hp hg
    | other _ h _ => exact (h _ _ _ _ _ rfl).elim
  · exact ht y (inFormula_trans (.param .self h1 h2) h3)

/-- **C60.** `set_groupby` does not validate: the new formula is valid exactly when everything grouped among the parameters
of the valid formula, at any depth, is grouped by the new columns. -/
theorem C60_regroup (n : Val) (p : MVal) (a f g : Val) (k : List Val)
    (ht : ∀ y, InFormula (.formula n p a f g) y → Typed y) (hk : ∀ x ∈ k, PlainGroupItem x)
    (hv : validateFormula n p g = .ok ()) :
    ∃ r, setFormulaGroupby (.formula n p a f g) (.list k) = .ok r ∧
      (r.validateQuery = .ok () ↔ ∀ xs q y h, MSeq p xs → q ∈ xs → InFormula q y → Groups y h → pyEqList k h = true) := by
  refine ⟨.formula n p a f (.list k), ((C60_set_groupby n p a f g (.list k)).1 _).2 ⟨.list _ ?_, rfl⟩, ?_⟩
  · intro x hx; cases hk x hx <;> constructor
  have ht' := typed_regroup (g' := .list k) ht (.list _ hk)
  rw [C34_validate_iff n p a f g ht] at hv
  have plain : ∀ y h, InFormula (.formula n p a f (.list k)) y → Groups y h → ∀ x ∈ h, PlainGroupItem x := by
    intro y h hy hg
    cases hg with
    | formula n ps a f g =>
      cases ht' _ hy with
      | formula _ _ _ _ _ _ hg => cases hg with | list _ h => exact h
      | other _ h1 _ => exact (h1 _ _ _ _ _ rfl).elim
    | ts t g hg =>
      cases ht' _ hy with
      | ts _ ht' => rw [hg] at ht'; cases ht' with | list _ h => exact h
      | other _ _ h2 => exact absurd rfl (h2 _)
  simp only [MVal.validateQuery]
  rw [C34_validate_iff n p a f _ ht']
  obtain ⟨h1, ⟨xs, hxs, h2⟩, ⟨t, h3⟩, h4⟩ := hv
  constructor
  · rintro ⟨_, _, _, h⟩ ys q y k' hys hq hy hg
    exact h _ y k k' .self (inFormula_trans (.param .self hys hq) hy) (.formula ..) hg
  · intro h
    refine ⟨h1, ⟨xs, hxs, h2⟩, ⟨t, ?_⟩, ?_⟩
    · rcases (inFormula_formula hxs).1 h3 with e | e
      · cases e
      · exact (inFormula_formula hxs).2 (.inr e)
    · have key : ∀ y k', InFormula (.formula n p a f (.list k)) y → Groups y k' → pyEqList k k' = true := by
        intro y k' hy hg
        rcases (inFormula_formula hxs).1 hy with rfl | ⟨q, hq, hy⟩
        · cases hg; exact groupList_refl hk
        · exact h xs q y k' hxs hq hy hg
      intro y z k1 k2 hy hz hg1 hg2
      exact groupList_trans (plain y k1 hy hg1) hk (plain z k2 hz hg2)
        (groupList_symm hk (plain y k1 hy hg1) (key y k1 hy hg1)) (key z k2 hz hg2)

/-- **C60.** Neither other filters nor the removal of the groupby make a valid formula invalid. -/
theorem C60_stays_valid (n : Val) (p : MVal) (a f g : Val) (ht : ∀ y, InFormula (.formula n p a f g) y → Typed y)
    (hv : validateFormula n p g = .ok ()) :
    (∀ v r, setFormulaFilters (.formula n p a f g) v = .ok r → r.validateQuery = .ok ()) ∧
      ∃ r, setFormulaGroupby (.formula n p a f g) .none = .ok r ∧ r.validateQuery = .ok () := by
  constructor
  · intro v r h
    obtain ⟨_, rfl⟩ := ((C60_set_filters n p a f g v).1 r).1 h
    exact hv
  · refine ⟨.formula n p a f .none, ((C60_set_groupby n p a f g .none).1 _).2 ⟨.none, rfl⟩, ?_⟩
    simp only [MVal.validateQuery]
    rw [C34_validate_iff n p a f _ (typed_regroup (g' := .none) ht .none)]
    rw [C34_validate_iff n p a f g ht] at hv
    obtain ⟨h1, ⟨xs, hxs, h2⟩, ⟨t, h3⟩, h4⟩ := hv
    refine ⟨h1, ⟨xs, hxs, h2⟩, ⟨t, ?_⟩, ?_⟩
    · rcases (inFormula_formula hxs).1 h3 with e | e
      · cases e
      · exact (inFormula_formula hxs).2 (.inr e)
    · intro y z k1 k2 hy hz hg1 hg2
      rcases (inFormula_formula hxs).1 hy with rfl | ⟨q, hq, hy⟩
      · cases hg1
      rcases (inFormula_formula hxs).1 hz with rfl | ⟨q', hq', hz⟩
      · cases hg2
      exact h4 y z k1 k2 (inFormula_trans (.param .self hxs hq) hy) (inFormula_trans (.param .self hxs hq') hz) hg1 hg2

section Examples

/-- The typed formula `sum(a) by (x) / (sum(b) by (x) + 1)` of the examples of C34. -/
private def ratio (groupby : Val) : MVal := .formula (.str c!"divide") ratioParams .none .none groupby

private theorem ratio_typed : ∀ y, InFormula (ratio .none) y → Typed y := by
  intro y hy
  rcases (inFormula_formula (.list _)).1 hy with rfl | ⟨p, hp, hy⟩
  · exact .formula _ _ _ _ _ (.inr ⟨_, .list _⟩) .none
  · simp only [List.mem_cons, List.not_mem_nil, or_false] at hp
    rcases hp with rfl | rfl
    · rw [(inFormula_leaf (by simp [grouped])).1 hy]; exact grouped_typed _ _
    · rcases (inFormula_formula (.tuple _)).1 hy with rfl | ⟨q, hq, hy⟩
      · exact .formula _ _ _ _ _ (.inr ⟨_, .tuple _⟩) .none
      · simp only [List.mem_cons, List.not_mem_nil, or_false] at hq
        rcases hq with rfl | rfl
        · rw [(inFormula_leaf (by simp [grouped])).1 hy]; exact grouped_typed _ _
        · rw [(inFormula_leaf (by simp)).1 hy]; exact .other _ (by simp) (by simp)

private def colx (s : Str) : Val := .column ⟨s, none, none, none⟩

/-- The same column keeps the formula valid, another one does not, although the setter takes it. -/
example : setFormulaGroupby (ratio .none) (.list [colx c!"x"]) = .ok (ratio (.list [colx c!"x"])) ∧
    (ratio (.list [colx c!"x"])).validateQuery = .ok () := ⟨rfl, rfl⟩
example : setFormulaGroupby (ratio .none) (.list [colx c!"y"]) = .ok (ratio (.list [colx c!"y"])) ∧
    (ratio (.list [colx c!"y"])).validateQuery = .error .invalidFormula := ⟨rfl, rfl⟩
example : ∃ r, setFormulaGroupby (ratio .none) (.list [colx c!"x"]) = .ok r ∧ r.validateQuery = .ok () := by
  obtain ⟨r, hr, _⟩ := C60_regroup _ _ _ _ _ [colx c!"x"] ratio_typed
    (by intro x hx; simp at hx; subst hx; exact .column _ (by rintro e ⟨⟩)) rfl
  cases hr; exact ⟨_, rfl, rfl⟩
example := C60_stays_valid _ _ _ _ _ ratio_typed rfl

/-- Parameters without a timeseries are taken, and found out by the next validation only; a tuple and a string are not. -/
example : setFormulaParameters (ratio .none) (.list [.val (.int 1)]) =
    .ok (.formula (.str c!"divide") (.list [.val (.int 1)]) .none .none .none) := rfl
example : (MVal.formula (.str c!"divide") (.list [.val (.int 1)]) .none .none .none).validateQuery = .error .invalidFormula := rfl
example : setFormulaParameters (ratio .none) (.tuple [.val (.int 1)]) = .error .invalidFormula := rfl
example : setFormulaParameters (ratio .none) (.list [.val (.str c!"a")]) = .error .invalidFormula := rfl
example : setFormulaFilters (ratio .none) (.list [colx c!"a"]) = .error .invalidFormula := rfl
example : setFormulaFilters (ratio .none) (.list [.cond (colx c!"a") .isNull .none]) =
    .ok (.formula (.str c!"divide") ratioParams .none (.list [.cond (colx c!"a") .isNull .none]) .none) := rfl
example : setFormulaGroupby (ratio .none) (.list [.str c!"a"]) = .error .invalidFormula := rfl

end Examples

end Verif
