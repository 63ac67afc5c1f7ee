import Verif.Spec.MqlResult
import Verif.Model.MqlVisitor
import Verif.Props.Formula
import Verif.Props.Construct
import Verif.Lemmas.MqlFilterChain

/-!
# What the visitor can return
-/

namespace Verif

open Spec

theorem map_eq_ok {α β : Type} {x : Except Err α} {f : α → β} {b : β} : x.map f = .ok b ↔ ∃ a, x = .ok a ∧ f a = b := by
  cases x <;> simp [Except.map]

theorem Spec.OptList.imp {P Q : Val → Prop} {v : Val} (h : OptList P v) (hi : ∀ x, P x → Q x) : OptList Q v := by
  cases h with
  | none => exact .none
  | list xs h => exact .list _ fun x hx => hi x (h x hx)

theorem Spec.SomeList.opt {P : Val → Prop} {v : Val} (h : SomeList P v) : OptList P v := by
  cases h with
  | none => exact .none
  | list xs _ h => exact .list _ h

theorem Spec.SomeList.imp {P Q : Val → Prop} {v : Val} (h : SomeList P v) (hi : ∀ x, P x → Q x) : SomeList Q v := by
  cases h with
  | none => exact .none
  | list xs hne h => exact .list _ hne fun x hx => hi x (h x hx)

theorem Spec.PlainScalar.literal {v : Val} (h : PlainScalar v) : Literal v := by
  cases h with
  | str s => exact .str s
  | float f => exact .float f

section
variable [U : PyUnicode] [S : RegexSpace]

omit S in
theorem keyColumn_built {k : Str} (h : KeyText k) : Built (keyColumn k) :=
  .column _ _ _ (.literal _ (.str _)) (.literal _ .none) (mkColumn_key h)

omit S in
theorem Spec.TagColumn.bare {v : Val} (h : TagColumn v) : BareColumn v := by
  cases h with
  | mk k hk => exact .mk _ rfl (keyColumn_built hk)

omit S in
theorem strings_scalar (ss : List Str) : Scalar (.list (ss.map .str)) ∧ Built (.list (ss.map .str)) := by
  have : ∀ x ∈ ss.map Val.str, Literal x := by
    intro x hx
    obtain ⟨s, _, rfl⟩ := List.mem_map.1 hx
    exact .str s
  exact ⟨.inr (.list _ fun x hx => .literal _ (this x hx)), .list _ fun x hx => .literal _ (this x hx)⟩

theorem Spec.TagFilter.made {v : Val} (h : TagFilter v) : MadeCond v := by
  induction h with
  | text k o s hk ho | pattern k o s hk ho =>
    refine ⟨.cond _ _ _, .condition _ (.op o) _ _ (keyColumn_built hk) (.op o) (.literal _ (.str _)) ((C11_condition_accepts_iff _ _ _ _).2
      ⟨o, rfl, .column _, ?_, .inr (.inl (.str _)), rfl⟩)⟩
    rintro (rfl | rfl) <;> simp at ho
  | many k o ss hk ho =>
    obtain ⟨h1, h2⟩ := strings_scalar ss
    refine ⟨.cond _ _ _, .condition _ (.op o) _ _ (keyColumn_built hk) (.op o) h2 ((C11_condition_accepts_iff _ _ _ _).2
      ⟨o, rfl, .column _, ?_, .inr h1, rfl⟩)⟩
    rintro (rfl | rfl) <;> simp at ho
  | all cs hl _ ih =>
    exact ⟨.boolCond _ _ _ _, .and _ _ (.list _ fun x hx => (ih x hx).built) ((C11_boolean_accepts_iff .none _ _).2.1.2
      ⟨.list, cs, .list _, hl, fun c hc => (ih c hc).cond, rfl⟩)⟩
  | any cs hl _ ih =>
    exact ⟨.boolCond _ _ _ _, .or _ _ (.list _ fun x hx => (ih x hx).built) ((C11_boolean_accepts_iff .none _ _).2.2.2
      ⟨.list, cs, .list _, hl, fun c hc => (ih c hc).cond, rfl⟩)⟩

omit S in
theorem Spec.BareColumn.item {v : Val} (h : BareColumn v) : GroupItem v := by cases h; exact .column _

theorem Spec.PartWith.wellFormed {N : Str → Prop} {y : MVal} (h : PartWith N y) : WellFormed y := by
  cases h with
  | ts m s a f g hm _ ha hf hg =>
    refine .ts _ ⟨?_, ⟨s, rfl⟩, ha.imp fun _ h => h.literal, hf.opt.imp fun _ h => h.made.cond, hg.opt.imp fun _ h => h.bare.item⟩
      (hf.opt.imp fun _ h => h.made) (hg.opt.imp fun _ h => h.bare)
    rcases hm with ⟨n, _, rfl⟩ | ⟨n, _, rfl⟩
    · exact ⟨.str n, .none, .none, n, .inl rfl⟩
    · exact ⟨.none, .str n, .none, n, .inr rfl⟩
  | arithmetic _ _ _ _ _ hf hg | negation _ _ _ _ hf hg | call _ _ _ _ _ _ _ _ _ hf hg =>
    exact .formula _ _ _ _ _ (hf.opt.imp fun _ h => h.made) (hg.opt.imp fun _ h => h.bare)
  | number | text => exact .other _ (by simp) (by simp)

/-- All parts of a result are as they should be. -/
def Sound (N : Str → Prop) (m : MVal) : Prop := ∀ y, InFormula m y → PartWith N y

omit U in
theorem Spec.PartWith.imp {N M : Str → Prop} (hi : ∀ s, N s → M s) {y : MVal} (h : PartWith N y) : PartWith M y := by
  cases h with
  | ts _ _ _ _ _ hm hs ha hf hg => exact .ts _ _ _ _ _ hm (hi _ hs) ha hf hg
  | arithmetic _ _ _ _ _ hf hg => exact .arithmetic _ _ _ _ _ hf hg
  | negation _ _ _ hq hf hg => exact .negation _ _ _ hq hf hg
  | call _ _ _ _ _ _ hn hx ha hf hg => exact .call _ _ _ _ _ _ (hi _ hn) hx ha hf hg
  | number _ h => exact .number _ h
  | text => exact .text _

omit U in
theorem Sound.imp {N M : Str → Prop} (hi : ∀ s, N s → M s) {m : MVal} (h : Sound N m) : Sound M m := fun y hy => (h y hy).imp hi

omit U in
theorem sound_leaf {N : Str → Prop} {x : MVal} (h : ∀ n ps a f g, x ≠ .formula n ps a f g) (hx : PartWith N x) : Sound N x := by
  intro y hy
  rw [(inFormula_leaf h).1 hy]
  exact hx

omit U in
theorem sound_formula {N : Str → Prop} {n a f g : Val} {xs : List MVal} (hx : ∀ x ∈ xs, Sound N x)
    (h : PartWith N (.formula n (.list xs) a f g)) : Sound N (.formula n (.list xs) a f g) := by
  intro y hy
  rcases (inFormula_formula (.list xs)).1 hy with rfl | ⟨p, hp, h⟩
  · exact h
  · exact hx p hp y h

omit U in
theorem Sound.part {N : Str → Prop} {m : MVal} (h : Sound N m) : PartWith N m := h _ .self

theorem Sound.ts {N : Str → Prop} {t : TimeseriesObj} (h : Sound N (.ts t)) :
    TimeseriesOk t ∧ OptList MadeCond t.filters ∧ OptList BareColumn t.groupby := by
  cases h.part.wellFormed with
  | ts _ h1 h2 h3 => exact ⟨h1, h2, h3⟩
  | other _ _ h => exact absurd rfl (h _)

omit U in
theorem Sound.formula {N : Str → Prop} {n a f g : Val} {p : MVal} (h : Sound N (.formula n p a f g)) :
    ∃ xs, p = .list xs ∧ (∀ x ∈ xs, Sound N x) ∧ SomeList TagFilter f ∧ SomeList TagColumn g ∧
      ∀ f' g', SomeList TagFilter f' → SomeList TagColumn g' → PartWith N (.formula n p a f' g') := by
  have hsub : ∀ xs, p = .list xs → ∀ x ∈ xs, Sound N x := by
    rintro xs rfl x hx y hy
    exact h y (inFormula_trans (.param .self (.list xs) hx) hy)
  cases h.part with
  | arithmetic op x y _ _ hf hg => exact ⟨_, rfl, hsub _ rfl, hf, hg, fun _ _ h1 h2 => .arithmetic _ _ _ _ _ h1 h2⟩
  | negation x _ _ hq hf hg => exact ⟨_, rfl, hsub _ rfl, hf, hg, fun _ _ h1 h2 => .negation _ _ _ hq h1 h2⟩
  | call n x xs _ _ _ hn hx ha hf hg => exact ⟨_, rfl, hsub _ rfl, hf, hg, fun _ _ h1 h2 => .call _ _ _ _ _ _ hn hx ha h1 h2⟩

theorem Sound.setFilters {N : Str → Prop} {m r : MVal} {xs : List Val} (h : Sound N m) (hx : ∀ x ∈ xs, TagFilter x) (hne : xs ≠ [])
    (hr : m.setFilters (.list xs) = .ok r) : Sound N r ∧ r.isQuery = true := by
  cases m with
  | ts t =>
    obtain ⟨t', ht', rfl⟩ := map_eq_ok.1 hr
    obtain ⟨_, rfl⟩ := ((C32_timeseries_setters t h.ts.1 t').2.2.1 _).1 ht'
    refine ⟨sound_leaf (by simp) ?_, rfl⟩
    cases h.part with
    | ts m s a f g hm hs ha hf hg => exact .ts _ _ _ _ _ hm hs ha (.list _ hne hx) hg
  | formula n p a f g =>
    simp only [MVal.setFilters, setFormulaFilters, bind_eq_ok, ensure_eq_ok] at hr
    obtain ⟨_, _, hr⟩ := hr
    cases hr
    obtain ⟨ys, rfl, hy, _, hg, hp⟩ := h.formula
    exact ⟨sound_formula hy (hp _ _ (.list _ hne hx) hg), rfl⟩
  | _ => cases hr

theorem Sound.setGroupby {N : Str → Prop} {m r : MVal} {xs : List Val} (h : Sound N m) (hx : ∀ x ∈ xs, TagColumn x) (hne : xs ≠ [])
    (hr : m.setGroupby (.list xs) = .ok r) : Sound N r ∧ r.isQuery = true := by
  cases m with
  | ts t =>
    obtain ⟨t', ht', rfl⟩ := map_eq_ok.1 hr
    obtain ⟨_, rfl⟩ := ((C32_timeseries_setters t h.ts.1 t').2.2.2 _).1 ht'
    refine ⟨sound_leaf (by simp) ?_, rfl⟩
    cases h.part with
    | ts m s a f g hm hs ha hf hg => exact .ts _ _ _ _ _ hm hs ha hf (.list _ hne hx)
  | formula n p a f g =>
    simp only [MVal.setGroupby, setFormulaGroupby, bind_eq_ok, ensure_eq_ok] at hr
    obtain ⟨_, _, hr⟩ := hr
    cases hr
    obtain ⟨ys, rfl, hy, hf, _, hp⟩ := h.formula
    exact ⟨sound_formula hy (hp _ _ hf (.list _ hne hx)), rfl⟩
  | _ => cases hr

theorem setAggregate_sound {N M : Str → Prop} {t t' : TimeseriesObj} {s : Str} {p : Val} (h : Sound M (.ts t)) (hs : N s) (hp : OptList PlainScalar p)
    (hr : t.setAggregate (.str s) p = .ok t') : Sound N (.ts t') := by
  obtain ⟨_, _, rfl⟩ := ((C32_timeseries_setters t h.ts.1 t').2.1 (.str s) p).1 hr
  refine sound_leaf (by simp) ?_
  cases h.part with
  | ts m _ _ f g hm _ _ hf hg => exact .ts _ _ _ _ _ hm hs hp hf hg

omit U in
theorem Sound.filters {N : Str → Prop} {m : MVal} {f : Val} (h : Sound N m) (hr : m.filters = .ok f) : SomeList TagFilter f := by
  cases m with
  | ts t => cases hr; cases h.part with | ts _ _ _ _ _ _ _ _ hf _ => exact hf
  | formula => cases hr; obtain ⟨_, _, _, hf, _⟩ := h.formula; exact hf
  | _ => cases hr

omit U in
theorem Sound.groupby {N : Str → Prop} {m : MVal} {g : Val} (h : Sound N m) (hr : m.groupby = .ok g) : SomeList TagColumn g := by
  cases m with
  | ts t => cases hr; cases h.part with | ts _ _ _ _ _ _ _ _ _ hg => exact hg
  | formula => cases hr; obtain ⟨_, _, _, _, hg, _⟩ := h.formula; exact hg
  | _ => cases hr

omit S in
theorem bareColumn_plain {v : Val} (h : BareColumn v) : PlainGroupItem v := by
  cases h with
  | mk c hc _ => exact .column c fun e he => by rw [hc] at he; cases he

omit S in
theorem optBare_plain {v : Val} (h : OptList BareColumn v) : OptList PlainGroupItem v := h.imp fun _ => bareColumn_plain

omit S in
theorem Spec.WellFormed.typed {m : MVal} (h : WellFormed m) : Typed m := by
  cases h with
  | ts t _ _ hg => exact .ts _ (optBare_plain hg)
  | formula n xs a f g _ hg => exact .formula _ _ _ _ _ (.inr ⟨xs, .list xs⟩) (optBare_plain hg)
  | other _ h1 h2 => exact .other _ h1 h2

end

end Verif
