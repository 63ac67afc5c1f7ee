import Verif.Spec.MetricsMeaning
import Verif.Spec.MqlRoundTrip
import Verif.Lemmas.Str

/-!
# The meaning of a metrics query and of its normal form
-/

namespace Verif

open Spec

theorem Spec.Tri.and_yes (t : Tri) : t.and .yes = t := by cases t <;> rfl
theorem Spec.Tri.yes_and (t : Tri) : Tri.yes.and t = t := by cases t <;> rfl
theorem Spec.Tri.or_no (t : Tri) : t.or .no = t := by cases t <;> rfl

theorem each_map {α β γ : Type} (f : α → Option β) (g : γ → α) (h : γ → β) (xs : List γ) (hf : ∀ x ∈ xs, f (g x) = some (h x)) :
    each f (xs.map g) = some (xs.map h) := by
  induction xs with
  | nil => rfl
  | cons x xs ih =>
    simp only [List.map_cons, each, hf x (by simp), Option.bind_some, ih fun y hy => hf y (by simp [hy]), Option.map_some]

theorem textsOf_strs {v : Val} {ss : List Str} (hv : SeqFor v (ss.map .str)) : textsOf v = some ss := by
  have : each textOf (ss.map .str) = some ss := by simpa using each_map textOf .str id ss fun _ _ => rfl
  rcases hv with rfl | rfl <;> exact this

section
variable {Row D T : Type} (W : Store Row D T)

/-- Two values have the same meaning as filters. -/
def SameFilter (c d : Val) : Prop := ∃ f, W.filter c = some f ∧ W.filter d = some f

theorem filters_map {ps : List (Val × Val)} (h : ∀ p ∈ ps, SameFilter W p.1 p.2) :
    ∃ fs, W.filters (ps.map (·.1)) = some fs ∧ W.filters (ps.map (·.2)) = some fs := by
  induction ps with
  | nil => exact ⟨[], rfl, rfl⟩
  | cons p ps ih =>
    obtain ⟨f, h1, h2⟩ := h p (by simp)
    obtain ⟨fs, h3, h4⟩ := ih fun p hp => h p (by simp [hp])
    exact ⟨f :: fs, by simp [Store.filters, h1, h3], by simp [Store.filters, h2, h4]⟩

theorem filter_conj {vs : List Val} {fs : List (Row → Tri)} (h : W.filters vs = some fs) :
    W.filter (conj vs) = some fun r => Tri.every (fs.map (· r)) := by
  match vs with
  | [] => simp [conj, Store.filter, h]
  | [v] =>
    simp only [Store.filters, Option.map_some, Option.bind_eq_some_iff] at h
    obtain ⟨f, h1, h2⟩ := h
    cases h2
    simp [conj, h1, Tri.every, Spec.Tri.and_yes]
  | v :: v' :: vs => simp [conj, Store.filter, h]

theorem filter_disj {vs : List Val} {fs : List (Row → Tri)} (h : W.filters vs = some fs) :
    W.filter (disj vs) = some fun r => Tri.any (fs.map (· r)) := by
  match vs with
  | [] => simp [disj, Store.filter, h]
  | [v] =>
    simp only [Store.filters, Option.map_some, Option.bind_eq_some_iff] at h
    obtain ⟨f, h1, h2⟩ := h
    cases h2
    simp [disj, h1, Tri.any, Spec.Tri.or_no]
  | v :: v' :: vs => simp [disj, Store.filter, h]

variable [S : RegexSpace]

theorem filterFor_same {c d : Val} (h : FilterFor c d) : SameFilter W c d := by
  induction h with
  | @text c neg s hk h hp => cases neg <;> exact ⟨_, rfl, rfl⟩
  | @pattern c neg u hk h hs => cases neg <;> exact ⟨_, rfl, rfl⟩
  | @list c neg v ss hk hne hv h =>
    have h1 := textsOf_strs hv
    have h2 := textsOf_strs (v := .list (ss.map .str)) (.inl rfl)
    have h3 : ∀ v, textsOf v = some ss → W.filter (.cond (.column c) (compareOp neg .list) v) = some fun r =>
        cond neg (Tri.any (ss.map fun s => W.eq (W.tag r c.name) (W.text s))).neg (Tri.any (ss.map fun s => W.eq (W.tag r c.name) (W.text s))) := by
      intro v hv
      cases neg <;> simp only [Store.filter, compareOp, Store.comparison, hv, Option.map_some, cond]
    have h4 : W.filter (.cond (keyColumn c.name) (compareOp neg .list) (.list (ss.map .str))) =
        W.filter (.cond (.column c) (compareOp neg .list) (.list (ss.map .str))) := rfl
    exact ⟨_, h3 v h1, by rw [h4]; exact h3 _ h2⟩
  | @and cls k ps hne h ih =>
    obtain ⟨fs, h1, h2⟩ := filters_map W ih
    exact ⟨_, by simp only [Store.filter, h1, Option.map_some], filter_conj W h2⟩
  | @or cls k ps hne h ih =>
    obtain ⟨fs, h1, h2⟩ := filters_map W ih
    exact ⟨_, by simp only [Store.filter, h1, Option.map_some], filter_disj W h2⟩

theorem filtersFor_same {v : Val} {fs : List Val} (h : FiltersFor v fs) : ∃ f, W.rows v = some f ∧ W.rows (optList fs) = some f := by
  cases h with
  | none => exact ⟨_, rfl, rfl⟩
  | empty hv => rcases hv with rfl | rfl <;> exact ⟨fun _ => .yes, rfl, rfl⟩
  | @some _ ps hne hv h =>
    obtain ⟨fs, h1, h2⟩ := filters_map W fun p hp => filterFor_same W (h p hp)
    refine ⟨fun r => Tri.every (fs.map (· r)), ?_, ?_⟩
    · rcases hv with rfl | rfl <;> simp only [Store.rows, h1, Option.map_some]
    · simp [optList, Store.rows, Store.filters, filter_conj W h2, Tri.every, Spec.Tri.and_yes]

omit S W in
theorem groupFor_same {v : Val} {gs : List Val} (h : GroupFor v gs) : ∃ ks, tagsOf v = some ks ∧ tagsOf (optList gs) = some ks := by
  cases h with
  | none => exact ⟨[], rfl, rfl⟩
  | @some _ cs hne hv h =>
    have h1 : each tagOf (cs.map .column) = some (cs.map (·.name)) := each_map _ _ _ _ fun _ _ => rfl
    have h2 : each tagOf (cs.map fun c => keyColumn c.name) = some (cs.map (·.name)) := each_map _ _ _ _ fun _ _ => rfl
    refine ⟨_, by rcases hv with rfl | rfl <;> exact h1, ?_⟩
    cases cs with
    | nil => exact absurd rfl hne
    | cons c cs => exact h2

omit W in
theorem paramFor_same {q : Bool} {v w : Val} (h : ParamFor q v w) : ∃ d, datumOf v = some d ∧ datumOf w = some d := by
  cases h with
  | int n =>
    refine ⟨_, rfl, ?_⟩
    have : decide ((n : Int) < 0) = false := by simp
    simp [datumOf, this]
  | float d hn h => exact ⟨_, rfl, rfl⟩
  | quoted h => exact ⟨_, rfl, rfl⟩
  | bare h hd => exact ⟨_, rfl, rfl⟩

omit W in
theorem paramsFor_same {q : Bool} {v w : Val} (h : ParamsFor q v w) : ∃ ds, dataOf v = some ds ∧ dataOf w = some ds := by
  cases h with
  | none => exact ⟨[], rfl, rfl⟩
  | empty hv => rcases hv with rfl | rfl <;> exact ⟨[], rfl, rfl⟩
  | @some _ ps hne hv h =>
    have : ∃ ds, each datumOf (ps.map (·.1)) = some ds ∧ each datumOf (ps.map (·.2)) = some ds := by
      clear hne hv
      induction ps with
      | nil => exact ⟨[], rfl, rfl⟩
      | cons p ps ih =>
        obtain ⟨d, h1, h2⟩ := paramFor_same (h p (by simp))
        obtain ⟨ds, h3, h4⟩ := ih fun p hp => h p (by simp [hp])
        exact ⟨d :: ds, by simp [each, h1, h3], by simp [each, h2, h4]⟩
    obtain ⟨ds, h1, h2⟩ := this
    exact ⟨ds, by rcases hv with rfl | rfl <;> exact h1, h2⟩

omit W in
theorem metricFor_same {m o : MetricObj} (h : MetricFor m o) : ∃ n, nameOf m = some n ∧ nameOf o = some n := by
  cases h with
  | mri h hs => exact ⟨_, rfl, rfl⟩
  | pub h => exact ⟨_, rfl, rfl⟩

/-- Two queries ask for the same, whatever applies to all of them. -/
def SameAsked (x y : MVal) : Prop := ∀ (f : Row → Tri) (g : List Str), ∃ d, W.denote f g x = some d ∧ W.denote f g y = some d

omit S in
theorem denotes_same {ps : List (MVal × MVal)} (h : ∀ p ∈ ps, SameAsked W p.1 p.2) (f : Row → Tri) (g : List Str) :
    ∃ ds, W.denotes f g (ps.map (·.1)) = some ds ∧ W.denotes f g (ps.map (·.2)) = some ds ∧ ds.length = ps.length := by
  induction ps with
  | nil => exact ⟨[], rfl, rfl, rfl⟩
  | cons p ps ih =>
    obtain ⟨d, h1, h2⟩ := h p (by simp) f g
    obtain ⟨ds, h3, h4, h5⟩ := ih fun p hp => h p (by simp [hp])
    exact ⟨d :: ds, by simp [Store.denotes, h1, h3], by simp [Store.denotes, h2, h4], by simp [h5]⟩

omit S in
theorem operands_seq {xs : MVal} {l : List MVal} (h : xs = .list l ∨ xs = .tuple l) (f : Row → Tri) (g : List Str) :
    W.operands f g xs = W.denotes f g l := by
  rcases h with rfl | rfl <;> rfl

omit S in
theorem apply_arith (op : Arith) (d e : T) (ds : List T) :
    W.apply op.name [] (d :: e :: ds) = some ((e :: ds).foldl (fun x y => W.call op.name [] [x, y]) d) := by
  unfold Store.apply
  rw [if_pos ⟨op, by cases op <;> simp, rfl⟩]

omit S in
theorem apply_other {n : Str} (h : ∀ op : Arith, n ≠ op.name) (ps : List Datum) (ds : List T) :
    W.apply n ps ds = some (W.call n ps ds) := by
  unfold Store.apply
  rw [if_neg]
  rintro ⟨op, _, e⟩
  exact h op e

omit S in
theorem denote_arith (op : Arith) (x y : MVal) (f : Row → Tri) (g : List Str) {d e : T} (hx : W.denote f g x = some d)
    (hy : W.denote f g y = some e) :
    W.denote f g (.formula (.str op.name) (.list [x, y]) .none .none .none) = some (W.call op.name [] [d, e]) := by
  simp only [Store.denote, textOf, dataOf, Store.rows, tagsOf, Spec.Tri.and_yes, List.append_nil, Store.operands, Store.denotes, hx, hy,
    Option.bind_eq_bind, Option.bind_some, Option.map_some, apply_arith, List.foldl_cons, List.foldl_nil]

omit S in
theorem denote_nested (op : Arith) (f : Row → Tri) (g : List Str) : ∀ (ys : List MVal) (x : MVal) (d : T) (ds : List T),
    W.denote f g x = some d → W.denotes f g ys = some ds →
      W.denote f g (leftNested op x ys) = some (ds.foldl (fun x y => W.call op.name [] [x, y]) d)
  | [], x, d, ds, hx, hys => by
    simp only [Store.denotes, Option.some.injEq] at hys
    subst hys
    exact hx
  | y :: ys, x, d, ds, hx, hys => by
    simp only [Store.denotes, Option.bind_eq_some_iff, Option.map_eq_some_iff] at hys
    obtain ⟨e, he, es, hes, rfl⟩ := hys
    exact denote_nested op f g ys _ _ es (denote_arith W op x y f g hx he) hes

omit S in
theorem denote_pushed {n : Val} {xs : List MVal} {fs gs : List Val} {own : Row → Tri} {tags : List Str} (f : Row → Tri) (g : List Str)
    (hf : W.rows (optList fs) = some own) (hg : tagsOf (optList gs) = some tags) :
    W.denote f g (addGroups gs (addFilters fs (.formula n (.list xs) .none .none .none))) =
      W.denote (fun r => (f r).and (own r)) (g ++ tags) (.formula n (.list xs) .none .none .none) := by
  have e1 : prepend fs .none = optList fs := by cases fs <;> rfl
  have e2 : prepend gs .none = optList gs := by cases gs <;> rfl
  have h1 : W.rows .none = some fun _ => .yes := rfl
  have h2 : tagsOf .none = some [] := rfl
  simp only [addFilters, addGroups, e1, e2, Store.denote, hf, hg, h1, h2, Option.bind_eq_bind, Option.bind_some, Spec.Tri.and_yes,
    List.append_nil]

omit S in
theorem leftNested_formula (op : Arith) : ∀ (ys : List MVal) (x : MVal), ys ≠ [] →
    ∃ zs, leftNested op x ys = .formula (.str op.name) (.list zs) .none .none .none
  | [], _, h => absurd rfl h
  | [y], x, _ => ⟨[x, y], rfl⟩
  | y :: y' :: ys, x, _ => leftNested_formula op (y' :: ys) (.formula (.str op.name) (.list [x, y]) .none .none .none) (by simp)

/-- A query and its normal form ask for the same. -/
theorem normalForm_same {q x : MVal} (h : NormalForm q x) : SameAsked W q x := by
  induction h with
  | @number v x h =>
    intro f g
    cases h with
    | int i => exact ⟨_, rfl, rfl⟩
    | float d h => exact ⟨_, rfl, rfl⟩
  | @timeseries m o a ps ps' f g fs gs hm ha hp hf hg =>
    intro F G
    obtain ⟨n, m1, m2⟩ := metricFor_same hm
    obtain ⟨ds, p1, p2⟩ := paramsFor_same hp
    obtain ⟨own, f1, f2⟩ := filtersFor_same W hf
    obtain ⟨tags, g1, g2⟩ := groupFor_same hg
    exact ⟨W.series n a ds (fun r => (F r).and (own r)) (G ++ tags),
      by simp only [Store.denote, textOf, m1, p1, f1, g1, Option.bind_eq_bind, Option.bind_some],
      by simp only [Store.denote, textOf, m2, p2, f2, g2, Option.bind_eq_bind, Option.bind_some]⟩
  | @arithmetic op xs a f g p ps fs gs hne hxs h hs ha hf hg ih ihs =>
    intro F G
    obtain ⟨ds, p1, p2⟩ := paramsFor_same ha
    obtain rfl : ds = [] := by cases p2; rfl
    obtain ⟨own, f1, f2⟩ := filtersFor_same W hf
    obtain ⟨tags, g1, g2⟩ := groupFor_same hg
    obtain ⟨d, d1, d2⟩ := ih (fun r => (F r).and (own r)) (G ++ tags)
    obtain ⟨es, e1, e2, e3⟩ := denotes_same W ihs (fun r => (F r).and (own r)) (G ++ tags)
    obtain ⟨e, es, rfl⟩ : ∃ e es', es = e :: es' := by
      cases es with
      | nil => cases ps with
        | nil => exact absurd rfl hne
        | cons _ _ => simp at e3
      | cons e es => exact ⟨e, es, rfl⟩
    refine ⟨(e :: es).foldl (fun x y => W.call op.name [] [x, y]) d, ?_, ?_⟩
    · have : W.denotes (fun r => (F r).and (own r)) (G ++ tags) ((p :: ps).map (·.1)) = some (d :: e :: es) := by
        simp [Store.denotes, d1, e1]
      simp only [Store.denote, textOf, p1, f1, g1, Option.bind_eq_bind, Option.bind_some, operands_seq W hxs, this, apply_arith]
    · have := denote_nested W op _ _ _ _ _ _ d2 e2
      obtain ⟨zs, hz⟩ := leftNested_formula op (ps.map (·.2)) p.2 (by simpa using hne)
      rw [hz] at this ⊢
      rw [denote_pushed W F G f2 g2, this]
  | @function n xs a a' f g p ps fs gs hn hi hneg hxs h hagg hs ha hf hg ih ihs =>
    intro F G
    obtain ⟨ds, p1, p2⟩ := paramsFor_same ha
    obtain ⟨own, f1, f2⟩ := filtersFor_same W hf
    obtain ⟨tags, g1, g2⟩ := groupFor_same hg
    obtain ⟨es, e1, e2, _⟩ := denotes_same W (ps := p :: ps) (fun q hq => by
      rcases List.mem_cons.1 hq with rfl | hq
      · exact ih
      · exact ihs q hq) (fun r => (F r).and (own r)) (G ++ tags)
    exact ⟨W.call n ds es,
      by simp only [Store.denote, textOf, p1, f1, g1, Option.bind_eq_bind, Option.bind_some, operands_seq W hxs, e1, apply_other W hi],
      by simp only [Store.denote, textOf, p2, f2, g2, Option.bind_eq_bind, Option.bind_some, Store.operands, e2, apply_other W hi]⟩
  | @negation xs a f x x' hxs h hq ha hf ih =>
    intro F G
    obtain ⟨ds, p1, p2⟩ := paramsFor_same ha
    obtain rfl : ds = [] := by cases p2; rfl
    obtain ⟨own, f1, f2⟩ := filtersFor_same W hf
    obtain rfl : (fun _ => .yes) = own := Option.some.inj f2
    obtain ⟨d, d1, d2⟩ := ih F G
    have hi : ∀ op : Arith, c!"negate" ≠ op.name := by intro op; cases op <;> decide
    have h1 : W.rows .none = some fun _ => .yes := rfl
    refine ⟨W.call c!"negate" [] [d], ?_, ?_⟩
    · simp only [Store.denote, textOf, p1, f1, tagsOf, Option.bind_eq_bind, Option.bind_some, operands_seq W hxs, Spec.Tri.and_yes,
        List.append_nil, Store.denotes, d1, Option.map_some, apply_other W hi]
    · simp only [Store.denote, textOf, dataOf, h1, tagsOf, Option.bind_eq_bind, Option.bind_some, Store.operands, Spec.Tri.and_yes,
        List.append_nil, Store.denotes, d2, Option.map_some, apply_other W hi]

end

end Verif
