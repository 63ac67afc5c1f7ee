import Verif.Lemmas.MqlTyped

/-!
# The methods of the visitor succeed on what they are given, or fail in the known ways
-/

namespace Verif

open Spec

section
variable [U : PyUnicode] [S : RegexSpace]

/-- The outcome of a method. -/
def Outcome (k : Rule) (t : Str) : Except Err V → Prop
  | .ok v => RTy k t v
  | .error e => RErr k t e

omit U in
theorem QueryV.sound {N : Str → Prop} {v : V} (h : QueryV N v) : Sound N v.toMVal := by
  obtain ⟨m, rfl, _, h⟩ := h; exact h

omit U in
theorem QueryV.imp {N M : Str → Prop} (hi : ∀ s, N s → M s) {v : V} (h : QueryV N v) : QueryV M v := by
  obtain ⟨m, rfl, hq, h⟩ := h; exact ⟨m, rfl, hq, h.imp hi⟩

omit U in
theorem SignedV.sound {N : Str → Prop} {v : V} (h : SignedV v) : Sound N v.toMVal := by
  rcases h with ⟨f, hf, rfl⟩ | ⟨s, rfl⟩
  · exact sound_leaf (by simp [V.toMVal]) (.number f hf)
  · exact sound_leaf (by simp [V.toMVal]) (.text s)

omit S U in
theorem ScalarV.signed {v : V} (h : ScalarV v) : SignedV v := by
  rcases h with ⟨f, hf, rfl⟩ | ⟨s, rfl⟩
  · exact .inl ⟨f, (by rintro rfl; cases hf), rfl⟩
  · exact .inr ⟨s, rfl⟩

omit U in
theorem TermV.sound {t : Str} {v : V} (h : TermV t v) : Sound NameText v.toMVal := h.elim (·.sound) (·.1.sound)

omit U in
theorem TermV.isTerm {t : Str} {v : V} (h : TermV t v) : v.isTerm = true := by
  rcases h with ⟨m, rfl, h, _⟩ | ⟨⟨f, _, rfl⟩ | ⟨s, rfl⟩, _⟩
  · cases m <;> first | rfl | cases h
  · rfl
  · rfl

omit U in
theorem queryV_formula {N : Str → Prop} {n a f g : Val} {xs : List MVal} (hx : ∀ x ∈ xs, Sound N x)
    (h : PartWith N (.formula n (.list xs) a f g)) : QueryV N (.obj (.formula n (.list xs) a f g)) := ⟨_, rfl, rfl, sound_formula hx h⟩

omit U in
theorem foldTerms_ok : ∀ (xs : List V) (left : V), Sound NameText left.toMVal →
    (∀ x ∈ xs, ∃ a op b r, x = .list [a, op, b, r] ∧ (∃ o : Arith, op = .obj (.val (.str o.name))) ∧ Sound NameText r.toMVal) →
    ∃ v, foldTerms left xs = .ok v ∧ (xs = [] ∧ v = left ∨ QueryV NameText v)
  | [], left, _, _ => ⟨left, rfl, .inl ⟨rfl, rfl⟩⟩
  | x :: xs, left, hl, hx => by
    obtain ⟨a, _, b, r, rfl, ⟨o, rfl⟩, hr⟩ := hx _ (.head _)
    have hq : QueryV NameText (.obj (.formula (.str o.name) (.list [left.toMVal, r.toMVal]) .none .none .none)) :=
      queryV_formula (by simp only [List.mem_cons, List.not_mem_nil, or_false, forall_eq_or_imp, forall_eq]; exact ⟨hl, hr⟩)
        (.arithmetic o _ _ _ _ .none .none)
    obtain ⟨v, hv, h⟩ := foldTerms_ok xs _ hq.sound fun x h => hx x (.tail _ h)
    refine ⟨v, hv, .inr ?_⟩
    rcases h with ⟨_, rfl⟩ | h
    · exact hq
    · exact h

omit U in
theorem visitTerms_ok {t t' : Str} {l : V} {xs : List V} (hl : TermV t l) (hne : xs = [] → t' = [])
    (hx : ∀ x ∈ xs, ∃ a op b r u, x = .list [a, op, b, r] ∧ (∃ o : Arith, op = .obj (.val (.str o.name))) ∧ TermV u r) :
    ∃ v, visitTerms [l, .list xs] = .ok v ∧ TermV (t ++ t') v := by
  obtain ⟨v, hv, h⟩ := foldTerms_ok xs l hl.sound fun x h => by
    obtain ⟨a, op, b, r, u, rfl, ho, hr⟩ := hx x h; exact ⟨a, op, b, r, rfl, ho, hr.sound⟩
  refine ⟨v, by simp only [visitTerms, hl.isTerm, if_true, hv], ?_⟩
  rcases h with ⟨hn, rfl⟩ | h
  · rw [hne hn, List.append_nil]; exact hl
  · exact .inl h

omit S U in
theorem currentItems_ok {P : Val → Prop} {v : Val} (h : SomeList P v) : ∃ xs, currentItems v = .ok xs ∧ ∀ x ∈ xs, P x := by
  cases h with
  | none => exact ⟨[], rfl, by simp⟩
  | list xs _ hx =>
    unfold currentItems
    split
    · exact ⟨xs, rfl, hx⟩
    · exact ⟨[], rfl, by simp⟩

theorem setFilters_ok {N : Str → Prop} {m : MVal} {xs : List Val} (h : Sound N m) (hq : m.isQuery = true) (hx : ∀ x ∈ xs, TagFilter x)
    (hne : xs ≠ []) : ∃ r, m.setFilters (.list xs) = .ok r ∧ r.isQuery = true ∧ Sound N r := by
  have : ∃ r, m.setFilters (.list xs) = .ok r := by
    cases m with
    | ts t =>
      exact ⟨_, map_eq_ok.2 ⟨_, ((C32_timeseries_setters t h.ts.1 _).2.2.1 _).2 ⟨.list _ fun x h => (hx x h).made.cond, rfl⟩, rfl⟩⟩
    | formula n p a f g =>
      refine ⟨.formula n p a (.list xs) g, ?_⟩
      simp only [MVal.setFilters, setFormulaFilters, bind_eq_ok, ensure_eq_ok, Val.given, listType, Bool.not_true, Bool.false_or, List.all_eq_true]
      exact ⟨(), fun x h => isCondition_iff.2 (hx x h).made.cond, trivial⟩
    | _ => cases hq
  obtain ⟨r, hr⟩ := this
  exact ⟨r, hr, (h.setFilters hx hne hr).symm⟩

omit S in
theorem Spec.BareColumn.group {v : Val} (h : BareColumn v) : v.isGroupItem = true := by cases h; rfl

theorem setGroupby_ok {N : Str → Prop} {m : MVal} {xs : List Val} (h : Sound N m) (hq : m.isQuery = true) (hx : ∀ x ∈ xs, TagColumn x)
    (hne : xs ≠ []) : ∃ r, m.setGroupby (.list xs) = .ok r ∧ r.isQuery = true ∧ Sound N r := by
  have : ∃ r, m.setGroupby (.list xs) = .ok r := by
    cases m with
    | ts t =>
      exact ⟨_, map_eq_ok.2 ⟨_, ((C32_timeseries_setters t h.ts.1 _).2.2.2 _).2 ⟨.list _ fun x h => isGroupItem_iff.1 (hx x h).bare.group, rfl⟩, rfl⟩⟩
    | formula n p a f g =>
      refine ⟨.formula n p a f (.list xs), ?_⟩
      simp only [MVal.setGroupby, setFormulaGroupby, bind_eq_ok, ensure_eq_ok, Val.given, listType, Bool.not_true, Bool.false_or, List.all_eq_true]
      exact ⟨(), fun x h => (hx x h).bare.group, trivial⟩
    | _ => cases hq
  obtain ⟨r, hr⟩ := this
  exact ⟨r, hr, (h.setGroupby hx hne hr).symm⟩

/-- The braces of a filter: none, empty, or with a condition. -/
def BlockV (v : V) : Prop :=
  v = .list [] ∨ (∃ a b, v = .list [.list [a, .list [], b]]) ∨ ∃ a b c d x, v = .list [.list [a, .list [.list [c, x, d]], b]] ∧ CondV x

omit U in
theorem packed_ok {v : V} (h : BlockV v) : ∃ p, packedFilters v = .ok p ∧ (p = .list [] ∨ ∃ c x d, p = .list [.list [c, x, d]] ∧ CondV x) := by
  rcases h with rfl | ⟨a, b, rfl⟩ | ⟨a, b, c, d, x, rfl, hx⟩
  · exact ⟨_, rfl, .inl rfl⟩
  · exact ⟨_, rfl, .inl rfl⟩
  · exact ⟨_, rfl, .inr ⟨_, _, _, rfl, hx⟩⟩

theorem addFilterIf_ok {N : Str → Prop} {p : V} {m : MVal} (hp : p = .list [] ∨ ∃ c x d, p = .list [.list [c, x, d]] ∧ CondV x) (h : Sound N m)
    (hq : m.isQuery = true) : ∃ r, addFilterIf p m = .ok r ∧ r.isQuery = true ∧ Sound N r := by
  rcases hp with rfl | ⟨c, x, d, rfl, w, rfl, hw⟩
  · exact ⟨m, rfl, hq, h⟩
  · have hf : ∃ f, m.filters = .ok f := by cases m <;> first | exact ⟨_, rfl⟩ | cases hq
    obtain ⟨f, hf⟩ := hf
    obtain ⟨xs, hxs, hx⟩ := currentItems_ok (h.filters hf)
    obtain ⟨r, hr, h1⟩ := setFilters_ok (xs := w :: xs) h hq (List.forall_mem_cons.2 ⟨hw, hx⟩) (by simp)
    refine ⟨r, ?_, h1⟩
    simp only [addFilterIf, V.truthy, List.isEmpty_cons, Bool.not_false, if_true, addFilter, hf, hxs, ok_bind]
    exact hr

omit S U in
theorem groupItems_ok {v : V} (h : GroupV v) : groupItems v ≠ [] ∧ ∀ x ∈ groupItems v, TagColumn x := by
  rcases h with ⟨c, rfl, hc⟩ | ⟨vs, rfl, hne, h⟩
  · simpa [groupItems, V.toVal] using hc
  · simp only [groupItems]
    constructor
    · cases vs with
      | nil => exact absurd rfl hne
      | cons v vs => simp [V.toVals]
    · clear hne
      induction vs with
      | nil => simp [V.toVals]
      | cons v vs ih =>
        simp only [V.toVals, List.mem_cons, forall_eq_or_imp]
        obtain ⟨c, rfl, hc⟩ := h v (.head _)
        exact ⟨hc, ih fun x hx => h x (.tail _ hx)⟩

theorem addGroupbyIf_ok {N : Str → Prop} {p : V} {m : MVal} (hp : p = .list [] ∨ ∃ g, p = .list [g] ∧ GroupV g) (h : Sound N m)
    (hq : m.isQuery = true) : ∃ r, addGroupbyIf p m = .ok r ∧ r.isQuery = true ∧ Sound N r := by
  rcases hp with rfl | ⟨g, rfl, hg⟩
  · exact ⟨m, rfl, hq, h⟩
  · have hf : ∃ f, m.groupby = .ok f := by cases m <;> first | exact ⟨_, rfl⟩ | cases hq
    obtain ⟨f, hf⟩ := hf
    obtain ⟨xs, hxs, hx⟩ := currentItems_ok (h.groupby hf)
    obtain ⟨r, hr, h1⟩ := setGroupby_ok (xs := groupItems g ++ xs) h hq (fun x hxm =>
      (List.mem_append.1 hxm).elim ((groupItems_ok hg).2 x) (hx x)) (by simp [(groupItems_ok hg).1])
    refine ⟨r, ?_, h1⟩
    simp only [addGroupbyIf, V.truthy, List.isEmpty_cons, Bool.not_false, if_true, addGroupby, V.item0, hf, hxs, ok_bind]
    exact hr

theorem visitFilter_ok {N : Str → Prop} {v f g : V} (hv : QueryV N v) (hf : BlockV f) (hg : g = .list [] ∨ ∃ x, g = .list [x] ∧ GroupV x) :
    ∃ r, visitFilter [v, f, g] = .ok r ∧ QueryV N r := by
  obtain ⟨m, rfl, hq, hs⟩ := hv
  obtain ⟨p, hp, hp'⟩ := packed_ok hf
  obtain ⟨m1, h1, hq1, hs1⟩ := addFilterIf_ok hp' hs hq
  obtain ⟨m2, h2, hq2, hs2⟩ := addGroupbyIf_ok hg hs1 hq1
  exact ⟨.obj m2, by simp only [visitFilter, hp, V.asQuery, hq, if_true, h1, h2, ok_bind], _, rfl, hq2, hs2⟩

theorem visitFunction_ok {N : Str → Prop} {v g : V} (hv : QueryV N v) (hg : g = .list [] ∨ ∃ x, g = .list [x] ∧ GroupV x) :
    ∃ r, visitFunction [.list [v], g] = .ok r ∧ QueryV N r := by
  obtain ⟨m, rfl, hq, hs⟩ := hv
  obtain ⟨m2, h2, hq2, hs2⟩ := addGroupbyIf_ok hg hs hq
  exact ⟨.obj m2, by simp only [visitFunction, V.item0, V.asQuery, hq, if_true, h2, ok_bind], _, rfl, hq2, hs2⟩

omit S U in
theorem placeholder_name : NameText aggregatePlaceholder := ⟨by decide, by decide, by decide⟩

omit U in
theorem placeholder_ok {m : MetricObj} (h : (∃ n, PublicText n ∧ m = ⟨.str n, .none, .none⟩) ∨ ∃ n, LooseMri n ∧ m = ⟨.none, .str n, .none⟩) :
    ∃ t, placeholderSeries m = .ok t ∧ Sound NameText (.ts t) := by
  have hs : Sound NameText (.ts ⟨m, .str aggregatePlaceholder, .none, .none, .none⟩) :=
    sound_leaf (by simp) (.ts _ _ _ _ _ h placeholder_name .none .none .none)
  have hok : TimeseriesOk ⟨m, .str aggregatePlaceholder, .none, .none, .none⟩ := by
    refine ⟨?_, ⟨_, rfl⟩, .none, .none, .none⟩
    rcases h with ⟨n, _, rfl⟩ | ⟨n, _, rfl⟩
    · exact ⟨.str n, .none, .none, n, .inl rfl⟩
    · exact ⟨.none, .str n, .none, n, .inr rfl⟩
  exact ⟨_, (C32_timeseries_iff _ _ _ _ _ _).2 ⟨m, rfl, rfl, hok⟩, hs⟩

theorem visitInnerFilter_ok {v f g : V} (hv : MetricV v) (hf : BlockV f) (hg : g = .list [] ∨ ∃ x, g = .list [x] ∧ GroupV x) :
    ∃ t, visitInnerFilter [.list [v], f, g] = .ok (.obj (.ts t)) ∧ Sound NameText (.ts t) := by
  obtain ⟨m, rfl, hm⟩ := hv
  obtain ⟨p, hp, hp'⟩ := packed_ok hf
  obtain ⟨t, ht, hs⟩ := placeholder_ok hm
  have h1 : ∃ t1, innerFilters p t = .ok t1 ∧ Sound NameText (.ts t1) := by
    rcases hp' with rfl | ⟨c, x, d, rfl, w, rfl, hw⟩
    · exact ⟨t, rfl, hs⟩
    · obtain ⟨r, hr, hq, hs'⟩ := setFilters_ok (xs := [w]) hs rfl (by simpa using hw) (by simp)
      obtain ⟨t1, ht1, rfl⟩ := map_eq_ok.1 hr
      exact ⟨t1, ht1, hs'⟩
  obtain ⟨t1, h1, hs1⟩ := h1
  have h2 : ∃ t2, innerGroupby g t1 = .ok t2 ∧ Sound NameText (.ts t2) := by
    rcases hg with rfl | ⟨g, rfl, hg⟩
    · exact ⟨t1, rfl, hs1⟩
    · obtain ⟨r, hr, hq, hs'⟩ := setGroupby_ok (xs := groupItems g) hs1 rfl (groupItems_ok hg).2 (groupItems_ok hg).1
      obtain ⟨t2, ht2, rfl⟩ := map_eq_ok.1 hr
      exact ⟨t2, ht2, hs'⟩
  obtain ⟨t2, h2, hs2⟩ := h2
  exact ⟨t2, by simp only [visitInnerFilter, hp, V.metric0, V.item0, ht, h1, h2, ok_bind], hs2⟩

theorem setAggregate_ok {N M : Str → Prop} {t : TimeseriesObj} {s : Str} {p : Val} (h : Sound M (.ts t)) (hs : N s) (hp : OptList PlainScalar p) :
    ∃ t', t.setAggregate (.str s) p = .ok t' ∧ Sound N (.ts t') := by
  have := ((C32_timeseries_setters t h.ts.1 _).2.1 (.str s) p).2 ⟨⟨s, rfl⟩, hp.imp fun _ h => h.literal, rfl⟩
  exact ⟨_, this, setAggregate_sound h hs hp this⟩

omit S U in
theorem scalars_toVals {vs : List V} (h : ∀ x ∈ vs, ScalarV x) : ∀ x ∈ V.toVals vs, PlainScalar x := by
  induction vs with
  | nil => simp [V.toVals]
  | cons v vs ih =>
    simp only [V.toVals, List.mem_cons, forall_eq_or_imp]
    refine ⟨?_, ih fun x hx => h x (.tail _ hx)⟩
    rcases h v (.head _) with ⟨f, hf, rfl⟩ | ⟨s, rfl⟩
    · exact .float f hf
    · exact .str s

omit S U in
theorem aggregateParams_ok {v : V} (h : v = .list [] ∨ ∃ x, v = .list [x] ∧ ∃ vs, x = .list vs ∧ ∀ y ∈ vs, ScalarV y) :
    ∃ ps, aggregateParamsOf v = .ok ps ∧ OptList PlainScalar ps.toVal := by
  rcases h with rfl | ⟨x, rfl, vs, rfl, h⟩
  · exact ⟨.list [], rfl, .list [] (by simp)⟩
  · exact ⟨.list vs, rfl, .list _ (scalars_toVals h)⟩

omit U in
theorem lasts_ok {N : Str → Prop} : ∀ {xs : List V}, (∀ x ∈ xs, ∃ a b c v, x = .list [a, b, c, v] ∧ Sound N v.toMVal) →
    ∃ vs, lasts xs = .ok vs ∧ ∀ y ∈ V.toMVals vs, Sound N y
  | [], _ => ⟨[], rfl, by simp [V.toMVals]⟩
  | x :: xs, h => by
    obtain ⟨a, b, c, v, rfl, hv⟩ := h _ (.head _)
    obtain ⟨vs, hvs, hs⟩ := lasts_ok fun x hx => h x (.tail _ hx)
    refine ⟨v :: vs, by simp [lasts, hvs, ok_bind], ?_⟩
    simp only [V.toMVals, List.mem_cons, forall_eq_or_imp]
    exact ⟨hv, hs⟩

omit S U in
theorem fourths_ok {P : V → Prop} : ∀ {xs : List V}, (∀ x ∈ xs, ∃ a b c v, x = .list [a, b, c, v] ∧ P v) →
    ∃ vs, fourths xs = .ok vs ∧ ∀ y ∈ vs, P y
  | [], _ => ⟨[], rfl, by simp⟩
  | x :: xs, h => by
    obtain ⟨a, b, c, v, rfl, hv⟩ := h _ (.head _)
    obtain ⟨vs, hvs, hs⟩ := fourths_ok fun x hx => h x (.tail _ hx)
    exact ⟨v :: vs, by simp [fourths, hvs, ok_bind], List.forall_mem_cons.2 ⟨hv, hs⟩⟩

omit S U in
theorem firsts_ok {P : V → Prop} : ∀ {xs : List V}, (∀ x ∈ xs, ∃ v, x = .list [v] ∧ P v) → ∃ vs, firsts xs = .ok vs ∧ ∀ y ∈ vs, P y
  | [], _ => ⟨[], rfl, by simp⟩
  | x :: xs, h => by
    obtain ⟨v, rfl, hv⟩ := h _ (.head _)
    obtain ⟨vs, hvs, hs⟩ := firsts_ok fun x hx => h x (.tail _ hx)
    exact ⟨v :: vs, by simp [firsts, hvs, ok_bind, V.item0], List.forall_mem_cons.2 ⟨hv, hs⟩⟩

omit U in
theorem condV_toVals {vs : List V} (h : ∀ x ∈ vs, CondV x) : ∀ x ∈ V.toVals vs, TagFilter x := by
  induction vs with
  | nil => simp [V.toVals]
  | cons v vs ih =>
    simp only [V.toVals, List.mem_cons, forall_eq_or_imp]
    obtain ⟨c, rfl, hc⟩ := h v (.head _)
    exact ⟨hc, ih fun x hx => h x (.tail _ hx)⟩

omit S U in
theorem toVals_length : ∀ vs : List V, (V.toVals vs).length = vs.length
  | [] => rfl
  | _ :: vs => by simp [V.toVals, toVals_length vs]

theorem visitFilters_ok {op : BooleanOp} {v : V} {xs : List V} (hv : CondV v)
    (hx : ∀ x ∈ xs, ∃ a b c w, x = .list [a, b, c, w] ∧ CondV w) : ∃ r, visitFilters op [v, .list xs] = .ok r ∧ CondV r := by
  obtain ⟨vs, hvs, h⟩ := fourths_ok hx
  cases vs with
  | nil => exact ⟨v, by simp [visitFilters, V.items, hvs, ok_bind], hv⟩
  | cons w ws =>
    have hc := condV_toVals (vs := v :: w :: ws) (List.forall_mem_cons.2 ⟨hv, h⟩)
    have hlen : 2 ≤ (V.toVals (v :: w :: ws)).length := by simp [toVals_length]
    cases op with
    | and =>
      have hr := ((C11_boolean_accepts_iff .none (.list (V.toVals (v :: w :: ws))) _).2.1).2
        ⟨.list, _, .list _, hlen, fun c hm => (hc c hm).made.cond, rfl⟩
      exact ⟨_, by simp [visitFilters, V.items, hvs, ok_bind, hr, Except.map], _, rfl,
        .all _ hlen hc⟩
    | or =>
      have hr := ((C11_boolean_accepts_iff .none (.list (V.toVals (v :: w :: ws))) _).2.2).2
        ⟨.list, _, .list _, hlen, fun c hm => (hc c hm).made.cond, rfl⟩
      exact ⟨_, by simp [visitFilters, V.items, hvs, ok_bind, hr, Except.map], _, rfl,
        .any _ hlen hc⟩

theorem visitFilterFactor_ok {neg l a b c f : V} (hn : neg = .list [] ∨ neg = .list [.obj (.val (.op .not))]) (hl : ColV l) (hf : FactorV f) :
    ∃ r, visitFilterFactor [.list [neg, .list [l], a, b, c, f]] = .ok r ∧ CondV r := by
  obtain ⟨col, rfl, hb⟩ := hl
  obtain ⟨k, hk⟩ := hb
  have key : ∃ x w o, f = .factor x w ∧ o = filterOp (negated? neg) w x ∧ TagFilter (.cond (keyColumn k) o x) := by
    rcases hf with ⟨s, rfl, hs⟩ | ⟨u, rfl, hu⟩ | ⟨ss, rfl, hss⟩
    · refine ⟨_, _, _, rfl, rfl, .text k _ s hk ?_ hs⟩
      rcases hn with rfl | rfl <;> simp [negated?, filterOp]
    · refine ⟨_, _, _, rfl, rfl, .pattern k _ u hk ?_ hu⟩
      rcases hn with rfl | rfl <;> simp [negated?, filterOp]
    · refine ⟨_, _, _, rfl, rfl, .many k _ ss hk ?_ hss⟩
      rcases hn with rfl | rfl <;> simp [negated?, filterOp]
  obtain ⟨x, w, o, rfl, ho, ht⟩ := key
  have hr : mkCondition (keyColumn k) (.op o) x = .ok (.cond (keyColumn k) o x) := by
    refine (C11_condition_accepts_iff _ _ _ _).2 ⟨o, rfl, .column _, ?_, ?_, rfl⟩
    · intro hu
      cases ht with
      | text _ _ _ _ h | pattern _ _ _ _ h | many _ _ _ _ h => rcases hu with rfl | rfl <;> simp at h
    · cases ht with
      | text | pattern => exact .inr (.inl (.str _))
      | many _ _ ss => exact .inr (strings_scalar ss).1
  exact ⟨_, by simp only [visitFilterFactor, V.item0, ok_bind, V.toVal, ← ho, hr], _, rfl, ht⟩

end

end Verif
