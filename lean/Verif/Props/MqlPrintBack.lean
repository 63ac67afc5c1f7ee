import Verif.Spec.MqlPrintBack
import Verif.Props.RoundTrip
import Verif.Props.MqlTotal
import Verif.Lemmas.Same

/-!
# C66: a parsed query can be printed and read again
-/

namespace Verif

open Spec

section
variable [U : PyUnicode] [S : RegexSpace]

omit U in
theorem tagFilter_for {v : Val} (h : TagFilter v) (hs : SafeStrings v) : FilterFor v v := by
  induction h with
  | text k o s hk ho hp =>
    have hs' : SafeText s := hs s (.rhs _ _ _ .here)
    rcases ho with rfl | rfl
    · exact FilterFor.text (c := ⟨k, none, none, none⟩) (neg := false) hk hs' hp
    · exact FilterFor.text (c := ⟨k, none, none, none⟩) (neg := true) hk hs' hp
  | pattern k o u hk ho hu =>
    have hs' : SafeText (u ++ ['*']) := hs _ (.rhs _ _ _ .here)
    have hb : '\\' ∉ u := fun h => hs'.1 (by simp [h])
    rcases ho with rfl | rfl
    · exact FilterFor.pattern (c := ⟨k, none, none, none⟩) (neg := false) hk hu hb
    · exact FilterFor.pattern (c := ⟨k, none, none, none⟩) (neg := true) hk hu hb
  | many k o ss hk ho hne =>
    have hs' : ∀ s ∈ ss, SafeText s := fun s h => hs s (.rhs _ _ _ (.list _ _ (List.mem_map_of_mem h) .here))
    rcases ho with rfl | rfl
    · exact FilterFor.list (c := ⟨k, none, none, none⟩) (neg := false) hk hne (.inl rfl) hs'
    · exact FilterFor.list (c := ⟨k, none, none, none⟩) (neg := true) hk hne (.inl rfl) hs'
  | all cs hl _ ih =>
    match cs, hl, ih with
    | c :: d :: cs, _, ih =>
      have := FilterFor.and (cls := .and) (k := .list) (ps := (c :: d :: cs).map fun c => (c, c)) (by simp)
        (by simp only [List.mem_map]; rintro _ ⟨q, hq, rfl⟩; exact ih q hq fun s h => hs s (.item _ _ _ _ _ hq h))
      simpa [conj, Function.comp_def] using this
  | any cs hl _ ih =>
    match cs, hl, ih with
    | c :: d :: cs, _, ih =>
      have := FilterFor.or (cls := .or) (k := .list) (ps := (c :: d :: cs).map fun c => (c, c)) (by simp)
        (by simp only [List.mem_map]; rintro _ ⟨q, hq, rfl⟩; exact ih q hq fun s h => hs s (.item _ _ _ _ _ hq h))
      simpa [disj, Function.comp_def] using this

omit U in
theorem filters_settle {f : Val} (h : SomeList TagFilter f) (hs : SafeStrings f) : ∃ fs, FiltersFor f fs ∧ optList fs = joinFilters f := by
  cases h with
  | none => exact ⟨[], .none, rfl⟩
  | list xs hne h =>
    have := FiltersFor.some (v := .list xs) (ps := xs.map fun c => (c, c)) (by simpa using hne) (.inl (by simp [Function.comp_def]))
      (by simp only [List.mem_map]; rintro _ ⟨q, hq, rfl⟩; exact tagFilter_for (h q hq) fun s hp => hs s (.list _ _ hq hp))
    refine ⟨_, this, ?_⟩
    match xs, hne with
    | [x], _ => rfl
    | x :: y :: xs, _ => simp [conj, joinFilters, optList, Function.comp_def]

omit U S in
theorem groups_settle {g : Val} (h : SomeList TagColumn g) : ∃ gs, GroupFor g gs ∧ optList gs = g := by
  cases h with
  | none => exact ⟨[], .none, rfl⟩
  | list xs hne h =>
    have hk : ∃ ks : List Str, xs = ks.map keyColumn ∧ ∀ k ∈ ks, KeyText k := by
      clear hne
      induction xs with
      | nil => exact ⟨[], rfl, by simp⟩
      | cons x xs ih =>
        obtain ⟨ks, rfl, hks⟩ := ih fun y hy => h y (.tail _ hy)
        cases h x (.head _) with
        | mk k hk => exact ⟨k :: ks, rfl, List.forall_mem_cons.2 ⟨hk, hks⟩⟩
    obtain ⟨ks, rfl, hk⟩ := hk
    have := GroupFor.some (v := .list (ks.map keyColumn)) (cs := ks.map fun k => ⟨k, none, none, none⟩) (by simpa using hne)
      (.inl (by simp [Function.comp_def, keyColumn])) (by simp only [List.mem_map]; rintro _ ⟨k, h, rfl⟩; exact hk k h)
    refine ⟨_, this, ?_⟩
    cases ks with
    | nil => simp at hne
    | cons k ks => simp [optList, Function.comp_def]

omit U in
theorem params_settle {q : Bool} {a : Val} (h : OptList PlainScalar a) (hp : PlainParams a)
    (hs : ∀ xs, a = .list xs → ∀ s, .str s ∈ xs → ParamFor q (.str s) (.str s)) : ParamsFor q a (dropEmpty a) := by
  cases h with
  | none => exact .none
  | list xs h =>
    cases xs with
    | nil => exact .empty (.inl rfl)
    | cons x xs =>
      have := ParamsFor.some (q := q) (v := .list (x :: xs)) (ps := (x :: xs).map fun c => (c, c)) (by simp) (.inl (by simp [Function.comp_def]))
        (by
          simp only [List.mem_map]
          rintro _ ⟨y, hy, rfl⟩
          have hy' := h y hy
          cases hy' with
          | str s => exact hs _ rfl s hy
          | float f hf =>
            obtain ⟨d, rfl, hd⟩ := hp _ rfl f hy
            cases hf with
            | fin _ hn => exact .float d hn hd)
      simpa [dropEmpty, Function.comp_def] using this

omit U in
theorem noParams_for {q : Bool} {a : Val} (h : NoParams a) : ParamsFor q a .none := by
  rcases h with rfl | rfl
  · exact .none
  · exact .empty (.inl rfl)

omit U S in
theorem noParams_drop {a : Val} (h : NoParams a) : dropEmpty a = .none := by
  rcases h with rfl | rfl <;> rfl

omit U S in
theorem settleAll_map (xs : List MVal) : settleAll xs = xs.map settle := by
  induction xs with
  | nil => rfl
  | cons x xs ih => simp [settleAll, ih]

omit U S in
theorem addGroups_nested (op : Arith) (x y : MVal) (fs gs : List Val) :
    addGroups gs (addFilters fs (leftNested op x [y])) = .formula (.str op.name) (.list [x, y]) .none (optList fs) (optList gs) := by
  simp only [leftNested, List.foldl, addFilters, addGroups, prepend_none]

omit U in
theorem sound_normal : ∀ x, Sound NameText x → (∀ y, InFormula x y → Survives y) → NormalForm x (settle x) := by
  refine MVal.ind fun x ih hs hv => ?_
  have hv0 := hv x .self
  have hp := hs.part
  cases hv0 with
  | number f hf =>
    obtain ⟨d, rfl, hd⟩ := hf
    exact .number (.float d hd)
  | ts t hm hpl hq hf =>
    cases hp with
    | ts m s a f g hm' hn ha hf' hg =>
      obtain ⟨fs, h1, h2⟩ := filters_settle hf' hf
      obtain ⟨gs, h3, h4⟩ := groups_settle hg
      have hp' := params_settle (q := true) ha hpl fun xs e s h => .quoted (hq xs e s h)
      have hmm : MetricFor m m := by
        rcases hm' with ⟨n, hn, rfl⟩ | ⟨n, hn, rfl⟩
        · exact .pub hn
        · obtain ⟨a, b, c, d, e, h1, h2, h3, h4, h5, h6, h7, _⟩ := hn
          exact .mri ⟨a, b, c, d, e, h1, h2, h3, h4, h5, h6, h7, (hm n rfl).1⟩ (hm n rfl).2
      have := NormalForm.timeseries hmm hn hp' h1 h3
      rw [h2, h4] at this
      exact this
  | operator op x y a f g ha hf =>
    obtain ⟨xs, hxs, hsub, hf', hg, _⟩ := hs.formula
    cases hxs
    have hn : ∀ z ∈ [x, y], NormalForm z (settle z) := fun z hz =>
      ih _ _ _ _ _ rfl z hz (hsub z hz) fun w hw => hv w (inFormula_trans (.param .self (.list _) hz) hw)
    obtain ⟨fs, h1, h2⟩ := filters_settle hf' hf
    obtain ⟨gs, h3, h4⟩ := groups_settle hg
    have := NormalForm.arithmetic (op := op) (p := (x, settle x)) (ps := [(y, settle y)]) (by simp) (.inl rfl) (hn x (by simp))
      (by simpa using hn y (by simp)) (noParams_for ha) h1 h3
    simp only [List.map_cons, List.map_nil, addGroups_nested, h2, h4] at this
    simpa [settle, settleAll, noParams_drop ha] using this
  | negation x a ha hq =>
    obtain ⟨xs, hxs, hsub, _⟩ := hs.formula
    cases hxs
    have hn : NormalForm x (settle x) :=
      ih _ _ _ _ _ rfl x (by simp [MVal.items]) (hsub x (by simp)) fun w hw => hv w (inFormula_trans (.param .self (.list _) (by simp)) hw)
    simpa [settle, settleAll, noParams_drop ha, joinFilters] using NormalForm.negation (.inl rfl) hn hq (noParams_for ha) .none
  | function n xs a f g ho hneg hpl hb hf =>
    obtain ⟨_, hxs, hsub, hf', hg, _⟩ := hs.formula
    cases hxs
    have hn : ∀ z ∈ xs, NormalForm z (settle z) := fun z hz =>
      ih _ _ _ _ _ rfl z hz (hsub z hz) fun w hw => hv w (inFormula_trans (.param .self (.list _) hz) hw)
    obtain ⟨fs, h1, h2⟩ := filters_settle hf' hf
    obtain ⟨gs, h3, h4⟩ := groups_settle hg
    cases hp with
    | arithmetic op => exact absurd rfl (ho op)
    | negation => exact absurd rfl hneg
    | call _ x xs _ _ _ hname hx ha _ _ =>
      have hp' := params_settle (q := false) ha hpl fun xs e s h => .bare (hb xs e s h).1 (hb xs e s h).2
      have := NormalForm.function (p := (x, settle x)) (ps := xs.map fun z => (z, settle z)) (xs := .list (x :: xs)) hname ho hneg
        (.inl (by simp [Function.comp_def])) (hn x (by simp)) hx
        (by simp only [List.mem_map]; rintro _ ⟨z, hz, rfl⟩; exact hn z (by simp [hz])) hp' h1 h3
      rw [h2, h4] at this
      simpa only [settle, settleAll_map, List.map_cons, List.map_map, Function.comp_def] using this

omit U in
theorem settle_plain : ∀ x, (∀ y, InFormula x y → Survives y) → PlainNumbers (settle x) := by
  refine MVal.ind fun x ih hv => ?_
  have hd : ∀ {a : Val}, PlainParams a → PlainParams (dropEmpty a) := by
    intro a h
    unfold dropEmpty
    split
    · intro xs e; cases e
    · exact h
  have hn : ∀ {a : Val}, NoParams a → PlainParams (dropEmpty a) := by
    rintro a h xs e
    rw [noParams_drop h] at e
    cases e
  have hsub : ∀ {n a f g : Val} {xs : List MVal}, x = .formula n (.list xs) a f g → ∀ z ∈ settleAll xs, PlainNumbers z := by
    rintro n a f g xs rfl z hz
    rw [settleAll_map, List.mem_map] at hz
    obtain ⟨y, hy, rfl⟩ := hz
    exact ih _ _ _ _ _ rfl y hy fun w hw => hv w (inFormula_trans (.param .self (.list _) hy) hw)
  cases hv x .self with
  | number f hf => exact .number hf
  | ts t _ hp => exact .timeseries (hd hp)
  | operator op x y a f g ha => exact .formula (hsub rfl) (hn ha)
  | negation x a ha => exact .formula (hsub rfl) (hn ha)
  | function n xs a f g _ _ hp => exact .formula (hsub rfl) (hd hp)

omit U in
theorem settle_same : ∀ x, (∀ y, InFormula x y → Survives y ∧ IsSettled y) → settle x = x := by
  refine MVal.ind fun x ih hv => ?_
  have hsub : ∀ {n a f g : Val} {xs : List MVal}, x = .formula n (.list xs) a f g → settleAll xs = xs := by
    rintro n a f g xs rfl
    rw [settleAll_map]
    refine (List.map_congr_left fun y hy => ?_).trans (List.map_id xs)
    exact ih _ _ _ _ _ rfl y hy fun w hw => hv w (inFormula_trans (.param .self (.list _) hy) hw)
  have hd : ∀ {a : Val}, a ≠ .list [] → dropEmpty a = a := by
    intro a h
    unfold dropEmpty
    split
    · exact absurd rfl h
    · rfl
  have hj : ∀ {f : Val}, (∀ x y xs, f ≠ .list (x :: y :: xs)) → joinFilters f = f := by
    intro f h
    unfold joinFilters
    split
    · exact absurd rfl (h _ _ _)
    · rfl
  obtain ⟨h1, h2⟩ := hv x .self
  cases h2 with
  | ts t ha hf => simp only [settle, hd ha, hj hf]
  | value => rfl
  | formula n p a f g ha hf =>
    have : ∃ xs, p = .list xs := by cases h1 <;> exact ⟨_, rfl⟩
    obtain ⟨xs, rfl⟩ := this
    simp only [settle, hd ha, hj hf, hsub rfl]

variable [R : PyRepr]

/-- **C66.** A text that the parser accepts gives a query that can be printed, and the text that is printed is read as the same
query, except that several filters of one part become one, their conjunction, and that empty lists of parameters disappear; from
then on nothing changes any more. Missing: the kinds of parts that `Survives` leaves out, which are printed so that they cannot be
read again or are read as something else; see the theorems on failures below. -/
theorem C66_parsed_round_trip_partial (s : Str) (x : MVal) (h : parseMql s = .ok x) (hv : ∀ y, InFormula x y → Survives y) :
    ∃ t t', queryMql x = .ok t ∧ parseMql t = .ok (settle x) ∧ queryMql (settle x) = .ok t' ∧ parseMql t' = .ok (settle x) := by
  obtain ⟨hs, hq⟩ := parseMql_sound h
  have hq' : IsQuery x := by cases x <;> first | trivial | cases hq
  have ho : queryMql x = paramMql x := by cases x <;> first | rfl | cases hq
  have ho' : queryMql (settle x) = paramMql (settle x) := by cases x <;> first | (cases hq; done) | rfl
  rw [ho, ho']
  exact C38_second_round_trip_partial x (settle x) (sound_normal x hs hv) hq' (settle_plain x hv)

/-- **C66** (exactly): if no part has several filters or an empty list of parameters, the text that is printed is read as the very
same query. -/
theorem C66_same_partial (s : Str) (x : MVal) (h : parseMql s = .ok x) (hv : ∀ y, InFormula x y → Survives y ∧ IsSettled y) :
    ∃ t, queryMql x = .ok t ∧ parseMql t = .ok x := by
  obtain ⟨t, _, h1, h2, _⟩ := C66_parsed_round_trip_partial s x h fun y hy => (hv y hy).1
  rw [settle_same x hv] at h2
  exact ⟨t, h1, h2⟩

end

section Examples

attribute [local instance] asciiUnicode pySpace

local instance : PyRepr := ⟨fun _ => []⟩

private def exText : Str := c!"quantiles(0.5, \"a b\")(d:t/x@ms{aa:\"b\"}){cc:[\"d\", \"e\"]} by (g, h) / -2 + ff(xy)(sum(m), 3)"

private def exSeries (p f g : Val) : MVal :=
  .ts ⟨⟨.none, .str c!"d:t/x@ms", .none⟩, .str c!"quantiles", p, f, g⟩

private def exFirst : Val := .cond (keyColumn c!"cc") .in_ (.list [.str c!"d", .str c!"e"])

private def exSecond : Val := .cond (keyColumn c!"aa") .eq (.str c!"b")

private def exNumber (i : Nat) (neg : Bool) : MVal := .val (.float (ofDecimal neg i 0))

private def exWith (f : Val) : MVal :=
  .formula (.str c!"plus") (.list [
    .formula (.str c!"divide") (.list [
      exSeries (.list [.float (ofDecimal false 5 (-1)), .str c!"a b"]) f (.list [keyColumn c!"g", keyColumn c!"h"]),
      exNumber 2 true]) .none .none .none,
    .formula (.str c!"ff") (.list [.ts ⟨⟨.str c!"m", .none, .none⟩, .str c!"sum", .none, .none, .none⟩, exNumber 3 false])
      (.list [.str c!"xy"]) .none .none]) .none .none .none

private def exQuery : MVal := exWith (.list [exFirst, exSecond])

private theorem exText_parsed : parseMql exText = .ok exQuery := gives_eq (by decide +kernel)

private theorem safe_children {v : Val} (hv : ∀ s, v = .str s → SafeText s) (hc : ∀ c ∈ v.children, SafeStrings c) : SafeStrings v := by
  intro s hs
  rcases part_iff.1 hs with h | ⟨c, hm, hs⟩
  · exact hv s h.symm
  · exact hc c hm s hs

private theorem safe_str {s : Str} (h : SafeText s) : SafeStrings (.str s) :=
  safe_children (by rintro _ ⟨⟩; exact h) (by simp [Val.children])

/-- The hypothesis of the theorems holds for the query that the text denotes. -/
private theorem exQuery_survives (f : Val) (hf : SafeStrings f) : ∀ y, InFormula (exWith f) y → Survives y := by
  have hnone : ∀ v : Val, v = .none → SafeStrings v := by
    rintro v rfl s hs
    cases hs
  have hnum : ∀ (i : Nat) (n : Bool), PlainFloat (ofDecimal n i 0) → ∀ y, InFormula (exNumber i n) y → Survives y := by
    intro i n h y hy
    rw [(inFormula_leaf (by simp [exNumber])).1 hy]
    exact .number _ h
  have hser : ∀ t : TimeseriesObj, Survives (.ts t) → ∀ y, InFormula (.ts t) y → Survives y := by
    intro t h y hy
    rw [(inFormula_leaf (by simp)).1 hy]
    exact h
  intro y hy
  rcases (inFormula_formula (.list _)).1 hy with rfl | ⟨p, hp, hy⟩
  · exact .operator .plus _ _ _ _ _ (.inl rfl) (hnone _ rfl)
  simp only [List.mem_cons, List.not_mem_nil, or_false] at hp
  rcases hp with rfl | rfl
  · rcases (inFormula_formula (.list _)).1 hy with rfl | ⟨p, hp, hy⟩
    · exact .operator .divide _ _ _ _ _ (.inl rfl) (hnone _ rfl)
    simp only [List.mem_cons, List.not_mem_nil, or_false] at hp
    rcases hp with rfl | rfl
    · refine hser _ (.ts _ ?_ ?_ ?_ hf) y hy
      · intro m hm; cases hm; decide
      · intro xs hxs f' hf'
        cases hxs
        simp only [List.mem_cons, Val.float.injEq, reduceCtorEq, List.not_mem_nil, or_false] at hf'
        subst hf'
        exact ⟨⟨false, 1, -1, rfl⟩, by decide +kernel, by decide +kernel⟩
      · intro xs hxs s hs
        cases hxs
        simp only [List.mem_cons, Val.str.injEq, reduceCtorEq, List.not_mem_nil, or_false, false_or] at hs
        subst hs
        exact ⟨by decide, by decide⟩
    · exact hnum 2 true ⟨⟨true, 1, 1, rfl⟩, by decide +kernel, by decide +kernel⟩ y hy
  · rcases (inFormula_formula (.list _)).1 hy with rfl | ⟨p, hp, hy⟩
    · refine .function _ _ _ _ _ (by intro op; cases op <;> decide) (by decide) ?_ ?_ (hnone _ rfl)
      · intro xs hxs f' hf'
        cases hxs
        simp at hf'
      · intro xs hxs s hs
        cases hxs
        simp only [List.mem_cons, Val.str.injEq, List.not_mem_nil, or_false] at hs
        subst hs
        exact ⟨⟨by simp, by decide⟩, by decide⟩
    simp only [List.mem_cons, List.not_mem_nil, or_false] at hp
    rcases hp with rfl | rfl
    · refine hser _ (.ts _ (by intro m hm; cases hm) (by intro xs hxs; cases hxs) (by intro xs hxs; cases hxs) (hnone _ rfl)) y hy
    · exact hnum 3 false ⟨⟨false, 3, 0, rfl⟩, by decide +kernel, by decide +kernel⟩ y hy

private theorem exFilters_safe : SafeStrings (.list [exFirst, exSecond]) := by
  have hk : ∀ k, SafeStrings (keyColumn k) := fun k => safe_children (by simp [keyColumn]) (by simp [Val.children, keyColumn])
  refine safe_children (by simp) ?_
  simp only [Val.children, List.mem_cons, List.not_mem_nil, or_false, forall_eq_or_imp, forall_eq]
  constructor
  · refine safe_children (by simp [exFirst]) ?_
    simp only [exFirst, Val.children, List.mem_cons, List.not_mem_nil, or_false, forall_eq_or_imp, forall_eq]
    refine ⟨hk _, safe_children (by simp) ?_⟩
    simp only [Val.children, List.mem_cons, List.not_mem_nil, or_false, forall_eq_or_imp, forall_eq]
    exact ⟨safe_str ⟨by decide, by decide⟩, safe_str ⟨by decide, by decide⟩⟩
  · refine safe_children (by simp [exSecond]) ?_
    simp only [exSecond, Val.children, List.mem_cons, List.not_mem_nil, or_false, forall_eq_or_imp, forall_eq]
    exact ⟨hk _, safe_str ⟨by decide, by decide⟩⟩

/-- The series has two filters, which become one. -/
example : ∃ t t', queryMql exQuery = .ok t ∧ parseMql t = .ok (exWith (.list [.boolCond .and .and .list [exFirst, exSecond]])) ∧
    queryMql (exWith (.list [.boolCond .and .and .list [exFirst, exSecond]])) = .ok t' ∧
    parseMql t' = .ok (exWith (.list [.boolCond .and .and .list [exFirst, exSecond]])) :=
  C66_parsed_round_trip_partial exText exQuery exText_parsed (exQuery_survives _ exFilters_safe)

example : queryMql exQuery =
    .ok c!"((quantiles(0.5, \"a b\")(d:t/x@ms){cc:[\"d\", \"e\"] AND aa:\"b\"} by (g, h) / -2.0) + ff(xy)(sum(m), 3.0))" := by
  decide +kernel

private def exSimple : MVal := .ts ⟨⟨.str c!"m", .none, .none⟩, .str c!"sum", .list [.str c!"a"], .list [.cond (keyColumn c!"k") .like (.str c!"b*")], .none⟩

example : ∃ t, queryMql exSimple = .ok t ∧ parseMql t = .ok exSimple := by
  refine C66_same_partial c!"sum(a)(m){k:b*}" exSimple (gives_eq (by decide +kernel)) fun y hy => ?_
  rw [(inFormula_leaf (by simp [exSimple])).1 hy]
  refine ⟨.ts _ (by intro m hm; cases hm) ?_ ?_ ?_, .ts _ (by simp) (by simp)⟩
  · intro xs hxs f hf
    cases hxs
    simp at hf
  · intro xs hxs s hs
    cases hxs
    simp only [List.mem_cons, Val.str.injEq, List.not_mem_nil, or_false] at hs
    subst hs
    exact ⟨by decide, by decide⟩
  · refine safe_children (by simp) ?_
    simp only [Val.children, List.mem_cons, List.not_mem_nil, or_false, forall_eq]
    refine safe_children (by simp) ?_
    simp only [Val.children, List.mem_cons, List.not_mem_nil, or_false, forall_eq_or_imp, forall_eq]
    exact ⟨safe_children (by simp [keyColumn]) (by simp [Val.children, keyColumn]), safe_str ⟨by decide, by decide⟩⟩

/-! ### The kinds that are left out -/

/-- The text is read as a query that is printed, but the printed text is not read, or is read as a query without the property
`p`. -/
private def lostBy (p : MVal → Bool) (text : Str) : Bool :=
  match parseMql text with
  | .error _ => false
  | .ok q =>
    match queryMql q with
    | .error _ => false
    | .ok t =>
      match parseMql t with
      | .error _ => true
      | .ok q' => p (settle q) && !p q'

/-- The text is read as a query that is printed, but the printed text is not read as the same query, not even after its filters
have been joined and its empty lists of parameters removed. -/
def ChangesWhenPrinted (text : Str) : Prop := ∃ q t, parseMql text = .ok q ∧ queryMql q = .ok t ∧ parseMql t ≠ .ok (settle q)

private theorem lost {text : Str} (p : MVal → Bool) (h : lostBy p text = true) : ChangesWhenPrinted text := by
  unfold lostBy at h
  split at h
  · cases h
  · rename_i q hq
    split at h
    · cases h
    · rename_i t ht
      refine ⟨q, t, hq, ht, fun e => ?_⟩
      rw [e] at h
      simp at h

/-- How deep formulas are nested on the left. -/
private def depth : MVal → Nat
  | .formula _ (.list (x :: _)) _ _ _ => depth x + 1
  | _ => 0

private def hasParams : MVal → Bool
  | .formula _ _ a _ _ => a.given
  | _ => false

private def secondIsSeries : MVal → Bool
  | .formula _ (.list [_, .ts _]) _ _ _ => true
  | _ => false

private def paramLength (n : Nat) : MVal → Bool
  | .formula _ _ (.list [.str s]) _ _ | .ts ⟨_, _, .list [.str s], _, _⟩ => s.length == n
  | _ => false

private def filterLength (n : Nat) : MVal → Bool
  | .ts ⟨_, _, _, .list [.cond _ _ (.str s)], _⟩ => s.length == n
  | _ => false

private def mriLength (n : Nat) : MVal → Bool
  | .ts ⟨⟨_, .str s, _⟩, _, _, _, _⟩ => s.length == n
  | _ => false

private def ownFilters : MVal → Bool
  | .formula _ _ _ f _ => f.given
  | _ => false

private def ownGroups : MVal → Bool
  | .formula _ _ _ _ g => g.given
  | _ => false

/-- **C66 fails** for functions that are called by the names of operators, unless they are used as the operators are: one or three
operands are written as a sum of one or three, parameters are not written at all, and a negation has one operand, a query. -/
theorem C66_fails_for_operator_names :
    ChangesWhenPrinted c!"plus(sum(a))" ∧ ChangesWhenPrinted c!"plus(sum(a), sum(b), sum(c))" ∧
    ChangesWhenPrinted c!"plus(0.5)(sum(a), sum(b))" ∧ ChangesWhenPrinted c!"negate(sum(a), sum(b))" ∧ ChangesWhenPrinted c!"negate(5)" ∧
    ChangesWhenPrinted c!"negate(0.5)(sum(a))" :=
  ⟨lost (depth · == 1) (by decide +kernel), lost (depth · == 1) (by decide +kernel), lost hasParams (by decide +kernel),
   lost (fun _ => true) (by decide +kernel), lost (fun _ => true) (by decide +kernel), lost hasParams (by decide +kernel)⟩

/-- **C66 fails** for strings as operands: they are printed without quotes, and may then be metrics. -/
theorem C66_fails_for_string_operands :
    ChangesWhenPrinted c!"ff(sum(a), \"b c\")" ∧ ChangesWhenPrinted c!"ff(sum(a), \"b\")" :=
  ⟨lost (fun _ => true) (by decide +kernel), lost (fun q => !secondIsSeries q) (by decide +kernel)⟩

/-- **C66 fails** for parameters of formulas that need quotes, which are not printed. -/
theorem C66_fails_for_quoted_parameters :
    ChangesWhenPrinted c!"ff(\"a b\")(sum(a))" ∧ ChangesWhenPrinted c!"ff(\"1\")(sum(a), sum(b))" ∧ ChangesWhenPrinted c!"ff(\"\")(sum(a), sum(b))" :=
  ⟨lost (fun _ => true) (by decide +kernel), lost (paramLength 1) (by decide +kernel), lost (paramLength 0) (by decide +kernel)⟩

/-- **C66 fails** for MRIs that need backticks, which are not printed. -/
theorem C66_fails_for_backticks : ChangesWhenPrinted c!"sum(`d:a/(b)@c`)" ∧ ChangesWhenPrinted c!"sum(` d:a/b@c`)" :=
  ⟨lost (fun _ => true) (by decide +kernel), lost (mriLength 8) (by decide +kernel)⟩

/-- **C66 fails** for numbers that Python writes with an exponent, which MQL does not know. -/
theorem C66_fails_for_exponents :
    ChangesWhenPrinted c!"sum(a) * 10000000000000000" ∧ ChangesWhenPrinted c!"sum(a) * 0.00001" ∧ ChangesWhenPrinted c!"quantiles(0.00001)(a)" :=
  ⟨lost (fun _ => true) (by decide +kernel), lost (fun _ => true) (by decide +kernel), lost (fun _ => true) (by decide +kernel)⟩

/-- **C66 fails** for strings with backslashes or line breaks, which the printer escapes and the parser does not restore. -/
theorem C66_fails_for_backslashes :
    ChangesWhenPrinted c!"sum(a){k:b\\c}" ∧ ChangesWhenPrinted c!"sum(a){k:\"b\nc\"}" ∧ ChangesWhenPrinted c!"sum(a){k:b\\*}" ∧
    ChangesWhenPrinted c!"sum(\"a\\b\")(m)" :=
  ⟨lost (filterLength 3) (by decide +kernel), lost (filterLength 3) (by decide +kernel), lost (filterLength 3) (by decide +kernel),
   lost (paramLength 3) (by decide +kernel)⟩

/-- **C66 fails** for the negation with filters or columns of its own, which are printed so that they belong to its operand. -/
theorem C66_fails_for_filtered_negation :
    ChangesWhenPrinted c!"(-(sum(a))){k:\"v\"}" ∧ ChangesWhenPrinted c!"(-(sum(a))) by k" :=
  ⟨lost ownFilters (by decide +kernel), lost ownGroups (by decide +kernel)⟩

end Examples

end Verif
