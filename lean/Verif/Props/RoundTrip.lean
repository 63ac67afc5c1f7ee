import Verif.Lemmas.MqlRoundTrip
import Verif.Lemmas.MqlTrim

/-!
# C38: printing a metrics query and parsing the text
-/

namespace Verif

open Spec

section
variable [U : PyUnicode] [S : RegexSpace] [R : PyRepr]

/-- **C38.** A timeseries or formula that MQL can express (`NormalForm`, which says which names, values and structures those
are) is printed, and parsing the text gives its normal form. Missing: some queries that MQL could express but that
are printed wrongly are not covered, see the theorems on failures below. -/
theorem C38_round_trip_partial (q x : MVal) (h : NormalForm q x) (hq : IsQuery q) :
    ∃ t, paramMql q = .ok t ∧ parseMql t = .ok x := by
  obtain ⟨t, h1, h2⟩ := printed h
  exact ⟨t, h1, parseMql_text (reads_expr h2) (normalForm_query h hq)⟩

/-- **C38.** Queries with the same text have the same normal form. -/
theorem C38_same_text_same_normal_form_partial (q q' x x' : MVal) (h : NormalForm q x) (h' : NormalForm q' x') (hq : IsQuery q)
    (hq' : IsQuery q') (ht : paramMql q = paramMql q') : x = x' := by
  obtain ⟨t, h1, h2⟩ := C38_round_trip_partial q x h hq
  obtain ⟨t', h1', h2'⟩ := C38_round_trip_partial q' x' h' hq'
  rw [h1, h1'] at ht
  cases ht
  rw [h2] at h2'
  cases h2'
  rfl

omit U S R in
theorem addFilters_nil (x : MVal) : addFilters [] x = x := by
  cases x <;> simp only [addFilters]
  · rename_i t; obtain ⟨m, a, p, f, g⟩ := t; cases f <;> simp [prepend]
  · rename_i f g; cases f <;> simp [prepend]

omit U S R in
theorem addGroups_nil (x : MVal) : addGroups [] x = x := by
  cases x <;> simp only [addGroups]
  · rename_i t; obtain ⟨m, a, p, f, g⟩ := t; cases g <;> simp [prepend]
  · rename_i f g; cases g <;> simp [prepend]

omit U R in
theorem filterFor_again {c d : Val} (h : FilterFor c d) : FilterFor d d := by
  induction h with
  | text hk h hp => exact FilterFor.text (c := ⟨_, none, none, none⟩) hk h hp
  | pattern hk h hs => exact FilterFor.pattern (c := ⟨_, none, none, none⟩) hk h hs
  | list hk hne hv h => exact FilterFor.list (c := ⟨_, none, none, none⟩) hk hne (.inl rfl) h
  | @and cls k ps hne h ih =>
    match ps, hne, ih with
    | [p], _, ih => exact ih p (by simp)
    | p :: p' :: ps, _, ih =>
      have := FilterFor.and (cls := .and) (k := .list) (ps := (p :: p' :: ps).map fun p => (p.2, p.2)) (by simp)
        (by simp only [List.mem_map]; rintro _ ⟨q, hq, rfl⟩; exact ih q hq)
      simpa [conj, Function.comp_def] using this
  | @or cls k ps hne h ih =>
    match ps, hne, ih with
    | [p], _, ih => exact ih p (by simp)
    | p :: p' :: ps, _, ih =>
      have := FilterFor.or (cls := .or) (k := .list) (ps := (p :: p' :: ps).map fun p => (p.2, p.2)) (by simp)
        (by simp only [List.mem_map]; rintro _ ⟨q, hq, rfl⟩; exact ih q hq)
      simpa [disj, Function.comp_def] using this

omit U R in
theorem filtersFor_again {v : Val} {fs : List Val} (h : FiltersFor v fs) : FiltersFor (optList fs) fs := by
  cases h with
  | none => exact .none
  | empty _ => exact .none
  | @some _ ps hne hv h =>
    have := FiltersFor.some (ps := [(conj (ps.map (·.2)), conj (ps.map (·.2)))]) (by simp) (.inl rfl) (by
      simp only [List.mem_singleton, forall_eq]
      exact filterFor_again (FilterFor.and (cls := .and) (k := .list) hne h))
    exact this

omit U R in
theorem groupFor_again {v : Val} {gs : List Val} (h : GroupFor v gs) : GroupFor (optList gs) gs := by
  cases h with
  | none => exact .none
  | @some _ cs hne hv h =>
    have := GroupFor.some (v := optList (cs.map fun c => keyColumn c.name)) (cs := cs.map fun c => ⟨c.name, none, none, none⟩) (by simpa using hne)
      (.inl (by cases cs <;> simp_all [optList, keyColumn])) (by
        simp only [List.mem_map]; rintro _ ⟨c, hc, rfl⟩; exact h c hc)
    simpa [Function.comp_def] using this

omit U S R in
theorem ofDecimal_neg {b : Bool} {n : Nat} {p : Int} {d : Dbl} (h : ofDecimal b n p = .fin d) : d.neg = b := by
  unfold ofDecimal roundRat mkDbl at h
  simp only at h
  split at h
  · cases h; rfl
  · split at h <;> cases h
    rfl

omit U R in
theorem paramsFor_again {q : Bool} {v w : Val} (h : ParamsFor q v w) (hp : PlainParams w) : ParamsFor q w w := by
  cases h with
  | none => exact .none
  | empty _ => exact .none
  | @some _ ps hne hv h =>
    have hp' := hp _ rfl
    have := ParamsFor.some (q := q) (v := .list (ps.map (·.2))) (ps := ps.map fun p => (p.2, p.2)) (by simpa using hne)
      (.inl (by simp [Function.comp_def])) (by
        simp only [List.mem_map]
        rintro _ ⟨p, hm, rfl⟩
        have h1 := h p hm
        have h2 := fun f (e : p.2 = .float f) => hp' f (by rw [← e]; exact List.mem_map_of_mem hm)
        obtain ⟨v, w⟩ := p
        simp only at h1 h2 ⊢
        cases h1 with
        | int n =>
          obtain ⟨d, hd, he⟩ := h2 _ rfl
          have hn := ofDecimal_neg hd
          rw [hd] at he ⊢
          exact .float d hn he
        | float d hn he => exact .float d hn he
        | quoted hs => exact .quoted hs
        | bare hb hd => exact .bare hb hd)
    simpa [Function.comp_def] using this

omit U S R in
theorem plain_nested {op : Arith} {x : MVal} {xs : List MVal} (h : PlainNumbers (leftNested op x xs)) :
    PlainNumbers x ∧ ∀ y ∈ xs, PlainNumbers y := by
  induction xs generalizing x with
  | nil => exact ⟨h, by simp⟩
  | cons y ys ih =>
    obtain ⟨h1, h2⟩ := ih (x := .formula (.str op.name) (.list [x, y]) .none .none .none) h
    cases h1 with
    | formula h1 _ => simp only [List.mem_cons, List.not_mem_nil, or_false, forall_eq_or_imp, forall_eq] at h1 ⊢; exact ⟨h1.1, h1.2, h2⟩

omit U S R in
theorem plain_suffix {x : MVal} {fs gs : List Val} (h : PlainNumbers (addGroups gs (addFilters fs x))) : PlainNumbers x := by
  cases x with
  | ts t => cases h with
    | timeseries h => exact .timeseries h
  | formula n p a f g => cases h with
    | formula h ha => exact .formula h ha
  | _ => exact h

omit U R in
theorem normal_nested {op : Arith} {x : MVal} {xs : List MVal} (h : NormalForm x x) (hs : ∀ y ∈ xs, NormalForm y y) :
    NormalForm (leftNested op x xs) (leftNested op x xs) := by
  induction xs generalizing x with
  | nil => exact h
  | cons y ys ih =>
    simp only [List.mem_cons, forall_eq_or_imp] at hs
    refine ih (x := .formula (.str op.name) (.list [x, y]) .none .none .none) ?_ hs.2
    have := NormalForm.arithmetic (op := op) (p := (x, x)) (ps := [(y, y)]) (by simp) (.inl rfl) h (by simpa using hs.1)
      .none .none .none
    rw [addFilters_nil, addGroups_nil] at this
    exact this

omit U R in
/-- The normal form is its own normal form, unless a number is so large or small that it is written with an exponent. -/
theorem normal_again {q x : MVal} (h : NormalForm q x) (hp : PlainNumbers x) : NormalForm x x := by
  induction h with
  | number h =>
    cases hp with
    | number hp =>
      obtain ⟨d, rfl, he⟩ := hp
      exact .number (.float d he)
  | timeseries hm ha hps hf hg =>
    cases hp with
    | timeseries hp =>
      refine .timeseries ?_ ha (paramsFor_again hps hp) (filtersFor_again hf) (groupFor_again hg)
      cases hm with
      | mri h hs => exact .mri h hs
      | pub h => exact .pub h
  | @arithmetic op xs a f g p ps fs gs hne hxs h hs ha hf hg ih ihs =>
    have hp := plain_nested (plain_suffix hp)
    have hys : ∀ y ∈ ps.map (·.2), NormalForm y y := by
      simp only [List.mem_map]
      rintro _ ⟨r, hr, rfl⟩
      exact ihs r hr (hp.2 _ (List.mem_map_of_mem hr))
    have hne' : ps.map (·.2) ≠ [] := by simpa using hne
    generalize ps.map (·.2) = ys at hys hne'
    obtain ⟨zs, z, rfl⟩ : ∃ zs z, ys = zs ++ [z] := ⟨_, _, (List.dropLast_concat_getLast hne').symm⟩
    have hz : NormalForm (leftNested op p.2 zs) (leftNested op p.2 zs) := normal_nested (ih hp.1) fun y hy => hys y (by simp [hy])
    have := NormalForm.arithmetic (op := op) (p := (leftNested op p.2 zs, leftNested op p.2 zs)) (ps := [(z, z)]) (by simp) (.inl rfl) hz
      (by simpa using hys z (by simp)) (a := .none) .none (filtersFor_again hf) (groupFor_again hg)
    simpa [leftNested, addFilters, addGroups, prepend_none] using this
  | @function n xs a a' f g p ps fs gs hn hi hneg hxs h hagg hs ha hf hg ih ihs =>
    cases hp with
    | formula hp hap =>
      have := NormalForm.function (p := (p.2, p.2)) (ps := ps.map fun p => (p.2, p.2)) (xs := .list ((p :: ps).map (·.2))) hn hi hneg
        (.inl (by simp [Function.comp_def])) (ih (hp _ (by simp))) (normalForm_aggregated h hagg) (by
          simp only [List.mem_map]
          rintro _ ⟨r, hr, rfl⟩
          exact ihs r hr (hp _ (by simp only [List.map_cons, List.mem_cons, List.mem_map]; exact .inr ⟨r, hr, rfl⟩)))
        (paramsFor_again ha hap) (filtersFor_again hf) (groupFor_again hg)
      simpa [Function.comp_def] using this
  | negation hxs h hq ha hf ih =>
    cases hp with
    | formula hp hap => exact .negation (.inl rfl) (ih (hp _ (by simp))) (normalForm_query h hq) .none .none

/-- **C38.** What has once been printed and parsed stays the same when it is printed and parsed again, unless a number is
so large or small that it is written with an exponent. -/
theorem C38_second_round_trip_partial (q x : MVal) (h : NormalForm q x) (hq : IsQuery q) (hp : PlainNumbers x) :
    ∃ t t', paramMql q = .ok t ∧ parseMql t = .ok x ∧ paramMql x = .ok t' ∧ parseMql t' = .ok x := by
  obtain ⟨t, h1, h2⟩ := C38_round_trip_partial q x h hq
  obtain ⟨t', h3, h4⟩ := C38_round_trip_partial x x (normal_again h hp) (normalForm_query h hq)
  exact ⟨t, t', h1, h2, h3, h4⟩

end

section Examples

local instance exTripUnicode : PyUnicode := asciiUnicode
local instance exTripSpace : RegexSpace := pySpace
local instance exTripRepr : PyRepr := ⟨fun _ => []⟩

private def exTripColumn (k : Str) : Val := .column ⟨k, some ⟨c!"e", none, none, none⟩, none, none⟩

/-- `quantiles(0.5, "a b")(d:t/x@ms){!k:["p", "q\""] AND (a.b:"x" OR c:"y*")} by (g, h)`. -/
private def exTripSeries : MVal :=
  .ts ⟨⟨.str c!"other", .str c!"d:t/x@ms", .int 5⟩, .str c!"quantiles", .list [.float (.fin ⟨false, 1, -1, rfl⟩), .str c!"a b"],
    .list [.cond (exTripColumn c!"k") .notIn (.tuple [.str c!"p", .str c!"q\""]),
      .boolCond .base .or .tuple [.cond (exTripColumn c!"a.b") .eq (.str c!"x"), .cond (exTripColumn c!"c") .like (.str c!"y*")]],
    .list [exTripColumn c!"g", exTripColumn c!"h"]⟩

private def exTripSeries' : MVal :=
  .ts ⟨⟨.none, .str c!"d:t/x@ms", .none⟩, .str c!"quantiles", .list [.float (.fin ⟨false, 1, -1, rfl⟩), .str c!"a b"],
    .list [.boolCond .and .and .list [.cond (keyColumn c!"k") .notIn (.list [.str c!"p", .str c!"q\""]),
      .boolCond .or .or .list [.cond (keyColumn c!"a.b") .eq (.str c!"x"), .cond (keyColumn c!"c") .like (.str c!"y*")]]],
    .list [keyColumn c!"g", keyColumn c!"h"]⟩

private theorem exTripKey (k : Str) (h : k ≠ [] ∧ (∀ c ∈ k, (isAlpha c || isDigit c || c == '_' || c == '.') = true) ∧
    ∀ c ∈ k.head?, (isAlpha c || c == '_') = true) : KeyText k := ⟨h.1, h.2.1, h.2.2⟩

private theorem exTripSeries_normal : NormalForm exTripSeries exTripSeries' := by
  have hor : FilterFor (.boolCond .base .or .tuple [.cond (exTripColumn c!"a.b") .eq (.str c!"x"), .cond (exTripColumn c!"c") .like (.str c!"y*")])
      (.boolCond .or .or .list [.cond (keyColumn c!"a.b") .eq (.str c!"x"), .cond (keyColumn c!"c") .like (.str c!"y*")]) := by
    refine FilterFor.or (ps := [(_, _), (_, _)]) (by simp) ?_
    simp only [List.mem_cons, List.not_mem_nil, or_false, forall_eq_or_imp, forall_eq]
    refine ⟨FilterFor.text (neg := false) (s := c!"x") (exTripKey _ (by decide)) ⟨by decide, by decide⟩ ?_,
      FilterFor.pattern (neg := false) (u := c!"y") (exTripKey _ (by decide)) ⟨by simp, by decide⟩ (by decide)⟩
    intro u _ he
    have := congrArg List.getLast? he
    simp at this
  have hin : FilterFor (.cond (exTripColumn c!"k") .notIn (.tuple [.str c!"p", .str c!"q\""]))
      (.cond (keyColumn c!"k") .notIn (.list [.str c!"p", .str c!"q\""])) :=
    FilterFor.list (neg := true) (ss := [c!"p", c!"q\""]) (exTripKey _ (by decide)) (by simp) (.inr rfl) (by unfold SafeText; decide)
  refine .timeseries (fs := [.boolCond .and .and .list _]) (gs := [_, _]) (.mri ⟨c!"d", c!"t", c!"x", c!"ms", rfl, by decide⟩ (by decide))
    ⟨by simp, by decide, by decide⟩
    (.some (ps := [(_, _), (_, _)]) (by simp) (.inl rfl) ?_) (.some (ps := [(_, _), (_, _)]) (by simp) (.inl rfl) ?_)
    (.some (cs := [⟨c!"g", _, none, none⟩, ⟨c!"h", _, none, none⟩]) (by simp) (.inl rfl) ?_)
  · simp only [List.mem_cons, List.not_mem_nil, or_false, forall_eq_or_imp, forall_eq]
    exact ⟨.float _ rfl (by decide +kernel), .quoted ⟨by decide, by decide⟩⟩
  · simp only [List.mem_cons, List.not_mem_nil, or_false, forall_eq_or_imp, forall_eq]
    exact ⟨hin, hor⟩
  · simp only [List.mem_cons, List.not_mem_nil, or_false, forall_eq_or_imp, forall_eq]
    exact ⟨exTripKey _ (by decide), exTripKey _ (by decide)⟩

/-- `(<series> + -2 + -(sum(m)) + f(sum(m), 3.5)){a:"x"}`: the numbers become floats, and the sum is nested to the left. -/
private def exTripFormula : MVal :=
  .formula (.str c!"plus") (.tuple [exTripSeries, .val (.int (-2)),
    .formula (.str c!"negate") (.list [.ts ⟨⟨.str c!"m", .none, .none⟩, .str c!"sum", .list [], .none, .none⟩]) .none .none .none,
    .formula (.str c!"f") (.list [.ts ⟨⟨.str c!"m", .none, .none⟩, .str c!"sum", .none, .list [], .none⟩, .val (.float (.fin ⟨false, 7, -1, rfl⟩))])
      .none .none .none]) .none (.list [.cond (exTripColumn c!"a") .eq (.str c!"x")]) .none

private def exTripFormula' : MVal :=
  .formula (.str c!"plus") (.list [
    .formula (.str c!"plus") (.list [
      .formula (.str c!"plus") (.list [exTripSeries', .val (.float (ofDecimal true 2 0))]) .none .none .none,
      .formula (.str c!"negate") (.list [.ts ⟨⟨.str c!"m", .none, .none⟩, .str c!"sum", .none, .none, .none⟩]) .none .none .none]) .none .none .none,
    .formula (.str c!"f") (.list [.ts ⟨⟨.str c!"m", .none, .none⟩, .str c!"sum", .none, .none, .none⟩, .val (.float (.fin ⟨false, 7, -1, rfl⟩))])
      .none .none .none]) .none (.list [.cond (keyColumn c!"a") .eq (.str c!"x")]) .none

private theorem exTripSum (ps f : Val) (hp : ParamsFor true ps .none) (hf : FiltersFor f []) :
    NormalForm (.ts ⟨⟨.str c!"m", .none, .none⟩, .str c!"sum", ps, f, .none⟩) (.ts ⟨⟨.str c!"m", .none, .none⟩, .str c!"sum", .none, .none, .none⟩) :=
  .timeseries (.pub ⟨c!"m", [], by simp, ⟨by simp, by decide⟩, by simp⟩) ⟨by simp, by decide, by decide⟩ hp hf .none

private theorem exTripFormula_normal : NormalForm exTripFormula exTripFormula' := by
  have h := NormalForm.arithmetic (op := .plus) (p := (exTripSeries, exTripSeries')) (ps := [(.val (.int (-2)), .val (.float (ofDecimal true 2 0))),
      (.formula (.str c!"negate") (.list [.ts ⟨⟨.str c!"m", .none, .none⟩, .str c!"sum", .list [], .none, .none⟩]) .none .none .none,
        .formula (.str c!"negate") (.list [.ts ⟨⟨.str c!"m", .none, .none⟩, .str c!"sum", .none, .none, .none⟩]) .none .none .none),
      (.formula (.str c!"f") (.list [.ts ⟨⟨.str c!"m", .none, .none⟩, .str c!"sum", .none, .list [], .none⟩, .val (.float (.fin ⟨false, 7, -1, rfl⟩))])
        .none .none .none,
       .formula (.str c!"f") (.list [.ts ⟨⟨.str c!"m", .none, .none⟩, .str c!"sum", .none, .none, .none⟩, .val (.float (.fin ⟨false, 7, -1, rfl⟩))])
        .none .none .none)]) (a := .none) (f := .list [.cond (exTripColumn c!"a") .eq (.str c!"x")]) (g := .none)
    (fs := [.cond (keyColumn c!"a") .eq (.str c!"x")]) (gs := [])
    (by simp) (.inr rfl) exTripSeries_normal ?_ .none ?_ .none
  · exact h
  · simp only [List.mem_cons, List.not_mem_nil, or_false, forall_eq_or_imp, forall_eq]
    refine ⟨.number (.int (-2)), .negation (.inl rfl) (exTripSum _ _ (.empty (.inl rfl)) .none) trivial .none .none, ?_⟩
    refine .function (p := (_, _)) (ps := [(_, _)]) (fs := []) (gs := []) ⟨by simp, by decide, by decide⟩ (by intro op; cases op <;> decide) (by decide) (.inl rfl)
      (exTripSum _ _ .none (.empty (.inl rfl))) (by simp [Aggregated]) ?_ .none .none .none
    simp only [List.mem_singleton, forall_eq]
    exact .number (.float _ (by decide +kernel))
  · refine .some (ps := [(_, _)]) (by simp) (.inl rfl) ?_
    simp only [List.mem_singleton, forall_eq]
    refine FilterFor.text (neg := false) (s := c!"x") (exTripKey _ (by decide)) ⟨by decide, by decide⟩ ?_
    intro u _ he
    have := congrArg List.getLast? he
    simp at this

example : ∃ t, paramMql exTripFormula = .ok t ∧ parseMql t = .ok exTripFormula' :=
  C38_round_trip_partial _ _ exTripFormula_normal trivial

example : paramMql exTripSeries = .ok c!"quantiles(0.5, \"a b\")(d:t/x@ms){!k:[\"p\", \"q\\\"\"] AND (a.b:\"x\" OR c:\"y*\")} by (g, h)" := by
  decide +kernel

/-- The round trip fails for the query that the text denotes: the query is printed, and the text is not parsed, or the
property `p` of the query is lost. -/
private def lostBy (p : MVal → Bool) (text : Str) : Bool :=
  match parseMql text with
  | .error _ => false
  | .ok q =>
    match paramMql q with
    | .error _ => false
    | .ok t =>
      match parseMql t with
      | .error _ => true
      | .ok q' => p q && !p q'

private theorem lost {p : MVal → Bool} {text : Str} (h : lostBy p text = true) :
    ∃ q t, parseMql text = .ok q ∧ paramMql q = .ok t ∧ parseMql t ≠ .ok q := by
  unfold lostBy at h
  split at h
  · cases h
  · rename_i q hq
    split at h
    · cases h
    · rename_i t ht
      refine ⟨q, t, hq, ht, fun e => ?_⟩
      rw [e] at h
      simp at h

/-- The query has filters of its own. -/
private def hasFilters : MVal → Bool
  | .formula _ _ _ f _ => f.given
  | _ => false

/-- The query has columns of its own. -/
private def hasGroups : MVal → Bool
  | .formula _ _ _ _ g => g.given
  | _ => false

/-- The filter compares with a string of the length. -/
private def filterLength (n : Nat) : MVal → Bool
  | .ts ⟨_, _, _, .list [.cond _ _ (.str s)], _⟩ => s.length == n
  | _ => false

/-- **C38 fails** for the unary minus with filters or columns of its own: they are printed so that they belong to the
operand. -/
theorem C38_fails_for_filtered_negation :
    (∃ q t, parseMql c!"(-(sum(a))){k:\"v\"}" = .ok q ∧ paramMql q = .ok t ∧ parseMql t ≠ .ok q) ∧
    ∃ q t, parseMql c!"(-(sum(a))) by k" = .ok q ∧ paramMql q = .ok t ∧ parseMql t ≠ .ok q :=
  ⟨lost (p := hasFilters) (by decide +kernel), lost (p := hasGroups) (by decide +kernel)⟩

/-- **C38 fails** for numbers that Python writes with an exponent, which MQL does not know. -/
theorem C38_fails_for_exponents :
    (∃ q t, parseMql c!"sum(a) * 10000000000000000" = .ok q ∧ paramMql q = .ok t ∧ parseMql t ≠ .ok q) ∧
    ∃ q t, parseMql c!"sum(a) * 0.00001" = .ok q ∧ paramMql q = .ok t ∧ parseMql t ≠ .ok q :=
  ⟨lost (p := fun _ => true) (by decide +kernel), lost (p := fun _ => true) (by decide +kernel)⟩

/-- **C38 fails** for strings as parameters of formulas, which are printed without quotes. -/
theorem C38_fails_for_quoted_formula_parameters :
    ∃ q t, parseMql c!"f(\"a b\")(sum(a))" = .ok q ∧ paramMql q = .ok t ∧ parseMql t ≠ .ok q :=
  lost (p := fun _ => true) (by decide +kernel)

/-- **C38 fails** for MRIs that need backticks, which are printed without them. -/
theorem C38_fails_for_backticks :
    ∃ q t, parseMql c!"sum(`d:a/(b)@c`)" = .ok q ∧ paramMql q = .ok t ∧ parseMql t ≠ .ok q :=
  lost (p := fun _ => true) (by decide +kernel)

/-- **C38 fails** for strings with backslashes, which the printer doubles and the parser does not halve. -/
theorem C38_fails_for_backslashes :
    ∃ q t, parseMql c!"sum(a){k:b\\c}" = .ok q ∧ paramMql q = .ok t ∧ parseMql t ≠ .ok q :=
  lost (p := filterLength 3) (by decide +kernel)

end Examples

end Verif
