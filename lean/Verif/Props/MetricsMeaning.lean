import Verif.Lemmas.MetricsMeaning
import Verif.Props.MqlPrintBack
import Verif.Props.MetricsText
import Verif.Props.RequestJson

/-!
# C71: the recipient of a metrics request finds the query that was meant
-/

namespace Verif

open Spec

section
variable [S : RegexSpace]

theorem filterFor_eq {l r d : Val} (h : FilterFor (.cond l .eq r) d) : ∃ c s, l = .column c ∧ r = .str s ∧ KeyText c.name ∧ SafeText s := by
  generalize hx : Val.cond l .eq r = x at h
  cases h with
  | @text c neg s hk h hp =>
    cases neg with
    | false => cases hx; exact ⟨c, s, rfl, rfl, hk, h⟩
    | true => cases hx
  | @pattern c neg u hk h hs => cases neg <;> cases hx
  | @list c neg v ss hk hne hv h => cases neg <;> cases hx
  | and | or => cases hx

theorem collectRhs_for {c : ColumnObj} {Row D T : Type} (W : Store Row D T) : ∀ {ps : List (Val × Val)} {rs : List Val},
    (∀ p ∈ ps, FilterFor p.1 p.2) → collectRhs (.column c) (ps.map (·.1)) = some rs →
      ∃ ss : List Str, rs = ss.map .str ∧ (∀ s ∈ ss, SafeText s) ∧
        W.filters (ps.map (·.1)) = some (ss.map fun s r => W.eq (W.tag r c.name) (W.text s))
  | [], rs, _, h => by cases h; exact ⟨[], rfl, by simp, rfl⟩
  | p :: ps, rs, hp, h => by
    have hp0 := hp p (by simp)
    simp only [List.map_cons] at h ⊢
    generalize hx : p.1 = x at h hp0
    cases x with
    | cond l o r =>
      simp only [collectRhs] at h
      split at h
      · cases h
      · rename_i hn
        simp only [Option.map_eq_some_iff] at h
        obtain ⟨rs', h, rfl⟩ := h
        obtain ⟨ss, rfl, hss, hf⟩ := collectRhs_for W (fun q hq => hp q (by simp [hq])) h
        simp only [ne_eq, Bool.or_eq_true, decide_eq_true_eq, Bool.and_eq_true, Bool.not_eq_true', not_or, Decidable.not_not] at hn
        obtain ⟨rfl, hn⟩ := hn
        obtain ⟨c', s, rfl, rfl, _, hs⟩ := filterFor_eq hp0
        have he : pyEq (.column c') (.column c) = true := by
          cases hq : pyEq (.column c') (.column c) with
          | true => rfl
          | false => exact absurd ⟨rfl, hq⟩ hn
        have hc : c'.name = c.name := by
          simp only [pyEq, ColumnObj.pyEq, Bool.and_eq_true, beq_iff_eq] at he
          exact he.1.1.1
        refine ⟨s :: ss, rfl, ?_, ?_⟩
        · intro t ht
          rcases List.mem_cons.1 ht with rfl | ht
          · exact hs
          · exact hss t ht
        · simp only [Store.filters, Store.filter, Store.comparison, Option.map_some, Option.bind_some, hf, hc, List.map_cons]
    | _ => simp [collectRhs] at h

/-- What the optimiser makes of a filter that MQL can express can be expressed, and holds for the same rows. -/
theorem optimizeCondition_for {Row D T : Type} (W : Store Row D T) {c d c' : Val} (h : FilterFor c d) (ho : optimizeCondition c = .ok (some c')) :
    ∃ d', FilterFor c' d' ∧ SameFilter W c c' := by
  cases h with
  | @or cls k ps hne h =>
    match ps, h with
    | [], _ => exact absurd rfl hne
    | p :: ps, h =>
      have hp := h p (by simp)
      simp only [List.map_cons, optimizeCondition] at ho
      split at ho
      · rename_i l r rest heq
        simp only [List.cons.injEq] at heq
        obtain ⟨e, rfl⟩ := heq
        rw [e] at hp
        obtain ⟨c, s, rfl, rfl, hk, hs⟩ := filterFor_eq hp
        split at ho
        · cases ho
        · rename_i rs hc
          obtain ⟨ss, rfl, hss, hf⟩ := collectRhs_for W (fun q hq => h q (by simp [hq])) hc
          rw [bind_eq_ok] at ho
          obtain ⟨x, hx, ho⟩ := ho
          cases ho
          obtain ⟨o, ho, _, _, _, rfl⟩ := (C11_condition_accepts_iff _ _ _ _).1 hx
          cases ho
          have hl : ∀ t ∈ s :: ss, SafeText t := by
            intro t ht
            rcases List.mem_cons.1 ht with rfl | ht
            · exact hs
            · exact hss t ht
          refine ⟨_, FilterFor.list (neg := false) (ss := s :: ss) hk (by simp) (.inl rfl) hl, ?_⟩
          refine ⟨fun r => Tri.any ((s :: ss).map fun s => W.eq (W.tag r c.name) (W.text s)), ?_, ?_⟩
          · simp only [List.map_cons, e, Store.filter, Store.filters, Store.comparison, Option.map_some, Option.bind_some, hf, List.map_map,
              Function.comp_def]
          · have : textsOf (.list (.str s :: ss.map .str)) = some (s :: ss) := textsOf_strs (.inl rfl)
            simp only [Store.filter, Store.comparison, this, Option.map_some]
      · cases ho
  | _ => simp [optimizeCondition] at ho

theorem optimizeLoop_for {Row D T : Type} (W : Store Row D T) : ∀ {ps : List (Val × Val)} {new : List Val} {b : Bool},
    (∀ p ∈ ps, FilterFor p.1 p.2) → optimizeLoop (ps.map (·.1)) = .ok (new, b) →
      ∃ qs : List (Val × Val), new = qs.map (·.1) ∧ (∀ p ∈ qs, FilterFor p.1 p.2) ∧ qs.length = ps.length ∧
        ∃ fs, W.filters (ps.map (·.1)) = some fs ∧ W.filters new = some fs
  | [], new, b, _, h => by cases h; exact ⟨[], rfl, by simp, rfl, [], rfl, rfl⟩
  | p :: ps, new, b, hp, h => by
    simp only [List.map_cons, optimizeLoop, bind_eq_ok] at h
    obtain ⟨res, hres, ⟨rest, opt⟩, hrest, h⟩ := h
    obtain ⟨qs, rfl, h1, h2, fs, h3, h4⟩ := optimizeLoop_for W (fun q hq => hp q (by simp [hq])) hrest
    cases res with
    | none =>
      cases h
      obtain ⟨f, hf, _⟩ := filterFor_same W (hp p (by simp))
      refine ⟨p :: qs, rfl, ?_, by simp [h2], f :: fs, by simp [Store.filters, hf, h3], by simp [Store.filters, hf, h4]⟩
      intro q hq
      rcases List.mem_cons.1 hq with rfl | hq
      · exact hp q (by simp)
      · exact h1 q hq
    | some n =>
      cases h
      obtain ⟨d, hd, f, hf, hf'⟩ := optimizeCondition_for W (hp p (by simp)) hres
      refine ⟨(n, d) :: qs, rfl, ?_, by simp [h2], f :: fs, by simp [Store.filters, hf, h3], by simp [Store.filters, hf', h4]⟩
      intro q hq
      rcases List.mem_cons.1 hq with rfl | hq
      · exact hd
      · exact h1 q hq

theorem optimizeFilters_for {Row D T : Type} (W : Store Row D T) {v v' : Val} {fs : List Val} (h : FiltersFor v fs)
    (ho : optimizeFilters v = .ok (some v')) : fs ≠ [] ∧ ∃ fs', FiltersFor v' fs' ∧ W.rows v = W.rows v' := by
  have key : ∀ xs, SeqFor v xs → ∃ new, optimizeLoop xs = .ok (new, true) ∧ v' = .list new := by
    intro xs hv
    have hi : iterItems v = .ok xs ∧ v.given = true := by rcases hv with rfl | rfl <;> exact ⟨rfl, rfl⟩
    simp only [optimizeFilters, hi.2, if_true, hi.1, ok_bind, optimize, bind_eq_ok, Except.ok.injEq] at ho
    obtain ⟨r, ⟨⟨new, b⟩, hl, hr⟩, ho⟩ := ho
    cases b with
    | false => simp at hr; subst hr; cases ho
    | true => simp at hr; subst hr; cases ho; exact ⟨new, hl, rfl⟩
  cases h with
  | none => simp [optimizeFilters, Val.given] at ho
  | empty hv =>
    obtain ⟨new, hl, _⟩ := key [] hv
    cases hl
  | @some _ ps hne hv h =>
    refine ⟨by simp, ?_⟩
    obtain ⟨new, hl, rfl⟩ := key _ hv
    obtain ⟨qs, rfl, h1, h2, gs, h3, h4⟩ := optimizeLoop_for W h hl
    refine ⟨_, .some (ps := qs) ?_ (.inl rfl) h1, ?_⟩
    · rintro rfl
      cases ps with
      | nil => exact hne rfl
      | cons _ _ => simp at h2
    · rcases hv with rfl | rfl <;> simp only [Store.rows, h3, h4]

/-- What the optimiser makes of a query that MQL can express can be expressed, and asks for the same. -/
theorem optimizeQuery_for {Row D T : Type} (W : Store Row D T) {q x q' : MVal} (h : NormalForm q x) (hq : IsQuery q)
    (ho : optimizeQuery q = .ok q') : IsQuery q' ∧ ∃ x', NormalForm q' x' ∧ ∀ f g, W.denote f g q = W.denote f g q' := by
  cases h with
  | number h => cases hq
  | @timeseries m o a ps ps' f g fs gs hm ha hp hf hg =>
    simp only [optimizeQuery, bind_eq_ok] at ho
    obtain ⟨r, hr, t, ht, ho⟩ := ho
    cases ho
    cases r with
    | none => cases ht; exact ⟨trivial, _, .timeseries hm ha hp hf hg, fun _ _ => rfl⟩
    | some v =>
      obtain ⟨_, hm', rfl, _⟩ := (C32_timeseries_iff _ _ _ _ _ _).1 ht
      cases hm'
      obtain ⟨_, fs', h1, h2⟩ := optimizeFilters_for W hf hr
      exact ⟨trivial, _, .timeseries hm ha hp h1 hg, fun _ _ => by simp only [Store.denote, h2]⟩
  | @arithmetic op xs a f g p ps fs gs hne hxs h hs ha hf hg =>
    simp only [optimizeQuery, bind_eq_ok] at ho
    obtain ⟨r, hr, ho⟩ := ho
    cases ho
    cases r with
    | none => exact ⟨trivial, _, .arithmetic hne hxs h hs ha hf hg, fun _ _ => rfl⟩
    | some v =>
      obtain ⟨_, fs', h1, h2⟩ := optimizeFilters_for W hf hr
      exact ⟨trivial, _, .arithmetic hne hxs h hs ha h1 hg, fun _ _ => by simp only [Store.denote, h2, Option.getD_some]⟩
  | @function n xs a a' f g p ps fs gs hn hi hneg hxs h hagg hs ha hf hg =>
    simp only [optimizeQuery, bind_eq_ok] at ho
    obtain ⟨r, hr, ho⟩ := ho
    cases ho
    cases r with
    | none => exact ⟨trivial, _, .function hn hi hneg hxs h hagg hs ha hf hg, fun _ _ => rfl⟩
    | some v =>
      obtain ⟨_, fs', h1, h2⟩ := optimizeFilters_for W hf hr
      exact ⟨trivial, _, .function hn hi hneg hxs h hagg hs ha h1 hg, fun _ _ => by simp only [Store.denote, h2, Option.getD_some]⟩
  | @negation xs a f x x' hxs h hx ha hf =>
    simp only [optimizeQuery, bind_eq_ok] at ho
    obtain ⟨r, hr, ho⟩ := ho
    cases ho
    cases r with
    | none => exact ⟨trivial, _, .negation hxs h hx ha hf, fun _ _ => rfl⟩
    | some v => exact absurd rfl (optimizeFilters_for W hf hr).1

end

theorem standsFor_lookup {kvs : List (Str × Data)} {js : List (Str × Json)} (hk : kvs.map (·.1) = js.map (·.1))
    (hs : ∀ p ∈ kvs.zip js, StandsFor p.1.2 p.2.2) (hn : (kvs.map (·.1)).Nodup) {k : Str} {x : Data} (hx : (k, x) ∈ kvs) :
    ∃ j, js.lookup k = some j ∧ StandsFor x j := by
  induction kvs generalizing js with
  | nil => cases hx
  | cons p kvs ih =>
    cases js with
    | nil => simp at hk
    | cons u js =>
      simp only [List.map_cons, List.cons.injEq] at hk
      simp only [List.map_cons, List.nodup_cons] at hn
      simp only [List.zip_cons_cons, List.mem_cons, forall_eq_or_imp] at hs
      obtain ⟨uk, uj⟩ := u
      rcases List.mem_cons.1 hx with rfl | hx
      · refine ⟨uj, ?_, hs.1⟩
        simp only at hk
        simp [List.lookup, hk.1]
      · obtain ⟨j, h1, h2⟩ := ih hk.2 hs.2 hn.2 hx
        refine ⟨j, ?_, h2⟩
        have : k ≠ uk := by
          rintro rfl
          exact hn.1 (List.mem_map.2 ⟨_, hx, hk.1.symm⟩)
        simp only [List.lookup, beq_eq_false_iff_ne.2 this, h1]

section
variable [U : PyUnicode] [S : RegexSpace] [R : PyRepr]

/-- What the recipient of a request for metrics finds in it. -/
theorem metrics_found {r : RequestObj} {q : MetricsQueryObj} {t : Str} (hr : r.query = .metrics q) (h : r.serialize = .ok t) :
    ∃ kvs v text ctx j c, optimizeQuery q.query = .ok v ∧ queryMql v = .ok text ∧ readJsonText true t = some (.obj kvs) ∧
      kvs.lookup c!"query" = some (.str text) ∧ kvs.lookup c!"mql_context" = some j ∧ StandsFor ctx j ∧ readContext ctx = some c ∧
      Describes c q := by
  obtain ⟨d, j0, hd, hs, hj, _⟩ := C46_decodes r t h
  obtain ⟨_, kvs0, rfl, hp⟩ := C44_to_dict r d hd
  obtain ⟨_, x, hx⟩ := (C44_succeeds_iff r).1 ⟨_, hd⟩
  have hser : ∃ kvs, q.serialize.1 = .ok (.dict kvs) := by
    rw [hr] at hx
    cases hx with
    | metrics _ kvs _ h1 _ => exact ⟨kvs, h1⟩
  obtain ⟨kvs, hser⟩ := hser
  have hser' := hser
  unfold MetricsQueryObj.serialize at hser'
  cases hv : q.validate with
  | error e => rw [hv] at hser'; cases hser'
  | ok u =>
    rw [hv] at hser'
    simp only at hser'
    cases ho : optimizeQuery q.query with
    | error e => rw [ho] at hser'; cases hser'
    | ok v =>
      rw [ho] at hser'
      simp only at hser'
      have hc : checkQuery q.query = .ok () := by
        unfold MetricsQueryObj.validate at hv
        simp only [bind_eq_ok] at hv
        obtain ⟨_, hv, _⟩ := hv
        exact hv
      have hv' : ({ q with query := v } : MetricsQueryObj).validate = .ok () := by
        have h1 := (optimizeQuery_again hc ho).1
        unfold MetricsQueryObj.validate at hv ⊢
        rw [hc] at hv
        simp only [h1]
        exact hv
      obtain ⟨text, cx, c, h1, h2, _, h4, h5⟩ := C36_context _ _ hv' hser'
      cases h2
      have m1 : (c!"query", Data.val (.str text)) ∈ kvs0 := by
        rw [hp.entries]
        refine .query _ ?_
        rw [hr]
        exact .metrics _ _ _ hser (by simp)
      have m2 : (c!"mql_context", Data.dict cx) ∈ kvs0 := by
        rw [hp.entries]
        exact .context q _ _ hr hser (by simp)
      cases hs with
      | dict _ js hk hs =>
        obtain ⟨j1, l1, s1⟩ := standsFor_lookup hk hs hp.nodup m1
        obtain ⟨j2, l2, s2⟩ := standsFor_lookup hk hs hp.nodup m2
        have : j1 = .str text := by
          cases s1 with
          | val _ _ h => cases h; rfl
        subst this
        exact ⟨js, v, text, .dict cx, j2, c, rfl, h1, hj, l1, l2, s2, h4,
          ⟨h5.start, h5.end_, h5.rollup, h5.scope, h5.limit, h5.offset, h5.extrapolate, h5.mappings⟩⟩

/-- **C71** (texts): a query that MQL can express is printed, and what is read from the text asks for the same, over every store. -/
theorem C71_printed (q x : MVal) (h : NormalForm q x) (hq : IsQuery q) :
    ∃ t y, queryMql q = .ok t ∧ parseMql t = .ok y ∧
      ∀ {Row D T : Type} (W : Store Row D T), ∃ d, W.asks q = some d ∧ W.asks y = some d := by
  obtain ⟨t, h1, h2⟩ := C38_round_trip_partial q x h hq
  refine ⟨t, x, ?_, h2, fun W => normalForm_same W h _ _⟩
  cases q with
  | ts | formula => exact h1
  | _ => cases hq

/-- **C71.** Whoever receives the text of a request with a metrics query that MQL can express, decodes it as JSON, takes the text
under `query` and parses it as MQL, has a query that asks for the same as the one that was sent, over every store; and under
`mql_context` they find the time range, rollup, scope, limit, offset, extrapolation and mappings. -/
theorem C71_sent (r : RequestObj) (q : MetricsQueryObj) (x : MVal) (t : Str) (hr : r.query = .metrics q) (hx : NormalForm q.query x)
    (hq : IsQuery q.query) (h : r.serialize = .ok t) :
    ∃ kvs text y ctx j c, readJsonText true t = some (.obj kvs) ∧
      kvs.lookup c!"query" = some (.str text) ∧ parseMql text = .ok y ∧
      (∀ {Row D T : Type} (W : Store Row D T), ∃ d, W.asks q.query = some d ∧ W.asks y = some d) ∧
      kvs.lookup c!"mql_context" = some j ∧ StandsFor ctx j ∧ readContext ctx = some c ∧ Describes c q := by
  obtain ⟨kvs, v, text, ctx, j, c, ho, hm, hj, l1, l2, s2, h4, h5⟩ := metrics_found hr h
  obtain ⟨hq', x', hx', _⟩ := optimizeQuery_for (⟨fun _ _ => (), fun _ => (), fun _ _ => .yes, fun _ _ => .yes, fun _ _ _ _ _ => (),
    fun _ => (), fun _ _ _ => ()⟩ : Store Unit Unit Unit) hx hq ho
  obtain ⟨t', y, h1, h2, _⟩ := C71_printed v x' hx' hq'
  rw [hm] at h1
  cases h1
  refine ⟨kvs, text, y, ctx, j, c, hj, l1, h2, fun {Row D T} W => ?_, l2, s2, h4, h5⟩
  obtain ⟨t'', y', h1', h2', h3'⟩ := C71_printed v x' hx' hq'
  rw [hm] at h1'
  cases h1'
  rw [h2] at h2'
  cases h2'
  obtain ⟨d, d1, d2⟩ := h3' W
  obtain ⟨_, _, _, hW⟩ := optimizeQuery_for W hx hq ho
  exact ⟨d, by unfold Store.asks; rw [hW]; exact d1, d2⟩

/-- **C71** (queries given as text): if the query is a text that the parser accepts, without parts of the kinds that C66 excludes,
what is sent asks for the same as that text. -/
theorem C71_sent_text (r : RequestObj) (q : MetricsQueryObj) (s : Str) (x : MVal) (t : Str) (hr : r.query = .metrics q)
    (hs : q.query = .val (.str s)) (hx : parseMql s = .ok x) (hv : ∀ y, InFormula x y → Survives y) (h : r.serialize = .ok t) :
    ∃ kvs text y ctx j c, readJsonText true t = some (.obj kvs) ∧
      kvs.lookup c!"query" = some (.str text) ∧ parseMql text = .ok y ∧
      (∀ {Row D T : Type} (W : Store Row D T), ∃ d, W.asks x = some d ∧ W.asks y = some d) ∧
      kvs.lookup c!"mql_context" = some j ∧ StandsFor ctx j ∧ readContext ctx = some c ∧ Describes c q := by
  obtain ⟨kvs, v, text, ctx, j, c, ho, hm, hj, l1, l2, s2, h4, h5⟩ := metrics_found hr h
  rw [hs] at ho
  cases ho
  obtain ⟨t1, p1, p2⟩ := C65_parsed s x hx
  rw [hm] at p1
  cases p1
  obtain ⟨t2, _, p3, p4, _⟩ := C66_parsed_round_trip_partial s x hx hv
  rw [p2] at p3
  cases p3
  exact ⟨kvs, text, settle x, ctx, j, c, hj, l1, p4, fun W => normalForm_same W (sound_normal x (parseMql_sound hx).1 hv) _ _, l2, s2, h4, h5⟩

/-- **C71** (what a text means): metrics requests with the same text ask for the same. -/
theorem C71_same_text (r r' : RequestObj) (q q' : MetricsQueryObj) (x x' : MVal) (t : Str) (hr : r.query = .metrics q)
    (hr' : r'.query = .metrics q') (hx : NormalForm q.query x) (hx' : NormalForm q'.query x') (hq : IsQuery q.query)
    (hq' : IsQuery q'.query) (h : r.serialize = .ok t) (h' : r'.serialize = .ok t) {Row D T : Type} (W : Store Row D T) :
    W.asks q.query = W.asks q'.query := by
  obtain ⟨kvs, text, y, _, _, _, a1, a2, a3, a4, _⟩ := C71_sent r q x t hr hx hq h
  obtain ⟨kvs', text', y', _, _, _, b1, b2, b3, b4, _⟩ := C71_sent r' q' x' t hr' hx' hq' h'
  rw [a1] at b1
  cases b1
  rw [a2] at b2
  cases b2
  rw [a3] at b3
  cases b3
  obtain ⟨d, d1, d2⟩ := a4 W
  obtain ⟨d', d1', d2'⟩ := b4 W
  rw [d1, d1', ← d2, ← d2']

end

section Examples

attribute [local instance] asciiUnicode pySpace

local instance : PyRepr := ⟨fun _ => []⟩

/-- `sum(m){a:["1", "2"]}`. -/
private def exInObject : MVal :=
  .ts ⟨⟨.str c!"m", .none, .none⟩, .str c!"sum", .none, .list [.cond (keyColumn c!"a") .in_ (.list [.str c!"1", .str c!"2"])], .none⟩

private theorem exIn_parsed : parseMql c!"sum(m){a:[\"1\", \"2\"]}" = .ok exInObject := gives_eq (by decide +kernel)

private theorem exMeant_survives {f : Val} (hf : ∀ s, Part (.str s) f → s = c!"1" ∨ s = c!"2") :
    ∀ y, InFormula (.ts ⟨⟨.str c!"m", .none, .none⟩, .str c!"sum", .none, f, .none⟩) y → Survives y := by
  intro y hy
  rw [(inFormula_leaf (by simp)).1 hy]
  refine .ts _ (by intro m hm; cases hm) (by intro xs hxs; cases hxs) (by intro xs hxs; cases hxs) ?_
  intro s hs
  rcases hf s hs with rfl | rfl <;> exact ⟨by decide, by decide⟩

private theorem exOr_survives : ∀ y, InFormula exOrObject y → Survives y := by
  refine exMeant_survives fun s hs => ?_
  rcases part_iff.1 hs with h | ⟨c, hm, hs⟩
  · cases h
  simp only [Val.children, List.mem_singleton] at hm
  subst hm
  rcases part_iff.1 hs with h | ⟨c, hm, hs⟩
  · cases h
  simp only [Val.children, List.mem_cons, List.not_mem_nil, or_false] at hm
  rcases hm with rfl | rfl
  all_goals
    rcases part_iff.1 hs with h | ⟨c, hm, hs⟩
    · cases h
    simp only [Val.children, List.mem_cons, List.not_mem_nil, or_false] at hm
    rcases hm with rfl | rfl
    · cases hs
    · cases hs; simp

private theorem exIn_survives : ∀ y, InFormula exInObject y → Survives y := by
  refine exMeant_survives fun s hs => ?_
  rcases part_iff.1 hs with h | ⟨c, hm, hs⟩
  · cases h
  simp only [Val.children, List.mem_singleton] at hm
  subst hm
  rcases part_iff.1 hs with h | ⟨c, hm, hs⟩
  · cases h
  simp only [Val.children, List.mem_cons, List.not_mem_nil, or_false] at hm
  rcases hm with rfl | rfl
  · cases hs
  rcases part_iff.1 hs with h | ⟨c, hm, hs⟩
  · cases h
  simp only [Val.children, List.mem_cons, List.not_mem_nil, or_false] at hm
  rcases hm with rfl | rfl <;> (cases hs; simp)

private theorem exOr_normal : NormalForm exOrObject (settle exOrObject) := sound_normal _ (parseMql_sound exOr_parsed).1 exOr_survives
private theorem exIn_normal : NormalForm exInObject (settle exInObject) := sound_normal _ (parseMql_sound exIn_parsed).1 exIn_survives

/-- A store of three rows with a tag `a`; a series is the number of the rows for which the filter holds. -/
private def exStore : Store Str Str Nat :=
  { tag := fun r _ => r
    text := fun s => s
    eq := fun x y => if x = y then .yes else .no
    like := fun _ _ => .unknown
    series := fun _ _ _ f _ => ([c!"1", c!"2", c!"3"].filter fun r => f r = .yes).length
    number := fun _ => 0
    call := fun _ _ ds => ds.sum }

/-- C71: what the query asks for is found in the store. -/
example : exStore.asks exOrObject = some 2 := rfl
example : exStore.asks (.formula (.str c!"plus") (.list [exOrObject, exInObject, .ts ⟨⟨.str c!"m", .none, .none⟩, .str c!"sum", .none, .none, .none⟩])
    .none .none .none) = some 7 := rfl

/-- C71: filters of a formula apply to the series in it. -/
example : exStore.asks (.formula (.str c!"plus") (.list [exOrObject, .ts ⟨⟨.str c!"m", .none, .none⟩, .str c!"sum", .none, .none, .none⟩])
    .none (.list [.cond (keyColumn c!"a") .neq (.str c!"1")]) .none) = some 3 := rfl

/-- C71: what MQL has no meaning for has none. -/
example : exStore.asks (.ts ⟨⟨.str c!"m", .none, .none⟩, .str c!"sum", .none, .list [.cond (keyColumn c!"a") .gt (.str c!"1")], .none⟩) = none := rfl

example := C71_printed _ _ exOr_normal trivial
example := C71_sent (exRequest (.metrics (exMetricsQuery exOrObject))) _ _ _ rfl exOr_normal trivial rfl
example := C71_sent_text (exRequest (.metrics (exMetricsQuery (.val (.str exOrText))))) _ exOrText _ _ rfl rfl exOr_parsed exOr_survives rfl

/-- C71: the OR and the IN are sent as the same text. -/
example {Row D T : Type} (W : Store Row D T) : W.asks exOrObject = W.asks exInObject :=
  C71_same_text (exRequest (.metrics (exMetricsQuery exOrObject))) (exRequest (.metrics (exMetricsQuery exInObject))) _ _ _ _ _ rfl rfl
    exOr_normal exIn_normal trivial trivial rfl rfl W

end Examples

end Verif
