import Verif.Lemmas.PrintMessages
import Verif.Lemmas.Examples

/-!
# C94: what printing and serialising a metrics query says
-/

namespace Verif

open Spec PrintMessages

section
variable [R : PyRepr] [U : PyUnicode] [S : RegexSpace] [PyShow] [PyText]

/-- **C94** (classes). Without the messages the functions are those of the rest of the model. -/
theorem C94_same_class (q : MetricsQueryObj) :
    dropMessage q.printedMsg = q.printed ∧ dropMessage q.serializeMsg = q.serialize.1 := by
  constructor
  · simp only [MetricsQueryObj.printedMsg, MetricsQueryObj.printed, drop_bind, MetricsMsg.drop_metricsQuery, drop_print]
  · simp only [MetricsQueryObj.serializeMsg, drop_bind, MetricsMsg.drop_metricsQuery, drop_print, drop_else, MetricsQueryObj.serialize]
    cases q.validate with
    | error e => rfl
    | ok _ =>
      simp only [ok_bind]
      cases optimizeQuery q.query <;> rfl

theorem validMsg {q : MetricsQueryObj} (hv : q.validate = .ok ()) : q.validateMsg = .ok () := by
  rw [← MetricsMsg.drop_metricsQuery] at hv
  cases h : q.validateMsg with
  | ok u => rfl
  | error r => rw [h] at hv; cases hv

/-- The exceptions of the printer for a query all of whose other fields are valid. -/
theorem print_rest {q : MetricsQueryObj} (hv : q.validate = .ok ()) (x : MVal) (r : Raised) :
    ({ q with query := x } : MetricsQueryObj).printMsg = .error r ↔
      queryMqlMsg x = .error r ∨ (∃ t, queryMqlMsg x = .ok t) ∧ q.indexerMappings = .val .none ∧ r = mappingsFault := by
  rw [metricsQuery_parts, checkTime_iff, checkTime_iff, checkRollup_iff, checkScope_iff, checkLimit_iff, checkOffset_iff,
    checkExtrapolate_iff, checkMappings_iff] at hv
  obtain ⟨_, ⟨t1, e2⟩, ⟨t2, e3⟩, ⟨rl, e4, _, hr⟩, ⟨s, e5, hs⟩, v6, v7, v8, v9⟩ := hv
  have h4 : ∃ x, rollupMqlMsg q.rollup = .ok x := by
    rw [e4]
    rcases hr.orderby with he | ⟨d, he⟩ <;> exact ⟨_, by simp only [rollupMqlMsg, rollupMql, he, orderbyValue]; rfl⟩
  have h6 : ∃ x, limitMql q.limit = .ok x := by
    rcases optional_iff.1 v6 with h | ⟨n, h, _⟩ <;> rw [h] <;> exact ⟨_, rfl⟩
  have h7 : ∃ x, offsetMql q.offset = .ok x := by
    rcases optional_iff.1 v7 with h | ⟨n, h, _⟩ <;> rw [h] <;> exact ⟨_, rfl⟩
  have h8 : ∃ x, extrapolateMql q.extrapolate = .ok x := by
    rcases optional_iff.1 v8 with h | ⟨n, h⟩ <;> rw [h] <;> exact ⟨_, rfl⟩
  obtain ⟨x4, h4⟩ := h4
  obtain ⟨x6, h6⟩ := h6
  obtain ⟨x7, h7⟩ := h7
  obtain ⟨x8, h8⟩ := h8
  cases hx : queryMqlMsg x with
  | error r' =>
    simp only [MetricsQueryObj.printMsg, hx, error_bind, Except.error.injEq, reduceCtorEq, exists_false, false_and, or_false]
  | ok t =>
    have hp : ∃ f : Data → Data, ({ q with query := x } : MetricsQueryObj).printMsg = (mappingsMqlMsg q.indexerMappings).bind fun m => .ok (f m) := by
      simp only [MetricsQueryObj.printMsg, hx, e2, e3, h4, e5, h6, h7, h8]
      exact ⟨_, rfl⟩
    obtain ⟨f, hp⟩ := hp
    rw [hp]
    rcases optional_iff.1 v9 with h | ⟨n, h⟩
    · rw [h]
      simp only [reduceCtorEq, false_or, Except.ok.injEq, exists_eq', true_and]
      constructor
      · intro h; cases h; rfl
      · rintro rfl; rfl
    · rw [h]
      simp only [reduceCtorEq, false_or, Except.ok.injEq, exists_eq', true_and, false_and, iff_false, MVal.data.injEq]
      intro h
      cases h

/-- **C94** (validation first). A query that does not pass validation is refused with the exception of `validate`, of which C90 speaks. -/
theorem C94_invalid (q : MetricsQueryObj) (r : Raised) (h : q.validateMsg = .error r) :
    q.printedMsg = .error r ∧ q.serializeMsg = .error r := by
  simp only [MetricsQueryObj.printedMsg, MetricsQueryObj.serializeMsg, h, error_bind, and_self]

theorem printedMsg_valid {q : MetricsQueryObj} (hv : q.validate = .ok ()) (r : Raised) :
    q.printedMsg = .error r ↔
      queryMqlMsg q.query = .error r ∨ (∃ t, queryMqlMsg q.query = .ok t) ∧ q.indexerMappings = .val .none ∧ r = mappingsFault := by
  rw [← print_rest hv q.query r]
  simp only [MetricsQueryObj.printedMsg, validMsg hv, ok_bind]

theorem textMsg_iff {x : MVal} : (∃ t, queryMqlMsg x = .ok t) ↔ ∃ t, queryMql x = .ok t := by
  rw [← drop_query]
  cases queryMqlMsg x with
  | ok t => simp [dropMessage]
  | error r => simp [dropMessage]

theorem queryMsg_object {x : MVal} (h : QueryObject x) : queryMqlMsg x = paramMqlMsg x := by
  cases h with
  | ts t => simp only [queryMqlMsg, paramMqlMsg]
  | formula => simp only [queryMqlMsg]

theorem annotated_named {x : MVal} (ha : ∀ y, InFormula x y → Annotated y) : MetricsNamed x := by
  intro t ht
  cases ha _ ht with
  | ts _ h _ => exact h.metric
  | other _ _ h => exact (h _ rfl).elim

/-- **C94** (printing an object). If a valid query made of parts of the right types is not printed, then it has no mappings and would
otherwise have a text, and is told so; or one of its filters compares with a function, and that is said; or one of its values has
no text or a formula no parameters, and the exception is another. -/
theorem C94_print (q : MetricsQueryObj) (r : Raised) (hv : q.validate = .ok ()) (hq : QueryObject q.query)
    (ha : ∀ y, InFormula q.query y → Annotated y) (h : q.printedMsg = .error r) :
    (r = (.invalidMetricsQuery, some c!"MetricQuery.indexer_mappings must not be None") ∧ q.indexerMappings = .val .none ∧
      ∀ y, InFormula q.query y → ∀ e, ¬ QueryBlame e y) ∨
    (r = (.invalidExpression, some c!"CurriedFunction and Function are not supported in conditions in MQL") ∧ FunctionInFilters q.query) ∨
    (r.2 = none ∧ r.1 ≠ .invalidExpression ∧ ∃ y, InFormula q.query y ∧ QueryBlame r.1 y) := by
  rcases (printedMsg_valid hv r).1 h with h | ⟨ht, hm, rfl⟩
  · obtain ⟨e, m⟩ := r
    cases m with
    | some m =>
      rw [queryMsg_object hq] at h
      obtain ⟨h1, h2⟩ := param_words _ (annotated_named ha) h
      exact .inr (.inl ⟨h1, h2⟩)
    | none =>
      have hd := congrArg dropMessage h
      rw [drop_query] at hd
      rw [queryMsg_object hq] at h
      exact .inr (.inr ⟨rfl, param_class (r := (e, none)) rfl _ ha h, C65_error _ _ hq ha hd⟩)
  · exact .inl ⟨rfl, hm, (C65_succeeds_iff _ hq ha).1 (textMsg_iff.1 ht)⟩

/-- **C94** (no mappings). A valid query is told that it has no mappings exactly if it has none and its query has a text. -/
theorem C94_mappings (q : MetricsQueryObj) (hv : q.validate = .ok ()) (hq : QueryObject q.query)
    (ha : ∀ y, InFormula q.query y → Annotated y) :
    q.printedMsg = .error (.invalidMetricsQuery, some c!"MetricQuery.indexer_mappings must not be None") ↔
      q.indexerMappings = .val .none ∧ ∀ y, InFormula q.query y → ∀ e, ¬ QueryBlame e y := by
  constructor
  · intro h
    rcases C94_print q _ hv hq ha h with ⟨_, h⟩ | ⟨h, _⟩ | ⟨h, _⟩
    · exact h
    · exact absurd h (by decide)
    · cases h
  · rintro ⟨hm, hb⟩
    exact (printedMsg_valid hv _).2 (.inr ⟨textMsg_iff.2 ((C65_succeeds_iff _ hq ha).2 hb), hm, rfl⟩)

/-- **C94** (strings). The only exception of printing or serialising a valid query with a string is that it has no mappings. -/
theorem C94_string (q : MetricsQueryObj) (s : Str) (r : Raised) (hv : q.validate = .ok ()) (hs : q.query = .val (.str s)) :
    (q.printedMsg = .error r ↔
      q.indexerMappings = .val .none ∧ r = (.invalidMetricsQuery, some c!"MetricQuery.indexer_mappings must not be None")) ∧
    q.serializeMsg = q.printedMsg := by
  have hp : ∃ t, queryMql q.query = .ok t := by
    rw [hs]
    have hc := (metricsQuery_parts.1 hv).1
    cases hx : parseMql s with
    | ok x => obtain ⟨t, ht, _⟩ := C65_parsed s x hx; exact ⟨t, ht⟩
    | error e => simp only [hs, checkQuery, parseChecked, hx, error_bind] at hc; cases hc
  have ht := textMsg_iff.2 hp
  constructor
  · rw [printedMsg_valid hv]
    obtain ⟨t, ht⟩ := ht
    simp only [ht, reduceCtorEq, false_or, Except.ok.injEq, exists_eq', true_and]
    rfl
  · simp only [MetricsQueryObj.serializeMsg, MetricsQueryObj.printedMsg, hs, optimizeQuery, elsewhere, ok_bind]
    rw [← hs]

omit R U S [PyShow] [PyText] in
theorem optimized_named {x y : MVal} (hq : QueryObject x) (h : optimizeQuery x = .ok y) (ho : MetricsNamed x) : QueryObject y ∧ MetricsNamed y := by
  cases hq with
  | ts t =>
    simp only [optimizeQuery, bind_eq_ok] at h
    obtain ⟨r, _, t', ht, h⟩ := h
    cases h
    refine ⟨.ts _, fun u hu => ?_⟩
    have key : ∀ z, InFormula (.ts t') z → z = .ts t' := by
      intro z hz
      induction hz with
      | self => rfl
      | param _ _ _ ih => cases ih
    cases key _ hu
    cases r with
    | none => cases ht; exact ho _ .self
    | some v =>
      simp only [TimeseriesObj.replaceFilters, mkTimeseries, asMetric, ok_bind, bind_eq_ok] at ht
      obtain ⟨_, _, ht⟩ := ht
      cases ht
      exact ho t .self
  | formula n p a f g =>
    simp only [optimizeQuery, bind_eq_ok] at h
    obtain ⟨r, _, h⟩ := h
    cases h
    refine ⟨.formula .., fun u hu => ho u ?_⟩
    have key : ∀ z, InFormula (.formula n p a (r.getD f) g) z → z = .formula n p a (r.getD f) g ∨ InFormula (.formula n p a f g) z := by
      intro z hz
      induction hz with
      | self => exact .inl rfl
      | param hz hs hp ih =>
        rcases ih with ih | ih
        · cases ih; exact .inr (.param .self hs hp)
        · exact .inr (.param ih hs hp)
    rcases key _ hu with h | h
    · cases h
    · exact h

/-- **C94** (serialising an object). Whatever `serialize` says about a valid query whose metrics have names is that it has no mappings,
or that a filter compares with a function. The filters are those that the optimiser has left on the object. -/
theorem C94_serialize (q : MetricsQueryObj) (e : Err) (m : Str) (hv : q.validate = .ok ()) (hq : QueryObject q.query)
    (ho : MetricsNamed q.query) (h : q.serializeMsg = .error (e, some m)) :
    (e = .invalidMetricsQuery ∧ m = c!"MetricQuery.indexer_mappings must not be None" ∧ q.indexerMappings = .val .none) ∨
    (e = .invalidExpression ∧ m = c!"CurriedFunction and Function are not supported in conditions in MQL" ∧
      FunctionInFilters q.serialize.2.query) := by
  simp only [MetricsQueryObj.serializeMsg, validMsg hv, ok_bind] at h
  cases hx : optimizeQuery q.query with
  | error e => rw [hx] at h; cases h
  | ok x =>
    obtain ⟨hq', ho'⟩ := optimized_named hq hx ho
    rw [hx] at h
    simp only [elsewhere, ok_bind] at h
    rw [print_rest hv] at h
    rcases h with h | ⟨_, hm, h⟩
    · rw [queryMsg_object hq'] at h
      obtain ⟨h1, h2⟩ := param_words _ ho' h
      cases h1
      refine .inr ⟨rfl, rfl, ?_⟩
      simp only [MetricsQueryObj.serialize, hv, hx]
      exact h2
    · cases h
      exact .inl ⟨rfl, rfl, hm⟩

omit [PyShow] [PyText] in
/-- **C94** (the context). If a valid query is printed, then the entries that `MQLContext` requires are in the context and are not `None`,
so that `MQLContext` does not refuse them. -/
theorem C94_context (q : MetricsQueryObj) (d : Data) (hv : q.validate = .ok ()) (h : q.print = .ok d) :
    ∃ t c, d = .dict [(c!"mql", .val (.str t)), (c!"mql_context", .dict c)] ∧
      ∀ k ∈ [c!"start", c!"end", c!"rollup", c!"scope", c!"indexer_mappings"], ∃ v, c.lookup k = some v ∧ v ≠ .val .none := by
  obtain ⟨text, start, end_, rollup, scope, limit, offset, extrapolate, mappings, _, h2, h3, h4, h5, _, _, _, h9, rfl⟩ := print_parts.1 h
  rw [metricsQuery_parts, checkTime_iff, checkTime_iff, checkRollup_iff, checkScope_iff, checkMappings_iff] at hv
  obtain ⟨_, ⟨t1, e2⟩, ⟨t2, e3⟩, ⟨rl, e4, _, hr⟩, ⟨s, e5, hs⟩, _, _, _, v9⟩ := hv
  rw [e2] at h2
  rw [e3] at h3
  rw [e4] at h4
  rw [e5] at h5
  cases h2
  cases h3
  cases h5
  simp only [rollupMql, bind_eq_ok] at h4
  obtain ⟨o, _, h4⟩ := h4
  cases h4
  have hm : mappings ≠ .val .none := by
    rcases optional_iff.1 v9 with h | ⟨n, h⟩
    · rw [h] at h9; cases h9
    · rw [h] at h9; cases h9; simp
  refine ⟨text, _, rfl, ?_⟩
  simp only [List.mem_cons, List.not_mem_nil, or_false]
  rintro k (rfl | rfl | rfl | rfl | rfl)
  · exact ⟨_, rfl, by simp⟩
  · exact ⟨_, rfl, by simp⟩
  · exact ⟨_, rfl, by simp⟩
  · exact ⟨_, rfl, by simp⟩
  · exact ⟨_, rfl, hm⟩

end

/-! ### Concrete cases -/

section Examples

attribute [local instance] asciiUnicode pySpace

local instance exPnRepr : PyRepr := ⟨fun _ => []⟩
local instance exPnShow : PyShow := ⟨fun _ => false, fun _ => c!"<object>"⟩
local instance exPnText : PyText := ⟨fun _ => c!"<object>", fun _ => c!"builtins.object"⟩

/-- `ff(b)`. -/
private def exPnCall : Val := .curried true c!"ff" .absent [] .list [keyColumn c!"b"] none

/-- A timeseries with the parameters of its aggregate and one filter. -/
private def exPnSeries (params f : Val) : TimeseriesObj := ⟨⟨.str c!"m", .none, .none⟩, .str c!"sum", params, .list [f], .none⟩

private theorem exPn_key (k : Str) (h : mkColumn (.str k) .none = .ok (keyColumn k)) : Built (keyColumn k) :=
  .column _ _ _ (.literal _ (.str _)) (.literal _ .none) h

private theorem exPnCall_built : Built exPnCall :=
  .function (.str c!"ff") (.list [keyColumn c!"b"]) .none _ (.literal _ (.str _))
    (.list _ (by simp only [List.mem_singleton, forall_eq]; exact exPn_key _ rfl)) (.literal _ .none) rfl

/-- `a = ff(b)`. -/
private theorem exPn_function : MadeCond (.cond (keyColumn c!"a") .eq exPnCall) :=
  ⟨by constructor, .condition _ _ _ _ (exPn_key _ rfl) (.op .eq) exPnCall_built rfl⟩

/-- `a = 1`. -/
private theorem exPn_plain : MadeCond (.cond (keyColumn c!"a") .eq (.int 1)) :=
  ⟨by constructor, .condition _ _ _ _ (exPn_key _ rfl) (.op .eq) (.literal _ (.int 1)) rfl⟩

private theorem exPn_annotated (ps f : Val) (hp : OptList Literal ps) (hf : MadeCond f) :
    ∀ y, InFormula (.ts (exPnSeries ps f)) y → Annotated y := by
  intro y hy
  have : y = .ts (exPnSeries ps f) := by
    induction hy with
    | self => rfl
    | param _ _ _ ih => cases ih
  subst this
  have h : OptList MadeCond (.list [f]) := .list _ (by simpa using hf)
  exact .ts _ ⟨⟨.str _, .none, .none, c!"m", .inl rfl⟩, ⟨_, rfl⟩, hp, h.imp fun _ h => h.cond, .none⟩ h

/-- A query without mappings. -/
private def exPnQuery (x : MVal) : MetricsQueryObj := { exMetricsQuery x with indexerMappings := .val .none }

/-- C94: the three messages of `C94_print`, without a message in the third case. -/
private theorem exPn_mappings : (exPnQuery (.ts (exPnSeries .none (.cond (keyColumn c!"a") .eq (.int 1))))).printedMsg =
    .error (.invalidMetricsQuery, some c!"MetricQuery.indexer_mappings must not be None") := rfl
private theorem exPn_compares : (exPnQuery (.ts (exPnSeries .none (.cond (keyColumn c!"a") .eq exPnCall)))).printedMsg =
    .error (.invalidExpression, some c!"CurriedFunction and Function are not supported in conditions in MQL") := rfl
private theorem exPn_bytes : (exPnQuery (.ts (exPnSeries (.list [.bytes [255]]) (.cond (keyColumn c!"a") .eq (.int 1))))).printedMsg =
    .error (.unicodeDecodeError, none) := rfl

example : ∀ y, InFormula (.ts (exPnSeries .none (.cond (keyColumn c!"a") .eq (.int 1)))) y → ∀ e, ¬ QueryBlame e y :=
  ((C94_mappings _ rfl (.ts _) (exPn_annotated _ _ .none exPn_plain)).1 exPn_mappings).2

example : FunctionInFilters (.ts (exPnSeries .none (.cond (keyColumn c!"a") .eq exPnCall))) := by
  rcases C94_print _ _ rfl (.ts _) (exPn_annotated _ _ .none exPn_function) exPn_compares with ⟨h, _⟩ | ⟨_, h⟩ | ⟨h, _⟩
  · exact absurd h (by decide)
  · exact h
  · cases h

example : ∃ y, InFormula (.ts (exPnSeries (.list [.bytes [255]]) (.cond (keyColumn c!"a") .eq (.int 1)))) y ∧ QueryBlame .unicodeDecodeError y := by
  rcases C94_print _ _ rfl (.ts _) (exPn_annotated _ _ (.list _ (by simpa using .bytes _)) exPn_plain) exPn_bytes with ⟨h, _⟩ | ⟨h, _⟩ | ⟨_, _, h⟩
  · exact absurd h (by decide)
  · exact absurd h (by decide)
  · exact h

/-- C94: a query with a string. -/
example : (exPnQuery (.val (.str exOrText))).serializeMsg =
    .error (.invalidMetricsQuery, some c!"MetricQuery.indexer_mappings must not be None") := by
  rw [(C94_string _ exOrText (.invalidMetricsQuery, none) rfl rfl).2]
  exact (C94_string _ exOrText _ rfl rfl).1.2 ⟨rfl, rfl⟩

/-- C94: a query that is not valid. -/
example : ({ exPnQuery (.val (.str exOrText)) with start := .val .none } : MetricsQueryObj).serializeMsg =
    .error (.invalidMetricsQuery, some c!"start is required for a metrics query") := (C94_invalid _ _ rfl).2

/-- C94: a query that is serialised with a function in a filter that the optimiser leaves alone. -/
example : (exPnQuery (.ts (exPnSeries .none (.cond (keyColumn c!"a") .eq exPnCall)))).serializeMsg =
    .error (.invalidExpression, some c!"CurriedFunction and Function are not supported in conditions in MQL") := rfl
example : FunctionInFilters (exPnQuery (.ts (exPnSeries .none (.cond (keyColumn c!"a") .eq exPnCall)))).serialize.2.query := by
  rcases C94_serialize (exPnQuery (.ts (exPnSeries .none (.cond (keyColumn c!"a") .eq exPnCall)))) _ _ rfl (.ts _)
    (annotated_named (exPn_annotated _ _ .none exPn_function)) rfl with ⟨h, _⟩ | ⟨_, _, h⟩
  · exact absurd h (by decide)
  · exact h

/-- C94: the classes agree in a case with an exception. -/
example : (exPnQuery (.ts (exPnSeries .none (.cond (keyColumn c!"a") .eq exPnCall)))).printed = .error .invalidExpression := by
  rw [← (C94_same_class _).1, exPn_compares]
  rfl

/-- C94: the context of a query that is printed. -/
example : ∃ d, (exMetricsQuery (.val (.str exOrText))).print = .ok d ∧ ∃ t c, d = .dict [(c!"mql", .val (.str t)), (c!"mql_context", .dict c)] ∧
    ∀ k ∈ [c!"start", c!"end", c!"rollup", c!"scope", c!"indexer_mappings"], ∃ v, c.lookup k = some v ∧ v ≠ .val .none := by
  obtain ⟨d, h⟩ := ((C65_printed_iff (exMetricsQuery (.val (.str exOrText))) rfl).2 _ rfl).2 (by simp [exMetricsQuery])
  exact ⟨d, (printed_iff.1 h).2, C94_context _ _ rfl (printed_iff.1 h).2⟩

end Examples

end Verif
