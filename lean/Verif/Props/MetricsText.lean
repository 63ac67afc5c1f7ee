import Verif.Model.MetricsText
import Verif.Props.RequestJson

/-!
# C61: the texts of metrics queries
-/

namespace Verif
open Spec

/-- The value is encoded, and a strict reader takes the result. -/
private def Plain (d : Data) : Prop := ∃ j, d.toJson = .ok j ∧ Finite j

private theorem plain_none : Plain (.val .none) := ⟨_, rfl, .null⟩
private theorem plain_str (s : Str) : Plain (.val (.str s)) := ⟨_, rfl, .str s⟩
private theorem plain_bool (b : Bool) : Plain (.val (.bool b)) := ⟨_, rfl, .bool b⟩

private theorem plain_int {v : Val} {n : PyInt} (h : IntLike v n) : Plain (.val v) := by
  cases h
  · exact ⟨_, rfl, .int _⟩
  · exact ⟨_, rfl, .bool _⟩

private theorem plain_intList {v : Val} (h : IntList v) : Plain (.val v) := by
  obtain ⟨xs, rfl, h⟩ := h
  have : ∃ js, toJsonVals xs = .ok js ∧ ∀ j ∈ js, Finite j := by
    induction xs with
    | nil => exact ⟨[], rfl, by simp⟩
    | cons x xs ih =>
      obtain ⟨js, h1, h2⟩ := ih fun y hy => h y (by simp [hy])
      obtain ⟨n, hn⟩ := h x (by simp)
      obtain ⟨j, h3, h4⟩ := plain_int hn
      refine ⟨j :: js, ?_, ?_⟩
      · simp only [Data.toJson] at h3
        simp only [toJsonVals, h3, h1, ok_bind]
      · intro k hk
        rcases List.mem_cons.1 hk with rfl | hk
        · exact h4
        · exact h2 k hk
  obtain ⟨js, h1, h2⟩ := this
  exact ⟨.arr js, by simp only [Data.toJson, Val.toJson, h1, ok_bind], .arr _ h2⟩

private theorem plain_optStr {v : Val} (h : OptStr v) : Plain (.val v) := by
  cases h
  · exact plain_none
  · exact plain_str _

private theorem plain_granularity {r : RollupObj} (h : RollupOk r) (hb : r.granularity ≠ .bytes []) : Plain (.val r.granularity) := by
  rcases h.granularity with e | e | ⟨n, _, e⟩
  · rw [e]; exact plain_none
  · cases hg : r.granularity <;> rw [hg] at e hb <;> cases e
    · exact plain_str _
    · exact absurd rfl hb
    · exact ⟨.arr [], rfl, .arr _ (by simp)⟩
    · exact ⟨.arr [], rfl, .arr _ (by simp)⟩
  · cases hg : r.granularity <;> rw [hg] at e <;> cases e
    · exact plain_bool _
    · exact ⟨_, rfl, .int _⟩
    · exact ⟨_, rfl, .float _⟩

private theorem plain_dict {kvs : List (Str × Data)} (h : ∀ p ∈ kvs, Plain p.2) : Plain (.dict kvs) := by
  have : ∃ js, toJsonEntries kvs = .ok js ∧ ∀ p ∈ js, Finite p.2 := by
    induction kvs with
    | nil => exact ⟨[], rfl, by simp⟩
    | cons x xs ih =>
      obtain ⟨k, x⟩ := x
      obtain ⟨js, h1, h2⟩ := ih fun y hy => h y (by simp [hy])
      obtain ⟨j, h3, h4⟩ := h (k, x) (by simp)
      refine ⟨(k, j) :: js, by simp only [toJsonEntries, h3, h1, ok_bind], ?_⟩
      intro p hp
      rcases List.mem_cons.1 hp with rfl | hp
      · exact h4
      · exact h2 p hp
  obtain ⟨js, h1, h2⟩ := this
  exact ⟨.obj js, by simp only [Data.toJson, h1, ok_bind], .obj _ h2⟩

/-- The encoding of a context, part by part. -/
private theorem context_json {start end_ rollup scope mappings limit offset extrapolate : Data} (h1 : Plain start) (h2 : Plain end_)
    (h3 : Plain scope) (h4 : Plain limit) (h5 : Plain offset) (h6 : Plain extrapolate) :
    (∀ j, mappings.toJson = .ok j → Plain rollup → ∃ jc,
      (contextDict start end_ rollup scope mappings limit offset extrapolate).toJson = .ok jc ∧ (Finite j → Finite jc)) ∧
    ∀ jc, (contextDict start end_ rollup scope mappings limit offset extrapolate).toJson = .ok jc →
      (∃ j, mappings.toJson = .ok j) ∧ ∃ j, rollup.toJson = .ok j := by
  constructor
  · intro j hj h7
    obtain ⟨j1, e1, f1⟩ := h1
    obtain ⟨j2, e2, f2⟩ := h2
    obtain ⟨j3, e3, f3⟩ := h3
    obtain ⟨j4, e4, f4⟩ := h4
    obtain ⟨j5, e5, f5⟩ := h5
    obtain ⟨j6, e6, f6⟩ := h6
    obtain ⟨j7, e7, f7⟩ := h7
    refine ⟨.obj [(c!"start", j1), (c!"end", j2), (c!"rollup", j7), (c!"scope", j3), (c!"indexer_mappings", j), (c!"limit", j4),
      (c!"offset", j5), (c!"extrapolate", j6)], ?_, fun hf => .obj _ ?_⟩
    · simp only [contextDict, Data.toJson, toJsonEntries, e1, e2, e3, e4, e5, e6, e7, hj, ok_bind]
    · intro p hp
      simp only [List.mem_cons, List.not_mem_nil, or_false] at hp
      rcases hp with rfl | rfl | rfl | rfl | rfl | rfl | rfl | rfl <;> assumption
  · intro jc h
    simp only [contextDict, Data.toJson, toJsonEntries, bind_eq_ok] at h
    obtain ⟨_, ⟨_, _, _, ⟨_, _, _, ⟨j7, e7, _, ⟨_, _, _, ⟨j, hj, _⟩, _⟩, _⟩, _⟩, _⟩, _⟩ := h
    exact ⟨⟨j, hj⟩, j7, e7⟩

section
variable [U : PyUnicode] [S : RegexSpace] [R : PyRepr]

/-- A valid query with mappings, whose query can be printed: the dictionary, and when it can be encoded. -/
private theorem valid_json {q : MetricsQueryObj} (hv : q.validate = .ok ()) {text : Str} (ht : queryMql q.query = .ok text) {m : Data}
    (hm : q.indexerMappings = .data m) {r : RollupObj} (hq : q.rollup = .rollup r) :
    ∃ ctx, q.print = .ok (.dict [(c!"mql", .val (.str text)), (c!"mql_context", ctx)]) ∧
      (∀ j, m.toJson = .ok j → r.granularity ≠ .bytes [] → ∃ jc, ctx.toJson = .ok jc ∧ (Finite j → Finite jc)) ∧
      ∀ jc, ctx.toJson = .ok jc → (∃ j, m.toJson = .ok j) ∧ r.granularity ≠ .bytes [] := by
  rw [metricsQuery_parts, checkTime_iff, checkTime_iff, checkRollup_iff, checkScope_iff, checkLimit_iff, checkOffset_iff,
    checkExtrapolate_iff, checkMappings_iff] at hv
  obtain ⟨_, ⟨t1, e2⟩, ⟨t2, e3⟩, ⟨r', e4, _, hr⟩, ⟨s, e5, hs⟩, v6, v7, v8, v9⟩ := hv
  rw [hq] at e4
  cases e4
  have h4 : ∃ o, orderbyValue r.orderby = .ok o ∧ Plain o := by
    rcases hr.orderby with he | ⟨d, he⟩ <;> rw [he]
    · exact ⟨_, rfl, plain_none⟩
    · exact ⟨_, rfl, plain_str _⟩
  have h6 : ∃ x, limitMql q.limit = .ok x ∧ Plain x := by
    rcases optional_iff.1 v6 with h | ⟨n, h, _⟩ <;> rw [h]
    · exact ⟨_, rfl, plain_none⟩
    · exact ⟨_, rfl, by cases n <;> exact plain_int (by constructor)⟩
  have h7 : ∃ x, offsetMql q.offset = .ok x ∧ Plain x := by
    rcases optional_iff.1 v7 with h | ⟨n, h, _⟩ <;> rw [h]
    · exact ⟨_, rfl, plain_none⟩
    · exact ⟨_, rfl, by cases n <;> exact plain_int (by constructor)⟩
  have h8 : ∃ x, extrapolateMql q.extrapolate = .ok x ∧ Plain x := by
    rcases optional_iff.1 v8 with h | ⟨n, h⟩ <;> rw [h]
    · exact ⟨_, rfl, plain_none⟩
    · exact ⟨_, rfl, plain_bool _⟩
  have hi : Plain (.val r.interval) := by
    rcases hr.interval with h | ⟨i, h, _⟩
    · rw [h]; exact plain_none
    · exact plain_int h
  have htot : Plain (totalsText r.totals) := by
    rcases hr.totals with h | ⟨b, h⟩ <;> rw [h]
    · exact plain_none
    · exact plain_str _
  have hsc : Plain (.dict [(c!"org_ids", .val s.orgIds), (c!"project_ids", .val s.projectIds), (c!"use_case_id", .val s.useCaseId)]) := by
    refine plain_dict fun p hp => ?_
    simp only [List.mem_cons, List.not_mem_nil, or_false] at hp
    rcases hp with rfl | rfl | rfl
    · exact plain_intList hs.orgIds
    · exact plain_intList hs.projectIds
    · exact plain_optStr hs.useCaseId
  obtain ⟨o, ho, po⟩ := h4
  obtain ⟨x6, h6, p6⟩ := h6
  obtain ⟨x7, h7, p7⟩ := h7
  obtain ⟨x8, h8, p8⟩ := h8
  have hroll : rollupMql (.rollup r) = .ok (.dict [(c!"orderby", o), (c!"granularity", .val r.granularity),
      (c!"interval", .val r.interval), (c!"with_totals", totalsText r.totals)]) := by simp only [rollupMql, ho, ok_bind]
  have hc := fun rollup => context_json (rollup := rollup) (mappings := m) (plain_str t1.iso) (plain_str t2.iso) hsc p6 p7 p8
  refine ⟨_, print_parts.2 ⟨text, _, _, _, _, x6, x7, x8, m, ht, by rw [e2]; rfl, by rw [e3]; rfl, by rw [hq]; exact hroll,
    by rw [e5]; rfl, h6, h7, h8, by rw [hm]; rfl, rfl⟩, ?_, ?_⟩
  · intro j hj hb
    refine (hc _).1 j hj (plain_dict fun p hp => ?_)
    simp only [List.mem_cons, List.not_mem_nil, or_false] at hp
    rcases hp with rfl | rfl | rfl | rfl
    · exact po
    · exact plain_granularity hr hb
    · exact hi
    · exact htot
  · intro jc h
    obtain ⟨h1, j, h2⟩ := (hc _).2 jc h
    refine ⟨h1, fun hb => ?_⟩
    rw [hb] at h2
    obtain ⟨jo, hjo, _⟩ := po
    simp only [Data.toJson, toJsonEntries, hjo, ok_bind, Val.toJson, error_bind, reduceCtorEq] at h2

/-- **C61** (what is shown): the text that `print` returns is JSON for a dictionary of two entries: the MQL text of the query, and a
context in which an independent reader finds what the query holds. A strict reader finds it unless there is a number in the
mappings that JSON does not have. -/
theorem C61_decodes (q : MetricsQueryObj) (t : Str) (h : q.printText = .ok t) :
    ∃ text ctx c j m jm, queryMql q.query = .ok text ∧ readContext ctx = some c ∧ Describes c q ∧ StandsFor ctx j ∧
      q.indexerMappings = .data m ∧ StandsFor m jm ∧
      readJsonText true t = some (.obj [(c!"mql", .str text), (c!"mql_context", j)]) ∧
      (Finite jm → readJsonText false t = some (.obj [(c!"mql", .str text), (c!"mql_context", j)])) := by
  simp only [MetricsQueryObj.printText, jsonDumpsIndented, bind_eq_ok, Except.ok.injEq] at h
  obtain ⟨⟨⟩, hv, d, hp, j, hj, rfl⟩ := h
  obtain ⟨text, kvs, c, h1, rfl, _, h2, h3⟩ := C36_context q d hv hp
  have hm := h3.mappings
  obtain ⟨r, hr, _⟩ := h3.rollup
  obtain ⟨ctx, g1, g2, g3⟩ := valid_json hv h1 hm hr
  rw [hp] at g1
  cases g1
  simp only [Data.toJson, Val.toJson, toJsonEntries, bind_eq_ok, ok_bind, Except.ok.injEq] at hj
  obtain ⟨_, ⟨_, ⟨jc, hjc, rfl⟩, rfl⟩, rfl⟩ := hj
  have hjc' : (Data.dict kvs).toJson = .ok jc := by simp only [Data.toJson, bind_eq_ok, Except.ok.injEq]; exact hjc
  obtain ⟨⟨jm, hjm⟩, hb⟩ := g3 jc hjc'
  refine ⟨text, .dict kvs, c, jc, _, jm, h1, h2, h3, (Data.toJson_iff _ _).1 hjc', hm, (Data.toJson_iff _ _).1 hjm,
    readJsonText_encode true true _ (.inl rfl), fun hf => readJsonText_encode false true _ (.inr (.obj _ ?_))⟩
  obtain ⟨jc', e, hfin⟩ := g2 jm hjm hb
  rw [hjc'] at e
  cases e
  intro p hp
  simp only [List.mem_cons, List.not_mem_nil, or_false] at hp
  rcases hp with rfl | rfl
  · exact .str _
  · exact hfin hf

/-- **C61** (when): a valid metrics query has a text exactly if its query can be printed, it has mappings that stand for a JSON value,
and its granularity is not `b""` (which passes the validation of a rollup without an interval). -/
theorem C61_prints_iff (q : MetricsQueryObj) (hv : q.validate = .ok ()) :
    (∃ t, q.printText = .ok t) ↔ (∃ text, queryMql q.query = .ok text) ∧ (∃ m j, q.indexerMappings = .data m ∧ StandsFor m j) ∧
      ∀ r, q.rollup = .rollup r → r.granularity ≠ .bytes [] := by
  have hroll : ∃ r, q.rollup = .rollup r := by
    have := hv
    rw [metricsQuery_parts, checkRollup_iff] at this
    obtain ⟨_, _, _, ⟨r, h, _⟩, _⟩ := this
    exact ⟨r, h⟩
  obtain ⟨r, hr⟩ := hroll
  constructor
  · rintro ⟨t, h⟩
    obtain ⟨text, ctx, c, j, m, jm, h1, _, _, _, hm, hj, _⟩ := C61_decodes q t h
    refine ⟨⟨text, h1⟩, ⟨m, jm, hm, hj⟩, ?_⟩
    intro r' hr'
    rw [hr] at hr'
    cases hr'
    obtain ⟨ctx, g1, g2, g3⟩ := valid_json hv h1 hm hr
    simp only [MetricsQueryObj.printText, jsonDumpsIndented, bind_eq_ok, Except.ok.injEq] at h
    obtain ⟨⟨⟩, _, d, hp, j, hj, rfl⟩ := h
    rw [g1] at hp
    cases hp
    simp only [Data.toJson, Val.toJson, toJsonEntries, bind_eq_ok, ok_bind, Except.ok.injEq] at hj
    obtain ⟨_, ⟨_, ⟨jc, hjc, rfl⟩, rfl⟩, rfl⟩ := hj
    exact (g3 jc hjc).2
  · rintro ⟨⟨text, h1⟩, ⟨m, jm, hm, hj⟩, hb⟩
    obtain ⟨ctx, g1, g2, g3⟩ := valid_json hv h1 hm hr
    obtain ⟨jc, hjc, _⟩ := g2 jm ((Data.toJson_iff _ _).2 hj) (hb r hr)
    refine ⟨encodeJson true 0 (.obj [(c!"mql", .str text), (c!"mql_context", jc)]), ?_⟩
    simp only [MetricsQueryObj.printText, jsonDumpsIndented, hv, g1, Data.toJson, Val.toJson, toJsonEntries, hjc, ok_bind]

/-- **C61** (`str`): `str` does not validate: it gives a text exactly if the query can be printed and the result stands for a JSON value,
and a reader finds that value in the text. -/
theorem C61_str_decodes (q : MetricsQueryObj) :
    ((∃ t, q.str = .ok t) ↔ ∃ d j, q.print = .ok d ∧ StandsFor d j) ∧
      ∀ t, q.str = .ok t → ∃ d j, q.print = .ok d ∧ StandsFor d j ∧ readJsonText true t = some j := by
  have key : ∀ t, q.str = .ok t → ∃ d j, q.print = .ok d ∧ StandsFor d j ∧ readJsonText true t = some j := by
    intro t h
    simp only [MetricsQueryObj.str, jsonDumpsIndented, bind_eq_ok, Except.ok.injEq] at h
    obtain ⟨d, hd, j, hj, rfl⟩ := h
    exact ⟨d, j, hd, (Data.toJson_iff d j).1 hj, readJsonText_encode true true j (.inl rfl)⟩
  refine ⟨⟨fun ⟨t, h⟩ => ?_, fun ⟨d, j, h1, h2⟩ => ⟨encodeJson true 0 j, ?_⟩⟩, key⟩
  · obtain ⟨d, j, h1, h2, _⟩ := key t h
    exact ⟨d, j, h1, h2⟩
  · simp only [MetricsQueryObj.str, jsonDumpsIndented, h1, (Data.toJson_iff d j).2 h2, ok_bind]

/-- **C61** (`str` and `print`): on a valid query, `str` gives what `print` gives; on one that is not valid, `print` raises what the
validation raises. -/
theorem C61_str (q : MetricsQueryObj) :
    (q.validate = .ok () → q.str = q.printText) ∧ ∀ e, q.validate = .error e → q.printText = .error e := by
  constructor
  · intro h
    simp only [MetricsQueryObj.printText, h, ok_bind, MetricsQueryObj.str]
  · intro e h
    simp only [MetricsQueryObj.printText, h, error_bind]

/-- **C61** (any terminal): what `str` and `print` give is printable ASCII and new lines, whatever characters the query has. -/
theorem C61_printable (q : MetricsQueryObj) (t : Str) (h : q.str = .ok t ∨ q.printText = .ok t) :
    ∀ c ∈ t, c = '\n' ∨ (32 ≤ c.toNat ∧ c.toNat ≤ 126) := by
  have key : ∃ j, t = encodeJson true 0 j := by
    rcases h with h | h
    · simp only [MetricsQueryObj.str, jsonDumpsIndented, bind_eq_ok, Except.ok.injEq] at h
      obtain ⟨_, _, j, _, rfl⟩ := h
      exact ⟨j, rfl⟩
    · simp only [MetricsQueryObj.printText, jsonDumpsIndented, bind_eq_ok, Except.ok.injEq] at h
      obtain ⟨_, _, _, _, j, _, rfl⟩ := h
      exact ⟨j, rfl⟩
  obtain ⟨j, rfl⟩ := key
  intro c hc
  rcases encodeJson_shown true j 0 c hc with h | ⟨_, h⟩
  · exact .inr h
  · exact .inl h

/-- **C61** (what is sent): the context that is shown is the context that is sent; only the MQL text may differ, because the filters
are optimised before a query is sent. -/
theorem C61_same_context (q : MetricsQueryObj) (t : Str) (d : Data) (h : q.printText = .ok t) (hs : q.serialize.1 = .ok d) :
    ∃ text text' ctx j, d = .dict [(c!"mql", .val (.str text')), (c!"mql_context", ctx)] ∧ StandsFor ctx j ∧
      readJsonText true t = some (.obj [(c!"mql", .str text), (c!"mql_context", j)]) ∧
      ((∀ s, q.query ≠ .val (.str s)) ∨ text' = text) := by
  simp only [MetricsQueryObj.printText, jsonDumpsIndented, bind_eq_ok, Except.ok.injEq] at h
  obtain ⟨⟨⟩, hv, d', hp, j, hj, rfl⟩ := h
  unfold MetricsQueryObj.serialize at hs
  rw [hv] at hs
  simp only at hs
  split at hs
  · cases hs
  rename_i v hopt
  simp only at hs
  obtain ⟨text, start, end_, rollup, scope, limit, offset, extrapolate, mappings, h1, h2, h3, h4, h5, h6, h7, h8, h9, rfl⟩ := print_parts.1 hp
  obtain ⟨text', start', end', rollup', scope', limit', offset', extrapolate', mappings', g1, g2, g3, g4, g5, g6, g7, g8, g9, rfl⟩ :=
    print_parts.1 hs
  simp only [h2, h3, h4, h5, h6, h7, h8, h9, Except.ok.injEq] at g2 g3 g4 g5 g6 g7 g8 g9
  subst g2 g3 g4 g5 g6 g7 g8 g9
  simp only [Data.toJson, Val.toJson, bind_eq_ok, toJsonEntries, ok_bind, Except.ok.injEq] at hj
  obtain ⟨_, ⟨_, ⟨jc, hjc, rfl⟩, rfl⟩, rfl⟩ := hj
  refine ⟨text, text', _, jc, rfl, (Data.toJson_iff _ _).1 hjc, readJsonText_encode true true _ (.inl rfl), ?_⟩
  by_cases hq : ∃ s, q.query = .val (.str s)
  · obtain ⟨s, hq⟩ := hq
    rw [hq] at hopt h1
    cases hopt
    rw [h1] at g1
    cases g1
    exact .inr rfl
  · exact .inl fun s hs => hq ⟨s, hs⟩

end

section Examples
local instance exMetricsTextUnicode : PyUnicode := asciiUnicode
local instance exMetricsTextSpace : RegexSpace := pySpace
local instance exMetricsTextRepr : PyRepr := ⟨fun _ => []⟩

/-- A query with mappings inside mappings, and one that has bytes among them. -/
private def exShown (m : Data) : MetricsQueryObj := { exMetricsQuery exOrObject with indexerMappings := .data m }

set_option maxRecDepth 10000 in
/-- C61: the text. -/
example : (exShown (.dict [(c!"é", .dict [])])).printText =
    .ok c!"{\n    \"mql\": \"sum(m){(a:\\\"1\\\" OR a:\\\"2\\\")}\",\n    \"mql_context\": {\n        \"start\": \"2024-02-29T12:30:05.000007-05:30\",\n        \"end\": \"2024-03-01T00:00:00\",\n        \"rollup\": {\n            \"orderby\": null,\n            \"granularity\": 60,\n            \"interval\": 3600,\n            \"with_totals\": \"True\"\n        },\n        \"scope\": {\n            \"org_ids\": [\n                1\n            ],\n            \"project_ids\": [\n                2,\n                3\n            ],\n            \"use_case_id\": \"transactions\"\n        },\n        \"indexer_mappings\": {\n            \"\\u00e9\": {}\n        },\n        \"limit\": 100,\n        \"offset\": null,\n        \"extrapolate\": null\n    }\n}" := by decide +kernel

example := C61_decodes (exShown (.dict [(c!"m", .val (.int 7))])) _ rfl
example := C61_printable (exShown (.dict [(c!"é", .val (.str c!"\n"))])) _ (.inr rfl)
example := C61_same_context (exShown (.dict [(c!"m", .val (.int 7))])) _ _ rfl rfl
example := C61_prints_iff (exShown (.dict [(c!"m", .val (.bytes [1]))])) rfl

/-- C61: bytes among the mappings pass the validation and have no text; the same holds for a granularity of `b""`. -/
theorem C61_valid_without_text :
    ((exShown (.dict [(c!"m", .val (.bytes [1]))])).validate = .ok () ∧
      (exShown (.dict [(c!"m", .val (.bytes [1]))])).printText = .error .typeError) ∧
    (({ exShown (.dict []) with rollup := .rollup ⟨.none, .bool true, .none, .bytes []⟩ } : MetricsQueryObj).validate = .ok () ∧
      ({ exShown (.dict []) with rollup := .rollup ⟨.none, .bool true, .none, .bytes []⟩ } : MetricsQueryObj).printText = .error .typeError) :=
  ⟨⟨rfl, rfl⟩, rfl, rfl⟩

/-- C61: `str` of a query that is not valid. -/
example := (C61_str_decodes ({ exShown (.dict []) with limit := .val (.limit (.int (-1))) } : MetricsQueryObj)).2 _ rfl
example : ({ exShown (.dict []) with limit := .val (.limit (.int (-1))) } : MetricsQueryObj).printText = .error .invalidExpression := rfl
example : ∃ t, ({ exShown (.dict []) with limit := .val (.limit (.int (-1))) } : MetricsQueryObj).str = .ok t := ⟨_, rfl⟩

end Examples

end Verif
