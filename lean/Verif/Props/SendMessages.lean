import Verif.Lemmas.SendMessages

/-!
# C95: what is said when a request cannot be sent
-/

namespace Verif
open Spec BuildMsg MetricsMsg QueryMsg RequestMsg SendMsg

section
variable [PyShow] [PyText] [U : PyUnicode] [S : RegexSpace] [R : PyRepr]

/-- **C95** (classes). Without the messages the functions are those of the rest of the model. -/
theorem C95_same_class {σ : SetOrders} (hσ : PossibleOrders σ) (r : RequestObj) :
    dropMessage (r.toDictMsg σ) = r.toDict.1 ∧ dropMessage (r.serializeMsg σ) = r.serialize ∧ dropMessage (r.printMsg σ) = r.print := by
  have h : dropMessage (r.toDictMsg σ) = r.toDict.1 := by
    simp only [RequestObj.toDictMsg, RequestObj.toDict, Verif.drop_bind, C92_same_class hσ, drop_flagsDict, drop_build hσ]
    cases r.validate with
    | error e => rfl
    | ok _ => cases flagsDict r.flags <;> rfl
  refine ⟨h, ?_, ?_⟩
  · simp only [RequestObj.serializeMsg, RequestObj.serialize, Verif.drop_bind, h, PrintMessages.drop_else]
  · simp only [RequestObj.printMsg, RequestObj.print, Verif.drop_bind, h, C92_same_class hσ, PrintMessages.drop_else]

/-- **C95** (classes of what is sent). So are those of queries and deletions. -/
theorem C95_same_class_query {σ : SetOrders} (hσ : PossibleOrders σ) (q : Query) (d : DeleteObj) :
    dropMessage (q.serializeMsg σ) = q.serialize ∧ dropMessage d.serializeMsg = d.serialize := by
  refine ⟨drop_query hσ q, ?_⟩
  simp only [DeleteObj.serializeMsg, DeleteObj.serialize, Verif.drop_bind, (C85_same_class σ).2.2.2.2.1 d]
  rfl

/-- **C95** (validation). What the validation of a request says, every way of sending it says. -/
theorem C95_invalid (σ : SetOrders) (r : RequestObj) (x : Raised) (h : r.validateMsg σ = .error x) :
    r.toDictMsg σ = .error x ∧ r.serializeMsg σ = .error x ∧ r.printMsg σ = .error x := by
  simp only [RequestObj.toDictMsg, RequestObj.serializeMsg, RequestObj.printMsg, h, error_bind, and_self]

/-- **C95** (deletions). A request for a deletion is sent exactly if it is in order; otherwise the first thing it lacks is reported. -/
theorem C95_deletion (σ : SetOrders) (r : RequestObj) {d : DeleteObj} (hd : r.query = .delete d) :
    RefusedBy (r.toDictMsg σ) (headDemands r ++ (deleteDemands d ++ flagDemands r.flags)) := by
  intro x
  rw [← C92_deletion σ r hd x]
  cases h : r.validateMsg σ with
  | error y => rw [(C95_invalid σ r y h).1]; simp only [Except.error.injEq]
  | ok u =>
    obtain ⟨flags, hf⟩ := toDict_valid h
    have hv := (valid_parts h).1
    rw [hd] at hv
    simp only [AnyQuery.validateMsg] at hv
    rw [hf]
    simp only [RequestObj.buildMsg, hd, DeleteObj.serializeMsg, hv, ok_bind, reduceCtorEq]

/-- **C95** (MQL strings). A request for an MQL string is sent exactly if it is in order and has mappings. The mappings are looked at after
everything else, the flags included. -/
theorem C95_string (σ : SetOrders) (r : RequestObj) {q : MetricsQueryObj} {s : Str} (hq : r.query = .metrics q)
    (hs : q.query = .val (.str s)) :
    RefusedBy (r.toDictMsg σ)
      (headDemands r ++ (metricsQueryDemands q ++ (flagDemands r.flags ++ [mappingsDemand q]))) := by
  have hw := C92_metrics σ r hq (by intro n p a f g h; rw [hs] at h; cases h)
  have hb : RefusedBy (r.validateMsg σ >>= fun _ => r.toDictMsg σ)
      ((headDemands r ++ (metricsQueryDemands q ++ flagDemands r.flags)) ++ [mappingsDemand q]) := by
    refine by_bind hw fun _ ho _ x => ?_
    have hv : q.validate = .ok () := by
      have := (valid_parts ho).1
      rw [hq] at this
      simp only [AnyQuery.validateMsg] at this
      rw [← MetricsMsg.drop_metricsQuery, this]; rfl
    obtain ⟨h1, h2⟩ := C94_string q s x hv hs
    rw [metrics_build hq ho, h2, h1]
    simp only [unmet_cons, unmet_nil, and_false, or_false, mappingsDemand, ne_eq]
    exact ⟨fun ⟨h, h'⟩ => ⟨fun hn => hn h, h'.symm⟩, fun ⟨h, h'⟩ => ⟨Classical.byContradiction h, h'.symm⟩⟩
  have he : (r.validateMsg σ >>= fun _ => r.toDictMsg σ) = r.toDictMsg σ := by
    cases h : r.validateMsg σ with
    | error y => rw [(C95_invalid σ r y h).1]; rfl
    | ok _ => rfl
  rw [he] at hb
  simpa only [List.append_assoc] using hb

/-- **C95** (metrics queries). For a request for a timeseries or formula, a message is that of the first thing the request lacks or, if it lacks
nothing, one of the two messages of the printer. -/
theorem C95_metrics (σ : SetOrders) (r : RequestObj) {q : MetricsQueryObj} (hq : r.query = .metrics q) (ho : QueryObject q.query)
    (ht : ∀ y, InFormula q.query y → Typed y) (hn : MetricsNamed q.query) (e : Err) (m : Str) (h : r.toDictMsg σ = .error (e, some m)) :
    FirstUnmet (headDemands r ++ (metricsQueryDemands q ++ flagDemands r.flags)) (e, some m) ∨
    ((∀ d ∈ headDemands r ++ (metricsQueryDemands q ++ flagDemands r.flags), d.holds) ∧
      ((e = .invalidMetricsQuery ∧ m = c!"MetricQuery.indexer_mappings must not be None" ∧ q.indexerMappings = .val .none) ∨
       (e = .invalidExpression ∧ m = c!"CurriedFunction and Function are not supported in conditions in MQL" ∧
         FunctionInFilters q.serialize.2.query))) := by
  have hw := C92_metrics σ r hq fun _ _ _ _ _ _ _ => ht
  cases hv : r.validateMsg σ with
  | error y =>
    rw [(C95_invalid σ r y hv).1] at h
    cases h
    exact .inl ((hw _).1 hv)
  | ok u =>
    refine .inr ⟨(accepted hw).1 ⟨u, hv⟩, ?_⟩
    have hs := (metrics_build hq hv _).1 h
    have hqv : q.validate = .ok () := by
      have := (valid_parts hv).1
      rw [hq] at this
      simp only [AnyQuery.validateMsg] at this
      rw [← MetricsMsg.drop_metricsQuery, this]; rfl
    exact C94_serialize q e m hqv ho hn hs

/-- **C95** (queries). A request for a query made of objects of the SDK raises the exception of its validation or, if it is valid, one without a
message of the SDK for a value in some clause that has no text. -/
theorem C95_query {σ : SetOrders} (hσ : PossibleOrders σ) (r : RequestObj) {q : Query} (hq : r.query = .snql q) (hc : Called q) (x : Err)
    (m : Option Str) (h : r.toDictMsg σ = .error (x, m)) :
    (r.validateMsg σ = .error (x, m) ∧ ∃ t, m = some t) ∨
    (r.validateMsg σ = .ok () ∧ m = none ∧ ∃ v, InClauses v q ∧ ∃ y, Part y v ∧ Blames x y) := by
  cases hv : r.validateMsg σ with
  | error y =>
    rw [(C95_invalid σ r y hv).1] at h
    cases h
    refine .inl ⟨rfl, ?_⟩
    cases m with
    | some t => exact ⟨t, rfl⟩
    | none => exact absurd hv ((C92_query hσ r hq hc).2.2 x)
  | ok u =>
    refine .inr ⟨rfl, ?_⟩
    obtain ⟨flags, hf⟩ := toDict_valid hv
    have hqv := (valid_parts hv).1
    rw [hq] at hqv
    simp only [AnyQuery.validateMsg] at hqv
    have hqv' : q.validate = .ok () := by rw [← (C91_same_class hσ).1 q, hqv]; rfl
    rw [hf] at h
    simp only [RequestObj.buildMsg, hq] at h
    have hs : q.serializeMsg σ = .error (x, m) := by
      cases hs : q.serializeMsg σ with
      | error y => rw [hs] at h; cases h; rfl
      | ok t => rw [hs] at h; cases h
    have hse : q.serialize = .error x := by rw [← drop_query hσ, hs]; rfl
    refine ⟨?_, C18_serialize_raises q (called_made hc) hqv' x hse⟩
    simp only [Query.serializeMsg, hqv, ok_bind] at hs
    cases hx : q.optimize with
    | error e => rw [hx] at hs; cases hs; rfl
    | ok o =>
      rw [hx] at hs
      simp only [elsewhere, ok_bind] at hs
      split at hs <;> cases hs
      rfl

/-- **C95** (JSON). `serialize` and `print` raise what `to_dict` raises, and beyond that only `TypeError`, for a dictionary that stands for no JSON
value. -/
theorem C95_json (σ : SetOrders) (r : RequestObj) (x : Raised) :
    (r.serializeMsg σ = .error x ↔
      r.toDictMsg σ = .error x ∨ ∃ d, r.toDictMsg σ = .ok d ∧ (¬ ∃ j, StandsFor d j) ∧ x = (.typeError, none)) ∧
    (r.printMsg σ = .error x ↔ r.serializeMsg σ = .error x) := by
  have hj : ∀ d : Data, (∃ j, d.toJson = .ok j) ∧ (∃ j, StandsFor d j) ∨ d.toJson = .error .typeError ∧ ¬ ∃ j, StandsFor d j := by
    intro d
    cases h : d.toJson with
    | ok j => exact .inl ⟨⟨j, rfl⟩, j, (Data.toJson_iff d j).1 h⟩
    | error e =>
      cases Data.toJson_error d h
      refine .inr ⟨rfl, ?_⟩
      rintro ⟨j, hj⟩
      rw [(Data.toJson_iff d j).2 hj] at h; cases h
  constructor
  · simp only [RequestObj.serializeMsg]
    cases hd : r.toDictMsg σ with
    | error e => simp only [error_bind, reduceCtorEq, false_and, exists_false, or_false, Except.error.injEq]
    | ok d =>
      simp only [ok_bind, jsonDumps, Except.ok.injEq, reduceCtorEq, false_or]
      rcases hj d with ⟨⟨j, h1⟩, h2⟩ | ⟨h1, h2⟩
      · simp only [h1, ok_bind, elsewhere, reduceCtorEq, false_iff]
        rintro ⟨_, rfl, h, _⟩
        exact h h2
      · simp only [h1, error_bind, elsewhere, Except.error.injEq]
        exact ⟨fun h => ⟨d, rfl, h2, h.symm⟩, fun ⟨_, _, _, h⟩ => h.symm⟩
  · simp only [RequestObj.serializeMsg, RequestObj.printMsg]
    cases hv : r.validateMsg σ with
    | error y => rw [(C95_invalid σ r y hv).1]; simp only [error_bind]
    | ok _ =>
      simp only [ok_bind]
      cases hd : r.toDictMsg σ with
      | error e => simp only [error_bind]
      | ok d =>
        simp only [ok_bind, jsonDumps, jsonDumpsPretty]
        rcases hj d with ⟨⟨j, h1⟩, _⟩ | ⟨h1, _⟩ <;> simp only [h1, ok_bind, error_bind, elsewhere, reduceCtorEq]

end

section Examples

@[local instance, reducible] private def exSmAscii : PyUnicode := asciiUnicode
@[local instance, reducible] private def exSmSpace : RegexSpace := pySpace
@[local instance, reducible] private def exSmRepr : PyRepr := ⟨fun _ => c!"<object>"⟩
@[local instance, reducible] private def exSmShow : PyShow := ⟨fun _ => false, fun _ => c!"<object>"⟩
@[local instance, reducible] private def exSmText : PyText := ⟨fun _ => c!"<object>", fun _ => c!"builtins.object"⟩

private def exSmOrders : SetOrders := ⟨id, id, id, id, id, id, id⟩

private theorem exSmOrders_possible : PossibleOrders exSmOrders := by
  have h : ∀ {α : Type} (eq : α → α → Bool) (xs : List α), SeesSet eq xs (id xs) :=
    fun _ xs => ⟨fun _ h => h, fun x hx => ⟨x, hx, .inl rfl⟩⟩
  exact ⟨h _, h _, h _, h _, h _, h _, h _⟩

private def exSmStr (s : Str) : Data := .val (.str s)

/-- A request for a deletion, and the same with a flag that is no boolean. -/
private def exSmDelete : DeleteObj := ⟨exSmStr c!"search_issues", .dict [(c!"project_id", .val (.list [.int 1]))]⟩
private def exSmRequest : RequestObj := { dataset := exSmStr c!"search_issues", appId := exSmStr c!"default", query := .delete exSmDelete }
private def exSmFlag : RequestObj := { exSmRequest with flags := some { debug := .int 1 } }

example : ∀ d ∈ headDemands exSmRequest ++ (deleteDemands exSmDelete ++ flagDemands exSmRequest.flags), d.holds :=
  (accepted (C95_deletion exSmOrders exSmRequest rfl)).1 ⟨_, rfl⟩
example : FirstUnmet (headDemands exSmFlag ++ (deleteDemands exSmDelete ++ flagDemands exSmFlag.flags))
    (.invalidFlag, some c!"debug must be a boolean") := (C95_deletion exSmOrders exSmFlag rfl _).1 rfl
example : exSmFlag.printMsg exSmOrders = .error (.invalidFlag, some c!"debug must be a boolean") :=
  (C95_invalid exSmOrders exSmFlag _ rfl).2.2
example : exSmFlag.serialize = .error .invalidFlag := by
  rw [← (C95_same_class exSmOrders_possible exSmFlag).2.1, (C95_invalid exSmOrders exSmFlag _ rfl).2.1]; rfl

/-- A query without a select clause. -/
example : (Query.base (.entity ⟨c!"events", none, none, none⟩) {}).serialize = .error .invalidQuery := by
  rw [← (C95_same_class_query exSmOrders_possible _ exSmDelete).1]; rfl

/-- A request for an MQL string without mappings, and with a bad flag too: the flag is reported. -/
private def exSmMetrics (x : MVal) : RequestObj :=
  { exSmRequest with query := .metrics { exMetricsQuery x with indexerMappings := .val .none } }

example : FirstUnmet (headDemands (exSmMetrics (.val (.str exOrText))) ++ (metricsQueryDemands { exMetricsQuery (.val (.str exOrText)) with
      indexerMappings := .val .none } ++ (flagDemands (some {}) ++ [mappingsDemand { exMetricsQuery (.val (.str exOrText)) with
      indexerMappings := .val .none }])))
    (.invalidMetricsQuery, some c!"MetricQuery.indexer_mappings must not be None") :=
  (C95_string exSmOrders (exSmMetrics (.val (.str exOrText))) rfl rfl _).1 rfl
example : { exSmMetrics (.val (.str exOrText)) with flags := some { debug := .int 1 } }.toDictMsg exSmOrders =
    .error (.invalidFlag, some c!"debug must be a boolean") := (C95_invalid _ _ _ rfl).1

/-- A request for a timeseries with a filter `a = ff(b)`. -/
private def exSmCall : Val := .curried true c!"ff" .absent [] .list [keyColumn c!"b"] none
private def exSmSeries : TimeseriesObj := ⟨⟨.str c!"m", .none, .none⟩, .str c!"sum", .none, .list [.cond (keyColumn c!"a") .eq exSmCall], .none⟩

private theorem exSmSeries_only {y : MVal} (h : InFormula (.ts exSmSeries) y) : y = .ts exSmSeries := by
  induction h with
  | self => rfl
  | param _ _ _ ih => cases ih

example : FunctionInFilters ({ exMetricsQuery (.ts exSmSeries) with indexerMappings := .val .none } : MetricsQueryObj).serialize.2.query := by
  rcases C95_metrics exSmOrders (exSmMetrics (.ts exSmSeries)) rfl (.ts _) (fun y hy => exSmSeries_only hy ▸ .ts _ .none)
    (fun t ht => by cases exSmSeries_only ht; exact ⟨.str _, .none, .none, c!"m", .inl rfl⟩) .invalidExpression
    c!"CurriedFunction and Function are not supported in conditions in MQL" rfl with h | ⟨_, h | h⟩
  · exact absurd h ((all_met.1 ((accepted (C92_metrics exSmOrders (exSmMetrics (.ts exSmSeries)) rfl (by intro _ _ _ _ _ h; cases h))).1
      ⟨_, rfl⟩)) _)
  · exact absurd h.1 (by decide)
  · exact h.2.2

/-- A request for a query that compares with bytes that are not UTF-8. -/
private def exSmQuery : Query :=
  .base (.entity ⟨c!"events", none, none, none⟩) {
    select := .list [keyColumn c!"a"]
    where_ := .list [.cond (keyColumn c!"a") .eq (.bytes [255])] }

private theorem exSm_key : Built (keyColumn c!"a") := .column (.str c!"a") .none _ (.literal _ (.str _)) (.literal _ .none) rfl

private theorem exSmQuery_called : Called exSmQuery := by
  refine .set .where_ (.base (.entity ⟨c!"events", none, none, none⟩) { select := .list [keyColumn c!"a"] })
    (.list [.cond (keyColumn c!"a") .eq (.bytes [255])]) _ (.set .select (.base (.entity ⟨c!"events", none, none, none⟩) {})
    (.list [keyColumn c!"a"]) _ (.new _ _ (.entity (.str c!"events") .none .none .none _ (.literal _ (.str _)) (.literal _ .none)
      (.literal _ .none) (.literal _ .none) rfl) rfl) (.list _ ?_) rfl) (.list _ ?_) rfl
  · simp only [List.mem_singleton, forall_eq]
    exact exSm_key
  · simp only [List.mem_singleton, forall_eq]
    exact .condition _ _ _ _ exSm_key (.op .eq) (.literal _ (.bytes _)) rfl

example : ∃ v, InClauses v exSmQuery ∧ ∃ y, Part y v ∧ Blames .unicodeDecodeError y := by
  rcases C95_query exSmOrders_possible { exSmRequest with query := .snql exSmQuery } rfl exSmQuery_called .unicodeDecodeError none rfl with
    ⟨_, t, h⟩ | h
  · cases h
  · exact h.2.2

/-- A request with tenants that have no JSON. -/
private def exSmBytes : RequestObj := { exSmRequest with tenantIds := .dict [(c!"a", .val (.bytes [1]))] }
example : exSmBytes.serializeMsg exSmOrders = .error (.typeError, none) := rfl
example : ∃ d, exSmBytes.toDictMsg exSmOrders = .ok d ∧ ¬ ∃ j, StandsFor d j := by
  rcases (C95_json exSmOrders exSmBytes _).1.1 rfl with h | ⟨d, h1, h2, _⟩
  · cases h
  · exact ⟨d, h1, h2⟩

end Examples

end Verif
