import Verif.Lemmas.RequestMessages
import Verif.Props.Messages

/-!
# Theorems: what the exceptions of requests say
-/

namespace Verif
open Spec BuildMsg MetricsMsg QueryMsg RequestMsg

section
variable [PyShow] [PyText] [U : PyUnicode] [S : RegexSpace] [R : PyRepr]

/-- C92: validation with messages accepts the same requests, and raises the same classes, as the function in the rest of the model. -/
theorem C92_same_class {σ : SetOrders} (hσ : PossibleOrders σ) (r : RequestObj) : dropMessage (r.validateMsg σ) = r.validate := by
  have hq : dropMessage (r.query.validateMsg σ) = r.query.validate := by
    cases r.query with
    | snql q => exact (C91_same_class hσ).1 q
    | metrics q => exact (C90_same_class_validate q .none .none (.val .none)).1
    | delete d => exact (C85_same_class σ).2.2.2.2.1 d
  simp only [RequestObj.validateMsg, RequestObj.validate, drop_bind, drop_name, drop_parent, drop_tenants, drop_reqFlags, hq]

omit [PyShow] [PyText] U S R in
/-- C92: a deletion is refused exactly for the first thing it lacks. -/
theorem C92_delete (d : DeleteObj) : RefusedBy d.validateMsg (deleteDemands d) := by_delete d

omit [PyShow] [PyText] U S R in
/-- C92: flags are refused exactly for the first of them, in the order of their declaration, that is neither a boolean nor left out. -/
theorem C92_flags (f : FlagsObj) : RefusedBy f.validateMsg (flagDemands (some f)) := by_flags (some f)

/-- C92: a request is refused for the first of the following that fails: dataset, app id, `parent_api`, `tenant_ids`, the query, the flags.
Whatever is asked of the query, it is asked after the former and before the latter, and what is said of it is passed on as it is. -/
theorem C92_request (σ : SetOrders) (r : RequestObj) {ds : List Demand} (h : RefusedBy (r.query.validateMsg σ) ds) :
    RefusedBy (r.validateMsg σ) (headDemands r ++ (ds ++ flagDemands r.flags)) := by
  rw [validate_head]
  exact by_bind (by_head r) fun _ _ _ => by_bind h fun _ _ _ => by_flags _

/-- C92: a request for a deletion is refused exactly for the first thing it lacks. -/
theorem C92_deletion (σ : SetOrders) (r : RequestObj) {d : DeleteObj} (hd : r.query = .delete d) :
    RefusedBy (r.validateMsg σ) (headDemands r ++ (deleteDemands d ++ flagDemands r.flags)) :=
  C92_request σ r (by rw [hd]; exact C92_delete d)

/-- C92: so is a request for a metrics query whose formulas hold what their annotations say. -/
theorem C92_metrics (σ : SetOrders) (r : RequestObj) {q : MetricsQueryObj} (hq : r.query = .metrics q)
    (ht : ∀ n p a f g, q.query = .formula n p a f g → (∀ d ∈ formulaFieldDemands n p, d.holds) → ∀ y, InFormula q.query y → Typed y) :
    RefusedBy (r.validateMsg σ) (headDemands r ++ (metricsQueryDemands q ++ flagDemands r.flags)) :=
  C92_request σ r (by rw [hq]; exact C90_validate q ht)

/-- C92: a request for a query made of objects of the SDK is refused for what its head lacks, else for the first fault of the query, else for a
flag; it is accepted if nothing of that applies; and there is always a message. -/
theorem C92_query {σ : SetOrders} (hσ : PossibleOrders σ) (r : RequestObj) {q : Query} (hq : r.query = .snql q) (hc : Called q) :
    (∀ x m, r.validateMsg σ = .error (x, m) →
      FirstUnmet (headDemands r) (x, m) ∨
      ((∀ d ∈ headDemands r, d.holds) ∧ ∃ t, m = some t ∧ FirstFault q x t) ∨
      ((∀ d ∈ headDemands r, d.holds) ∧ (∀ y t, ¬ FirstFault q y t) ∧ FirstUnmet (flagDemands r.flags) (x, m))) ∧
    (r.validateMsg σ = .ok () ↔
      (∀ d ∈ headDemands r, d.holds) ∧ (∀ y t, ¬ FirstFault q y t) ∧ ∀ d ∈ flagDemands r.flags, d.holds) ∧
    ∀ x, r.validateMsg σ ≠ .error (x, none) := by
  have hv : r.query.validateMsg σ = q.validateMsg σ := by rw [hq]; rfl
  have hf := C91_first hσ hc
  have hh := accepted (by_head r)
  have hfl := accepted (by_flags r.flags)
  rw [validate_head, hv]
  have silent : ∀ {ds : List Demand}, (∀ d ∈ ds, ∃ t, d.raises.2 = some t) → ∀ {x m}, FirstUnmet ds (x, m) → m ≠ none := by
    rintro ds h x m ⟨before, d, after, rfl, _, _, hd⟩ rfl
    obtain ⟨t, ht⟩ := h d (by simp)
    rw [hd] at ht; cases ht
  have hsaid : ∀ d ∈ headDemands r, ∃ t, d.raises.2 = some t := by
    intro d hd
    have hn : ∀ field x, d ∈ nameDemands field x → ∃ t, d.raises.2 = some t := by
      intro field x h
      unfold nameDemands at h
      rcases List.mem_cons.1 h with rfl | h
      · exact ⟨_, rfl⟩
      · split at h
        · cases List.mem_singleton.1 h; exact ⟨_, rfl⟩
        · cases h
    simp only [headDemands, List.mem_append, List.mem_cons, List.not_mem_nil, or_false] at hd
    rcases hd with (h | h) | rfl | rfl
    · exact hn _ _ h
    · exact hn _ _ h
    · exact ⟨_, rfl⟩
    · exact ⟨_, rfl⟩
  have fsaid : ∀ d ∈ flagDemands r.flags, ∃ t, d.raises.2 = some t := by
    intro d hd
    unfold flagDemands at hd
    split at hd
    · cases hd
    · simp only [List.mem_cons, List.not_mem_nil, or_false] at hd
      rcases hd with rfl | rfl | rfl | rfl | rfl | rfl <;> exact ⟨_, rfl⟩
  cases h1 : headMsg r with
  | error e =>
    have he := (by_head r e).1 h1
    refine ⟨?_, ?_, ?_⟩
    · rintro x m ⟨⟩; exact .inl he
    · simp only [error_bind, reduceCtorEq, false_iff]
      rintro ⟨h, _⟩
      exact all_met.1 h _ he
    · rintro x ⟨⟩; exact silent hsaid he rfl
  | ok u =>
    have ho := hh.1 ⟨u, h1⟩
    simp only [ok_bind]
    cases h2 : q.validateMsg σ with
    | error e =>
      obtain ⟨y, m⟩ := e
      obtain ⟨t, rfl⟩ := (C91_message_given hσ hc).1 h2
      have he := hf.1 _ _ h2
      refine ⟨?_, ?_, ?_⟩
      · rintro x m ⟨⟩; exact .inr (.inl ⟨ho, t, rfl, he⟩)
      · simp only [error_bind, reduceCtorEq, false_iff]
        rintro ⟨_, h, _⟩
        exact h _ _ he
      · rintro x ⟨⟩
    | ok u =>
      have hno : ∀ y t, ¬ FirstFault q y t := by
        intro y t h
        obtain ⟨e, he⟩ := hf.2.2 ⟨y, t, h⟩
        rw [h2] at he; cases he
      simp only [ok_bind]
      refine ⟨?_, ?_, ?_⟩
      · intro x m h; exact .inr (.inr ⟨ho, hno, (by_flags _ _).1 h⟩)
      · constructor
        · intro h; exact ⟨ho, hno, hfl.1 ⟨_, h⟩⟩
        · rintro ⟨_, _, h⟩
          obtain ⟨⟨⟩, h⟩ := hfl.2 h
          exact h
      · intro x h; exact silent fsaid ((by_flags _ _).1 h) rfl

/-- C92: while the dataset, the app id, `parent_api` or `tenant_ids` are not in order, neither the query nor the flags have any effect on what is
raised. -/
theorem C92_head_first (σ : SetOrders) (r : RequestObj) (h : ∃ d ∈ headDemands r, ¬ d.holds) (q : AnyQuery) (f : Option FlagsObj) :
    ∃ e, r.validateMsg σ = .error e ∧ { r with query := q, flags := f }.validateMsg σ = .error e := by
  obtain ⟨d, hd, hn⟩ := h
  have hh := accepted (by_head r)
  rw [validate_head, validate_head]
  have same : headMsg { r with query := q, flags := f } = headMsg r := rfl
  rw [same]
  cases h1 : headMsg r with
  | error e => exact ⟨e, rfl, rfl⟩
  | ok u => exact absurd (hh.1 ⟨u, h1⟩ d hd) hn

/-- C92: a request in order, in which only the dataset is replaced, is refused only for the dataset, in these words. -/
theorem C92_dataset_replaced {σ : SetOrders} {r : RequestObj} (hr : r.validateMsg σ = .ok ()) (d : Data) :
    RefusedBy ({ r with dataset := d }.validateMsg σ) (nameDemands c!"dataset" d) := by
  simp only [RequestObj.validateMsg] at hr ⊢
  have hn := by_name c!"dataset" d
  cases h0 : checkNameMsg c!"dataset" r.dataset with
  | error e => rw [h0] at hr; cases hr
  | ok u =>
    rw [h0] at hr
    simp only [ok_bind] at hr
    simp only [hr]
    cases h : checkNameMsg c!"dataset" d with
    | error e => simp only [error_bind]; rw [← h]; exact hn
    | ok u => simp only [ok_bind]; rw [← h]; exact hn

end

/-! ### Cases -/

section
@[local instance, reducible] private def exRmAscii : PyUnicode := asciiUnicode
@[local instance, reducible] private def exRmSpace : RegexSpace := pySpace
@[local instance, reducible] private def exRmRepr : PyRepr := ⟨fun _ => c!"<object>"⟩
@[local instance, reducible] private def exRmShow : PyShow := ⟨fun _ => false, fun _ => c!"<object>"⟩
@[local instance, reducible] private def exRmText : PyText := ⟨fun _ => c!"<object>", fun _ => c!"builtins.object"⟩

private def exRmSays {α : Type} : Except Raised α → Option Raised
  | .ok _ => none
  | .error r => some r

private def exRmOrders : SetOrders := ⟨id, id, id, id, id, id, id⟩

private theorem exRmOrders_possible : PossibleOrders exRmOrders := by
  have h : ∀ {α : Type} (eq : α → α → Bool) (xs : List α), SeesSet eq xs (id xs) :=
    fun _ xs => ⟨fun _ h => h, fun x hx => ⟨x, hx, .inl rfl⟩⟩
  exact ⟨h _, h _, h _, h _, h _, h _, h _⟩

private def exRmStr (s : Str) : Data := .val (.str s)

/-- A deletion of two columns. -/
private def exRmDelete : DeleteObj :=
  ⟨exRmStr c!"search_issues", .dict [(c!"id", .val (.list [.int 1, .int 2])), (c!"status", .val (.list [.str c!"failed"]))]⟩

/-- A request for it. -/
private def exRmRequest : RequestObj := { dataset := exRmStr c!"search_issues", appId := exRmStr c!"default", query := .delete exRmDelete }

example :
    exRmSays (exRmRequest.validateMsg exRmOrders) = none ∧
    exRmSays ({ exRmRequest with dataset := .val .none }.validateMsg exRmOrders) =
      some (.invalidRequest, some c!"Request must have a valid dataset") ∧
    exRmSays ({ exRmRequest with dataset := exRmStr [], appId := exRmStr c!"@@ff@@" }.validateMsg exRmOrders) =
      some (.invalidRequest, some c!"Request must have a valid dataset") ∧
    exRmSays ({ exRmRequest with dataset := exRmStr c!"@@ff@@", appId := .val (.int 2) }.validateMsg exRmOrders) =
      some (.invalidRequest, some c!"'@@ff@@' is not a valid dataset") ∧
    exRmSays ({ exRmRequest with appId := .val (.int 2), parentApi := .val (.int 6) }.validateMsg exRmOrders) =
      some (.invalidRequest, some c!"Request must have a valid app_id") ∧
    exRmSays ({ exRmRequest with appId := exRmStr c!"@@ff@@", parentApi := .val (.int 6) }.validateMsg exRmOrders) =
      some (.invalidRequest, some c!"'@@ff@@' is not a valid app_id") ∧
    exRmSays ({ exRmRequest with parentApi := .val (.int 6), tenantIds := .val .none }.validateMsg exRmOrders) =
      some (.invalidRequest, some c!"`6` is not a valid parent_api") ∧
    exRmSays ({ exRmRequest with parentApi := .dict [(c!"a", .val .none)] }.validateMsg exRmOrders) =
      some (.invalidRequest, some c!"`{'a': None}` is not a valid parent_api") ∧
    exRmSays ({ exRmRequest with tenantIds := .val .none, query := .delete ⟨.val .none, .dict []⟩ }.validateMsg exRmOrders) =
      some (.invalidRequest, some c!"Request must have a `tenant_ids` dictionary") ∧
    exRmSays ({ exRmRequest with query := .delete ⟨.val .none, .dict []⟩, flags := some { debug := .int 1 } }.validateMsg exRmOrders) =
      some (.invalidDelete, some c!"column conditions cannot be empty") ∧
    exRmSays ({ exRmRequest with query := .delete ⟨.val .none, .dict [(c!"a", .val (.list [.int 1])), (c!"b", .val (.list [])), (c!"c", .list [])]⟩ }.validateMsg
      exRmOrders) = some (.invalidDelete, some c!"column condition 'b' cannot be empty") ∧
    exRmSays ({ exRmRequest with query := .delete ⟨.val .none, .dict [(c!"a", .val (.int 1)), (c!"b", .val (.list []))]⟩ }.validateMsg exRmOrders) =
      some (.typeError, none) ∧
    exRmSays ({ exRmRequest with flags := some { debug := .int 1, totals := .bool true, legacy := .int 0 } }.validateMsg exRmOrders) =
      some (.invalidFlag, some c!"debug must be a boolean") ∧
    exRmSays ({ exRmRequest with flags := none }.validateMsg exRmOrders) = none ∧
    exRmSays ({ exRmRequest with query := .metrics {} }.validateMsg exRmOrders) =
      some (.invalidMetricsQuery, some c!"query is required for a metrics query") := by
  refine ⟨?_, ?_, ?_, ?_, ?_, ?_, ?_, ?_, ?_, ?_, ?_, ?_, ?_, ?_, ?_⟩ <;> decide +kernel

example := C92_same_class exRmOrders_possible exRmRequest

example : FirstUnmet (deleteDemands ⟨.val .none, .dict [(c!"a", .val (.list [.int 1])), (c!"b", .val (.list []))]⟩)
    (.invalidDelete, some c!"column condition 'b' cannot be empty") := (C92_delete _ _).1 rfl
example : FirstUnmet (flagDemands (some { debug := .int 1, legacy := .int 0 })) (.invalidFlag, some c!"debug must be a boolean") :=
  (C92_flags _ _).1 rfl

/-- A deletion without conditions in a request with a bad flag. -/
private def exRmEmpty : RequestObj := { exRmRequest with query := .delete ⟨.val .none, .dict []⟩, flags := some { debug := .int 1 } }

example : FirstUnmet (headDemands exRmEmpty ++ (deleteDemands ⟨.val .none, .dict []⟩ ++ flagDemands exRmEmpty.flags))
    (.invalidDelete, some c!"column conditions cannot be empty") := (C92_deletion exRmOrders exRmEmpty rfl _).1 rfl
example := C92_request exRmOrders exRmEmpty (C92_delete ⟨.val .none, .dict []⟩)

/-- A metrics query without a query, and one whose query is no object of the right kind. -/
private def exRmMetrics (x : MVal) : RequestObj := { exRmRequest with query := .metrics { query := x } }

example : FirstUnmet (headDemands (exRmMetrics (.val (.int 5))) ++
      (metricsQueryDemands { query := .val (.int 5) } ++ flagDemands (some {})))
    (.invalidMetricsQuery, some c!"query must be a Timeseries or Formula or MQL string") :=
  (C92_metrics exRmOrders (exRmMetrics (.val (.int 5))) rfl (by intro n p a f g h; cases h) _).1 rfl

/-- A query that has no select list: the head is in order, so this is what is reported, and not the flag. -/
private def exRmBare : Query := .base (.entity ⟨c!"events", none, none, none⟩) {}
private theorem exRmBare_called : Called exRmBare :=
  .new _ _ (.entity (.str c!"events") .none .none .none _ (.literal _ (.str _)) (.literal _ .none) (.literal _ .none) (.literal _ .none) rfl) rfl
private def exRmQuery : RequestObj := { exRmRequest with query := .snql exRmBare, flags := some { turbo := .int 1 } }

example : exRmSays (exRmQuery.validateMsg exRmOrders) = some (.invalidQuery, some c!"query must have at least one expression in select") := by
  decide +kernel
example := (C92_query exRmOrders_possible exRmQuery rfl exRmBare_called).1 .invalidQuery
  (some c!"query must have at least one expression in select") rfl

example := C92_head_first exRmOrders { exRmQuery with appId := .val (.int 2) } ⟨_, by
  simp only [headDemands, nameDemands, List.mem_append]
  exact .inl (.inr List.mem_cons_self), by rintro ⟨s, h, _⟩; cases h⟩ (.delete exRmDelete) none

example := C92_dataset_replaced (σ := exRmOrders) (r := exRmRequest) rfl (exRmStr c!"@@ff@@")

end

end Verif
