import Verif.Lemmas.LegacyRows
import Verif.Props.Legacy
import Verif.Props.Rows

/-!
# C77: a converted legacy request selects the rows that the body asks for
-/

namespace Verif
open Spec

section
variable [U : PyUnicode] [D : PyDecimal] [N : PyNumberText]

/-- **C77** (conversion): the where clause of the converted request is as true at any row as what the body asks of the row, and the having
clause as what it asks of a group. -/
theorem C77_converted {E : Type} (T : List Val → Tri) (I : Interp E) (ht : TruthAgrees T I) (b b' : LegacyBody) (entity : Str) (req : RequestObj)
    (h : jsonToSnql b entity = (.ok req, b')) : ∃ m c xs ys, req.query = .snql (.base m c) ∧ c.where_ = .list xs ∧ c.having = .list ys ∧
      (∀ t, BodyTruth T I b entity t ↔ t = I.evalAll xs) ∧ ∀ t, HavingTruth T b t ↔ t = I.evalAll ys := by
  obtain ⟨_, s, c, _, _, hq, hc⟩ := (requestOf_iff.1 ⟨b', h⟩).query
  obtain ⟨xs, hx, hw⟩ := hc.where_
  obtain ⟨vs, ys, hi, hy, hh⟩ := hc.having
  have hw := where_truth ht hw
  have hh := HavingTruth.mk hi (having_entries_truth ht hh)
  refine ⟨_, c, xs, ys, hq, hx, hy, fun t => ⟨fun h => bodyTruth_unique h hw, ?_⟩, fun t => ⟨fun h => havingTruth_unique h hh, ?_⟩⟩
  · rintro rfl; exact hw
  · rintro rfl; exact hh

variable [S : RegexSpace] [R : PyRepr]

/-- **C77** (end to end): the recipient of the text of a converted request finds a where and a having clause that are as true as what the
body asks. The provisos are those of C76, for the converted query. -/
theorem C77_sent {E : Type} (T : List Val → Tri) (I : Interp E) (J : Server E) (ht : TruthAgrees T I) (hj : Understands false J I)
    (b b' : LegacyBody) (entity : Str) (req : RequestObj) (q : Query) (text : Str) (h : jsonToSnql b entity = (.ok req, b'))
    (hq : req.query = .snql q) (hr : ReadableQuery q) (hu : UnambiguousQuery q) (hs : req.serialize = .ok text)
    (ha : ∀ xs, q.body.where_ = .list xs ∨ q.body.having = .list xs → EqualSidesAgree I xs) :
    ∃ kvs sent mt ct, readJsonText true text = some (.obj kvs) ∧ kvs.lookup c!"query" = some (.str sent) ∧
      readQuery sent = some (.base mt ct) ∧ (∀ t, BodyTruth T I b entity t ↔ J.clause ct.where_ = some t) ∧
      ∀ t, HavingTruth T b t ↔ J.clause ct.having = some t := by
  obtain ⟨kvs, sent, qt, h1, h2, h3, h4⟩ := C76_request req q text hq hr hu hs
  obtain ⟨m, c, xs, ys, hq', hx, hy, hw, hh⟩ := C77_converted T I ht b b' entity req h
  have hm := (requestOf_iff.1 ⟨b', h⟩).query
  obtain ⟨_, s, c', _, _, hq2, _⟩ := hm
  rw [hq'] at hq hq2
  cases hq
  cases hq2
  cases h4 with
  | base j _ _ mt ct hj' f1 f2 =>
    have : j = false := by
      cases j with
      | false => rfl
      | true => obtain ⟨_, _, h⟩ := hj'.1 rfl; cases h
    subst this
    refine ⟨kvs, sent, mt, ct, h1, h2, h3, fun t => ?_, fun t => ?_⟩
    · rw [hw, (f1 J I hj).2 .list xs (by rw [hx]; exact .list _) (ha xs (.inl hx))]
      exact ⟨fun h => by rw [h], fun h => by cases h; rfl⟩
    · rw [hh, (f2 J I hj).2 .list ys (by rw [hy]; exact .list _) (ha ys (.inr hy))]
      exact ⟨fun h => by rw [h], fun h => by cases h; rfl⟩

end

section Examples

attribute [local instance] asciiUnicode asciiDecimal noNumberText pySpace

@[local instance] private def exLegacyRowsRepr : PyRepr := ⟨fun _ => []⟩

/-- A project, a condition and a group of two. -/
private def rowsBody : LegacyBody :=
  { entries := [(c!"selected_columns", .list [.str c!"a"]), (c!"project", .int 7),
      (c!"conditions", .list [.list [.str c!"b", .str c!"IS NULL", .none],
        .list [.list [.str c!"a", .str c!"=", .int 1], .list [.str c!"a", .str c!"=", .int 2]]])] }

/-- A column without entity. -/
private def rowsCol (s : Str) : Val := .column ⟨s, none, none, none⟩

/-- `a = n`. -/
private def rowsIs (n : Int) : Val := .cond (rowsCol c!"a") .eq (.int n)

/-- What the body asks for. -/
private def rowsWhere : List Val :=
  [.cond (rowsCol c!"project_id") .in_ (.tuple [.int 7]), .cond (rowsCol c!"b") .isNull .none, .boolCond .or .or .list [rowsIs 1, rowsIs 2]]

/-- The converted query. -/
private def rowsQuery : Query :=
  .base (.entity ⟨c!"events", none, none, none⟩)
    { select := .list [rowsCol c!"a"], groupby := .list [], where_ := .list rowsWhere, having := .list [] }

/-- The converted request. -/
private def rowsRequest : RequestObj :=
  match (jsonToSnql rowsBody c!"events").1 with
  | .ok r => r
  | .error _ => { dataset := .val .none, appId := .val .none, query := .snql rowsQuery }

private theorem rowsRequest_is : jsonToSnql rowsBody c!"events" = (.ok rowsRequest, rowsBody) := by rfl

private theorem rowsRequest_query : rowsRequest.query = .snql rowsQuery := by rfl

/-- The truth of legacy conditions that a sender means. -/
private def rowsTruth {E : Type} (I : Interp E) (xs : List Val) : Tri :=
  match parseConditionItems xs with
  | .ok c => I.eval c
  | .error _ => .unknown

private theorem rowsTruth_agrees {E : Type} (I : Interp E) : TruthAgrees (rowsTruth I) I := by
  intro xs c h
  simp [rowsTruth, conditionOf_iff.2 h]

example {E : Type} (I : Interp E) := C77_converted (rowsTruth I) I (rowsTruth_agrees I) rowsBody _ c!"events" rowsRequest rowsRequest_is

private theorem rowsCol_built {s : Str} (h : mkColumn (.str s) .none = .ok (rowsCol s)) : Built (rowsCol s) :=
  .column (.str s) .none _ (.literal _ (.str _)) (.literal _ .none) h

private theorem rowsCol_readable (s : Str) : ReadableVal (rowsCol s) := by
  refine readableVal_iff.2 ⟨⟨?_, ?_, .column _⟩, by simp [rowsCol, Val.children]⟩
  · intro e he; cases he
  · intro e a he; cases he

private theorem rowsCol_unambiguous {s : Str} (h : readToken s = none) : UnambiguousVal false (rowsCol s) := by
  refine unambiguousVal_iff.2 ⟨?_, by simp [rowsCol, Val.children]⟩
  intro v
  show readToken s ≠ some v
  rw [h]
  simp

private theorem rowsInt_readable (n : Int) : ReadableVal (.int n) :=
  readableVal_iff.2 ⟨⟨trivial, trivial, .literal _ (.int _)⟩, by simp [Val.children]⟩

private theorem rowsInt_unambiguous (n : Int) : UnambiguousVal false (.int n) := unambiguousVal_iff.2 ⟨trivial, by simp [Val.children]⟩

private theorem rowsIs_good (n : Int) : Built (rowsIs n) ∧ ReadableCondition (rowsIs n) ∧ UnambiguousCondition false (rowsIs n) :=
  ⟨.condition (rowsCol c!"a") (.op .eq) (.int n) _ (rowsCol_built rfl) (.op _) (.literal _ (.int _)) rfl,
    .cond _ _ _ (rowsCol_readable _) (rowsInt_readable n), .cond _ _ _ (rowsCol_unambiguous rfl) (rowsInt_unambiguous n)⟩

private theorem rowsWhere_good : ∀ x ∈ rowsWhere, Built x ∧ ReadableCondition x ∧ UnambiguousCondition false x := by
  simp only [rowsWhere, List.mem_cons, List.not_mem_nil, or_false, forall_eq_or_imp, forall_eq]
  refine ⟨⟨?_, ?_, ?_⟩, ⟨?_, ?_, ?_⟩, ?_, ?_, ?_⟩
  · exact .condition (rowsCol c!"project_id") (.op .in_) (.tuple [.int 7]) _ (rowsCol_built rfl) (.op _)
      (.tuple _ (by simpa using .literal _ (.int _))) rfl
  · refine .cond _ _ _ (rowsCol_readable _) (readableVal_iff.2 ⟨⟨trivial, trivial, .tuple _⟩, ?_⟩)
    simpa [Val.children] using rowsInt_readable 7
  · refine .cond _ _ _ (rowsCol_unambiguous rfl) (unambiguousVal_iff.2 ⟨trivial, ?_⟩)
    simpa [Val.children] using rowsInt_unambiguous 7
  · exact .condition (rowsCol c!"b") (.op .isNull) .none _ (rowsCol_built rfl) (.op _) (.literal _ .none) rfl
  · exact .cond _ _ _ (rowsCol_readable _) (readableVal_iff.2 ⟨⟨trivial, trivial, .literal _ .none⟩, by simp [Val.children]⟩)
  · exact .cond _ _ _ (rowsCol_unambiguous rfl) (unambiguousVal_iff.2 ⟨trivial, by simp [Val.children]⟩)
  · exact .or (.list [rowsIs 1, rowsIs 2]) _ (.list _ (by simpa using ⟨(rowsIs_good 1).1, (rowsIs_good 2).1⟩)) rfl
  · exact .group _ _ _ _ (by simpa using ⟨(rowsIs_good 1).2.1, (rowsIs_good 2).2.1⟩)
  · exact .group _ _ _ _ (by simpa using ⟨(rowsIs_good 1).2.2, (rowsIs_good 2).2.2⟩)

private theorem rowsQuery_readable : ReadableQuery rowsQuery := by
  refine .base _ _ (.entity (.str c!"events") .none .none .none _ (.literal _ (.str _)) (.literal _ .none) (.literal _ .none) (.literal _ .none) rfl) ?_ fun f => ?_
  · intro a ha; cases ha
  cases f
  case select => exact .expressions _ _ _ _ (.inl rfl) (.list _) (by simpa using ⟨rowsCol_built rfl, rowsCol_readable _⟩)
  case groupby => exact .expressions _ _ _ _ (.inr (.inl rfl)) (.list _) (by simp)
  case where_ => exact .conditions _ _ _ _ (.inl rfl) (.list _) fun x hx => ⟨(rowsWhere_good x hx).1, (rowsWhere_good x hx).2.1⟩
  case having => exact .conditions _ _ _ _ (.inr rfl) (.list _) (by simp)
  all_goals exact .none _

private theorem rowsQuery_unambiguous : UnambiguousQuery rowsQuery := by
  refine .base false _ _ ⟨(fun h => by cases h), (by rintro ⟨_, _, h⟩; cases h)⟩ ?_
  constructor <;> intro k xs hs <;> cases hs
  · simpa using rowsCol_unambiguous rfl
  · simp
  · exact fun x hx => (rowsWhere_good x hx).2.2
  · simp

private theorem rowsSides {E : Type} (I : Interp E) (xs : List Val) (h : rowsQuery.body.where_ = .list xs ∨ rowsQuery.body.having = .list xs) :
    EqualSidesAgree I xs := by
  intro cls k cs l r l' r' hc h1 h2 _
  rcases h with h | h <;> cases h
  · simp only [rowsWhere, List.mem_cons, List.not_mem_nil, or_false, reduceCtorEq, false_or, Val.boolCond.injEq] at hc
    obtain ⟨_, _, _, rfl⟩ := hc
    simp only [rowsIs, List.mem_cons, Val.cond.injEq, List.not_mem_nil, or_false] at h1 h2
    rcases h1 with h1 | h1 <;> rcases h2 with h2 | h2 <;> rw [h1.1, h2.1]
  · cases hc

/-- C77: for any recipient that understands the sender. -/
example {E : Type} (I : Interp E) (J : Server E) (hj : Understands false J I) :=
  C77_sent (rowsTruth I) I J (rowsTruth_agrees I) hj rowsBody _ c!"events" rowsRequest rowsQuery _ rowsRequest_is rowsRequest_query
    rowsQuery_readable rowsQuery_unambiguous rfl (rowsSides I)

/-- C77: what the body asks of a row at which nothing is known. -/
example {E : Type} (I : Interp E) (h : ∀ a b, I.eq a b = .unknown) (h' : I.other (rowsCol c!"b") .isNull .none = .yes) :
    BodyTruth (rowsTruth I) I rowsBody c!"events" .unknown := by
  obtain ⟨m, c, xs, ys, hq, hx, _, hw, _⟩ := C77_converted (rowsTruth I) I (rowsTruth_agrees I) rowsBody _ c!"events" rowsRequest rowsRequest_is
  rw [rowsRequest_query] at hq
  cases hq
  cases hx
  rw [hw]
  simp [rowsWhere, Interp.evalAll, Interp.eval, Interp.evalAny, Interp.atom, rowsIs, h, h', Tri.any, Tri.and, Tri.or]

end Examples

end Verif
