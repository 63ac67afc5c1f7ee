import Verif.Props.MetricsMeaning
import Verif.Props.QueryRead

/-!
# C72: the recipient of a request finds what was put into it
-/

namespace Verif

open Spec

section
variable [U : PyUnicode] [S : RegexSpace] [R : PyRepr]

/-- **C72** (the envelope): in the text of any request the recipient finds, each under its own key and once, the application, the
tenants, the parent API, the dataset unless it is a deletion, and the flags that were set. -/
theorem C72_envelope (r : RequestObj) (t : Str) (h : r.serialize = .ok t) :
    ∃ kvs, readJsonText true t = some (.obj kvs) ∧ (kvs.map (·.1)).Nodup ∧
      (∃ j, kvs.lookup c!"app_id" = some j ∧ StandsFor r.appId j) ∧ (∃ j, kvs.lookup c!"tenant_ids" = some j ∧ StandsFor r.tenantIds j) ∧
      (∃ j, kvs.lookup c!"parent_api" = some j ∧ StandsFor r.parentApi j) ∧
      ((∀ q, r.query ≠ .delete q) → ∃ j, kvs.lookup c!"dataset" = some j ∧ StandsFor r.dataset j) ∧
      ∀ f k b, r.flags = some f → FlagSet f k b → kvs.lookup k = some (.bool b) := by
  obtain ⟨d, j0, hd, hs, hj, _⟩ := C46_decodes r t h
  obtain ⟨_, kvs0, rfl, hp⟩ := C44_to_dict r d hd
  cases hs with
  | dict _ js hk hs =>
    have get : ∀ {k x}, Entry r k x → ∃ j, js.lookup k = some j ∧ StandsFor x j := fun he =>
      standsFor_lookup hk hs hp.nodup ((hp.entries _ _).2 he)
    refine ⟨js, hj, hk ▸ hp.nodup, get .appId, get .tenantIds, get .parentApi, fun hq => get (.dataset hq), ?_⟩
    intro f k b hf hb
    obtain ⟨j, h1, h2⟩ := get (.flag f k b hf hb)
    cases h2 with
    | val _ _ h => cases h; exact h1

/-- **C72** (SnQL): under `query` the recipient finds a text, and in it the query with every clause and every subquery in its place, the
where clause of the outermost query merged. Queries in which names could be taken for syntax are left out, see C57. -/
theorem C72_snql (r : RequestObj) (q : Query) (t : Str) (hr : r.query = .snql q) (hq : ReadableQuery q) (h : r.serialize = .ok t) :
    ∃ kvs text w qt, readJsonText true t = some (.obj kvs) ∧ kvs.lookup c!"query" = some (.str text) ∧ readQuery text = some qt ∧
      MergedWhere q.body.where_ w ∧ SaysQuery (putWhere w q) qt := by
  obtain ⟨d, j0, hd, hs, hj, _⟩ := C46_decodes r t h
  obtain ⟨_, kvs0, rfl, hp⟩ := C44_to_dict r d hd
  obtain ⟨_, x, hx⟩ := (C44_succeeds_iff r).1 ⟨_, hd⟩
  cases hs with
  | dict _ js hk hs =>
    obtain ⟨j, h1, h2⟩ := standsFor_lookup hk hs hp.nodup ((hp.entries _ _).2 (.query _ hx))
    rw [hr] at hx
    cases hx with
    | snql _ text ht =>
      cases h2 with
      | val _ _ h2 =>
        cases h2
        obtain ⟨w, qt, h3, h4, h5⟩ := C57_reads_partial q hq text ht
        exact ⟨js, text, w, qt, hj, h1, h4, h3, h5⟩

/-- **C72** (what a text means): SnQL requests with the same text hold the same query after merging in the where clause, up to what
SnQL cannot express. The naming provisos are those of C57. -/
theorem C72_snql_same_text (r r' : RequestObj) (q q' : Query) (t : Str) (hr : r.query = .snql q) (hr' : r'.query = .snql q')
    (hq : ReadableQuery q) (hq' : ReadableQuery q') (hu : UnambiguousQuery q) (hu' : UnambiguousQuery q') (h : r.serialize = .ok t)
    (h' : r'.serialize = .ok t) :
    ∃ w w', MergedWhere q.body.where_ w ∧ MergedWhere q'.body.where_ w' ∧ SameQuery (putWhere w q) (putWhere w' q') := by
  have text : ∀ (r : RequestObj) (q : Query), r.query = .snql q → r.serialize = .ok t →
      ∃ kvs s, readJsonText true t = some (.obj kvs) ∧ kvs.lookup c!"query" = some (.str s) ∧ q.serialize = .ok s := by
    intro r q hr h
    obtain ⟨d, j0, hd, hs, hj, _⟩ := C46_decodes r t h
    obtain ⟨_, kvs0, rfl, hp⟩ := C44_to_dict r d hd
    obtain ⟨_, x, hx⟩ := (C44_succeeds_iff r).1 ⟨_, hd⟩
    cases hs with
    | dict _ js hk hs =>
      obtain ⟨j, h1, h2⟩ := standsFor_lookup hk hs hp.nodup ((hp.entries _ _).2 (.query _ hx))
      rw [hr] at hx
      cases hx with
      | snql _ s ht =>
        cases h2 with
        | val _ _ h2 => cases h2; exact ⟨js, s, hj, h1, ht⟩
  obtain ⟨kvs, s, a1, a2, a3⟩ := text r q hr h
  obtain ⟨kvs', s', b1, b2, b3⟩ := text r' q' hr' h'
  rw [a1] at b1
  cases b1
  rw [a2] at b2
  cases b2
  exact C57_same_text_partial q q' hq hq' hu hu' s a3 b3

omit U S R in
/-- **C72** (the where clause): merging does not change for which rows the conditions hold, as long as equal left-hand sides denote the same
value. -/
theorem C72_where_means_the_same {D : Type} (I : Interp D) (v w : Val) (k : SeqKind) (xs : List Val) (hv : SeqOf v k xs)
    (h : MergedWhere v w) (ha : EqualSidesAgree I xs) : ∃ k' ys, SeqOf w k' ys ∧ I.evalAll ys = I.evalAll xs := by
  rcases h with rfl | ⟨k', xs', new, hs, hp, rfl⟩
  · exact ⟨k, xs, hv, rfl⟩
  · have : xs' = xs := by
      cases hv <;> cases hs <;> rfl
    subst this
    exact ⟨.list, new, .list _, paired_evalAll I hp ha⟩

/-- **C72** (deletions): under `query` the recipient finds the conditions, and nothing else; there is at least one column, and none
without values. -/
theorem C72_delete (r : RequestObj) (q : DeleteObj) (t : Str) (hr : r.query = .delete q) (h : r.serialize = .ok t) :
    ∃ kvs j, readJsonText true t = some (.obj kvs) ∧ kvs.lookup c!"query" = some (.obj [(c!"columns", j)]) ∧
      StandsFor q.columnConditions j ∧ DeleteOk q := by
  obtain ⟨d, j0, hd, hs, hj, _⟩ := C46_decodes r t h
  obtain ⟨_, kvs0, rfl, hp⟩ := C44_to_dict r d hd
  obtain ⟨_, x, hx⟩ := (C44_succeeds_iff r).1 ⟨_, hd⟩
  cases hs with
  | dict _ js hk hs =>
    obtain ⟨j, h1, h2⟩ := standsFor_lookup hk hs hp.nodup ((hp.entries _ _).2 (.query _ hx))
    rw [hr] at hx
    cases hx with
    | delete _ _ hx =>
      obtain ⟨hok, rfl⟩ := (C45_serialize_iff q _).1 hx
      cases h2 with
      | dict _ us hku hsu =>
        cases us with
        | nil => simp at hku
        | cons u us =>
          obtain ⟨k, u⟩ := u
          simp only [List.map_cons, List.map_nil, List.cons.injEq] at hku
          cases us with
          | cons _ _ => simp at hku
          | nil =>
            obtain ⟨rfl, _⟩ := hku
            exact ⟨js, u, hj, h1, hsu ((c!"columns", q.columnConditions), (c!"columns", u)) (List.mem_cons_self ..), hok⟩

end

section Examples

attribute [local instance] asciiUnicode pySpace

local instance : PyRepr := ⟨fun _ => []⟩

/-- The query of the example with another sequence in its select clause. -/
private def exSelect (v : Val) : Query := .base (.entity ⟨c!"events", none, none, none⟩) { select := v }

private theorem exSelect_readable {v : Val} {k : SeqKind} (hv : SeqOf v k [.column ⟨c!"title", none, none, none⟩]) : ReadableQuery (exSelect v) := by
  refine .base _ _ (.entity (.str c!"events") .none .none .none _ (.literal _ (.str _)) (.literal _ .none) (.literal _ .none) (.literal _ .none) rfl) ?_ fun f => ?_
  · intro a ha
    cases ha
  cases f
  case select =>
    refine .expressions _ _ _ _ (.inl rfl) hv ?_
    simp only [List.mem_singleton, forall_eq]
    refine ⟨.column (.str c!"title") .none _ (.literal _ (.str _)) (.literal _ .none) rfl, readableVal_iff.2 ⟨⟨?_, ?_, .column _⟩, by simp [Val.children]⟩⟩
    · intro e he; cases he
    · intro e a he; cases he
  all_goals exact .none _

private theorem exSelect_unambiguous {v : Val} {k : SeqKind} (hv : SeqOf v k [.column ⟨c!"title", none, none, none⟩]) : UnambiguousQuery (exSelect v) := by
  refine .base false _ _ ⟨(fun h => by cases h), (by rintro ⟨_, _, h⟩; cases h)⟩ ?_
  constructor <;> intro k xs hs
  case select =>
    obtain rfl : xs = [.column ⟨c!"title", none, none, none⟩] := by cases hv <;> cases hs <;> rfl
    simp only [List.mem_singleton, forall_eq]
    refine unambiguousVal_iff.2 ⟨?_, by simp [Val.children]⟩
    intro v
    have : readToken (columnWord false ⟨c!"title", none, none, none⟩) = none := by rfl
    rw [this]
    simp
  all_goals cases hs

example := C72_envelope (exRequest (.snql exSnql)) _ rfl
example := C72_snql (exRequest (.snql exSnql)) exSnql _ rfl (exSelect_readable (.list _)) rfl
/-- C72: a list and a tuple are sent as the same text. -/
example := C72_snql_same_text (exRequest (.snql exSnql)) (exRequest (.snql (exSelect (.tuple [.column ⟨c!"title", none, none, none⟩])))) _ _ _ rfl rfl
  (exSelect_readable (.list _)) (exSelect_readable (.tuple _)) (exSelect_unambiguous (.list _)) (exSelect_unambiguous (.tuple _)) rfl rfl
example := C72_delete (exRequest (.delete exDelete)) exDelete _ rfl rfl

/-- C72: an OR that is merged. -/
example {D : Type} (I : Interp D) : ∃ k ys, SeqOf (.list [.cond (keyColumn c!"a") .in_ (.list [.int 1, .int 2])]) k ys ∧
    I.evalAll ys = I.evalAll [.boolCond .or .or .list [.cond (keyColumn c!"a") .eq (.int 1), .cond (keyColumn c!"a") .eq (.int 2)]] := by
  refine C72_where_means_the_same I (.list [.boolCond .or .or .list [.cond (keyColumn c!"a") .eq (.int 1), .cond (keyColumn c!"a") .eq (.int 2)]])
    _ _ _ (.list _) (.inr ⟨_, _, _, .list _, .cons _ _ _ _ (.inl ⟨keyColumn c!"a", [.int 1, .int 2], ?_, rfl⟩) .nil, rfl⟩) ?_
  · exact ⟨.or, .list, .int 1, _, [.int 2], rfl, rfl, .cons _ _ _ _ ⟨_, rfl, rfl⟩ .nil⟩
  · intro cls k cs l r l' r' hc h1 h2 _
    simp only [List.mem_singleton, Val.boolCond.injEq] at hc
    obtain ⟨_, _, _, rfl⟩ := hc
    simp only [List.mem_cons, Val.cond.injEq, List.not_mem_nil, or_false] at h1 h2
    rcases h1 with h1 | h1 <;> rcases h2 with h2 | h2 <;> rw [h1.1, h2.1]

end Examples

end Verif
