import Verif.Lemmas.QueryFaults
import Verif.Props.MetricsMessages

/-!
# Theorems: what the exceptions of queries say
-/

namespace Verif
open Spec BuildMsg MetricsMsg QueryMsg

section
variable [U : PyUnicode]

/-- C91: the functions with messages give the objects, and raise the classes, of the functions in the rest of the model. -/
theorem C91_same_class [PyShow] [PyText] {σ : SetOrders} (hσ : PossibleOrders σ) :
    (∀ q : Query, dropMessage (q.validateMsg σ) = q.validate) ∧
    (∀ m b, dropMessage (mkQueryMsg m b) = mkQuery m b) ∧
    (∀ q b, dropMessage (mkNestedMsg σ q b) = mkNested q b) ∧
    (∀ f q v, dropMessage (setFieldMsg σ f q v) = setField f q v) ∧
    (∀ (q : Query) m, dropMessage (q.setMatchMsg m) = q.setMatch m) ∧
    ∀ q i : Query, dropMessage (q.setMatchQueryMsg σ i) = q.setMatchQuery i :=
  ⟨fun q => by rw [drop_validate, C82_validate_model hσ], drop_mkQuery, drop_mkNested hσ, drop_setField hσ, drop_setMatch,
    drop_setMatchQuery hσ⟩

omit U in
/-- C91: what is given as a match has to be an entity, a storage or a join (or a query, for which see below). -/
theorem C91_new (m : Val) (b : Body) : RefusedBy (mkQueryMsg m b)
    [setDemand ((∃ e, m = .entity e) ∨ (∃ s, m = .storage s) ∨ ∃ k rels, m = .join k rels)
      c!"queries must have a valid Entity, Storage, Join or Query"] := by
  cases m with
  | entity e => exact by_met (.inl ⟨_, rfl⟩) (by_ok _)
  | storage s => exact by_met (.inr (.inl ⟨_, rfl⟩)) (by_ok _)
  | join k rels => exact by_met (.inr (.inr ⟨_, _, rfl⟩)) (by_ok _)
  | _ => exact by_raise (by simp)

omit U in
/-- C91: `set_match` takes an entity or a join; the message on anything else begins with its text. -/
theorem C91_set_match [PyShow] [PyText] (q : Query) (m : Val) : RefusedBy (q.setMatchMsg m)
    [setDemand ((∃ e, m = .entity e) ∨ ∃ k rels, m = .join k rels) (m.text ++ c!" must be a valid Entity, Storage, Join or Query")] := by
  cases m with
  | entity e => exact by_met (.inl ⟨_, rfl⟩) (by_ok _)
  | join k rels => exact by_met (.inr ⟨_, _, rfl⟩) (by_ok _)
  | _ => exact by_raise (by simp)

/-- C91: on a query that a program can make, a setter of a clause is refused exactly for what its own argument lacks, and in the words of
that clause: that the query is put together anew, with a query inside it validated again, is never the reason. -/
theorem C91_setters [PyShow] [PyText] {σ : SetOrders} (hσ : PossibleOrders σ) {q : Query} (hq : Reach q) (f : Field) (v : Val) :
    RefusedBy (setFieldMsg σ f q v) (fieldDemands f v) := by
  have hw : ∀ b, ∃ q', q.withBodyMsg σ b = .ok q' := by
    intro b
    obtain ⟨q', h⟩ := reach_withBody hq b
    exact ⟨q', ok_of_drop (by rw [drop_withBody hσ, h])⟩
  have done : ∀ b, RefusedBy (q.withBodyMsg σ b) [] := by
    intro b
    obtain ⟨q', h⟩ := hw b
    rw [h]; exact by_ok _
  have check : ∀ {c : Bool} {p : Prop} {m : Str} {b : Body}, (c = false ↔ p) →
      RefusedBy (if c = true then raise .invalidQuery m else q.withBodyMsg σ b) [setDemand p m] := by
    intro c p m b h
    cases c with
    | true => exact by_raise (fun hp => by have := h.2 hp; cases this)
    | false => exact by_met (h.1 rfl) (done _)
  have one : ∀ {ds : List Demand} {x : Except Raised Val} {g : Val → Body}, RefusedBy x ds →
      RefusedBy (x >>= fun l => q.withBodyMsg σ (g l)) ds := by
    intro ds x g h
    have := by_bind (es := []) h fun a _ _ => done (g a)
    rwa [List.append_nil] at this
  have list : ∀ {p : Val → Bool} {P : Val → Prop}, (∀ v, p v = true ↔ P v) →
      ((!listType v p) = false ↔ ∃ xs, v = .list xs ∧ ∀ x ∈ xs, P x) := by
    intro p P hp
    rw [← listType_iff hp]; simp
  have list1 : ∀ {p : Val → Bool} {P : Val → Prop}, (∀ v, p v = true ↔ P v) →
      ((!listType v p || !v.truthy) = false ↔ ∃ xs, v = .list xs ∧ xs ≠ [] ∧ ∀ x ∈ xs, P x) := by
    intro p P hp
    rw [Bool.or_eq_false_iff, list hp]
    constructor
    · rintro ⟨⟨xs, rfl, hx⟩, ht⟩
      refine ⟨xs, rfl, ?_, hx⟩
      rintro rfl
      simp [Val.truthy] at ht
    · rintro ⟨xs, rfl, hne, hx⟩
      exact ⟨⟨xs, rfl, hx⟩, by simpa [Val.truthy] using hne⟩
  have text1 : ∀ t : Str, c!"granularity" ++ c!" '" ++ t ++ c!"' must be at least " ++ commas 1 =
      c!"granularity '" ++ t ++ c!"' must be at least 1" := by
    intro t
    rw [show commas 1 = c!"1" by decide +kernel]
    simp only [List.append_assoc]
    rfl
  have hopt := C90_option_setters ⟨.val .none, .val .none, .val .none, .val .none, .val .none, .val .none, .val .none, .val .none, .val .none⟩ v
  have back : ∀ {α β : Type} {x : Except Raised α} {g : α → β} {ds : List Demand}, RefusedBy (x >>= fun a => .ok (g a)) ds → RefusedBy x ds := by
    intro α β x g ds h r
    rw [← h r]
    cases x <;> simp [ok_bind, error_bind]
  cases f with
  | select => exact check (list1 fun _ => isSelectable_iff)
  | groupby => exact check (list fun _ => isSelectable_iff)
  | arrayJoin =>
    refine check ((list1 (p := Val.isColumn) (P := fun v => v.isColumn = true) fun _ => Iff.rfl).trans ?_)
    constructor
    · rintro ⟨xs, rfl, hne, hx⟩
      obtain ⟨cs, rfl⟩ := all_columns.1 hx
      exact ⟨cs, rfl, by rintro rfl; exact hne rfl⟩
    · rintro ⟨cs, rfl, hne⟩
      exact ⟨_, rfl, by simpa using hne, all_columns.2 ⟨cs, rfl⟩⟩
  | where_ => exact check (list fun _ => isCondition_iff')
  | having => exact check (list fun _ => isCondition_iff')
  | orderby => exact check (list fun _ => isOrderBy_iff)
  | limitby =>
    cases v with
    | limitby k cs n => exact by_met ⟨_, _, _, rfl⟩ (done _)
    | _ => exact by_raise (by rintro ⟨_, _, _, h⟩; cases h)
  | limit => exact one (back hopt.1)
  | offset => exact one (back hopt.2.1)
  | granularity =>
    have h := atLeast_by (p := IsWhole v) c!"granularity" v 1 Iff.rfl
    rw [text1] at h
    exact one (by_map h)
  | totals =>
    refine one ?_
    cases v with
    | bool b => exact by_met ⟨_, rfl⟩ (by_ok _)
    | _ => exact by_raise (by rintro ⟨_, h⟩; cases h)

/-- C91: what validation says is true of the query, or of one inside it. -/
theorem C91_validate {σ : SetOrders} (hσ : PossibleOrders σ) {q : Query} {x : Err} {t : Str} (h : q.validateMsg σ = .error (x, some t)) :
    ∃ i, (i = q ∨ Inside i q) ∧ OwnFault i x t := by
  induction q with
  | base m b =>
    rcases validate_text hσ h with h | ⟨i, hi, _⟩
    · exact ⟨_, .inl rfl, h⟩
    · cases hi
  | nested j b ih =>
    rcases validate_text hσ h with h | ⟨i, hi, h⟩
    · exact ⟨_, .inl rfl, h⟩
    · cases hi
      obtain ⟨i, hi | hi, hf⟩ := ih h
      · subst hi; exact ⟨_, .inr (.here _), hf⟩
      · exact ⟨i, .inr (.deeper _ _ hi), hf⟩

/-- C91: of a query that a program can make, it is true of the query itself: the queries inside it were validated when it was made. -/
theorem C91_validate_own {σ : SetOrders} (hσ : PossibleOrders σ) {q : Query} (hq : Reach q) {x : Err} {t : Str}
    (h : q.validateMsg σ = .error (x, some t)) : OwnFault q x t := by
  rcases validate_text hσ h with h | ⟨i, hi, h⟩
  · exact h
  · rw [(validateMsg_ok hσ).2 (reach_inner hq hi)] at h
    cases h

/-- C91: when a query is refused as a match, by the constructor or by `set_match`, the message says that the inner query is invalid, once,
and then what is wrong with that query. -/
theorem C91_inner {σ : SetOrders} (hσ : PossibleOrders σ) {i : Query} (hi : Reach i) (q : Query) (b : Body) {x : Err} {t : Str}
    (h : mkNestedMsg σ i b = .error (x, some t) ∨ q.setMatchQueryMsg σ i = .error (x, some t)) :
    x = .invalidQuery ∧ ∃ y u, OwnFault i y u ∧ t = c!"inner query is invalid: " ++ u := by
  have key : ∀ {r : Raised}, i.validateMsg σ = .error r → (Except.error (innerInvalid r) : Except Raised Query) = .error (x, some t) →
      x = .invalidQuery ∧ ∃ y u, OwnFault i y u ∧ t = c!"inner query is invalid: " ++ u := by
    rintro ⟨y, u⟩ hv hr
    cases u with
    | none => cases hr
    | some u =>
      cases hr
      exact ⟨rfl, y, u, C91_validate_own hσ hi hv, rfl⟩
  rcases h with h | h
  · unfold mkNestedMsg at h
    split at h
    · cases h
    · rename_i r hv; exact key hv h
  · unfold Query.setMatchQueryMsg at h
    split at h
    · rename_i hv
      unfold mkNestedMsg at h
      rw [hv] at h
      cases h
    · rename_i r hv; exact key hv h

/-- C91: a query made by naming the match and calling the setters, all with objects of the SDK, is never refused without a message; nor is such
a query as a match. -/
theorem C91_message_given {σ : SetOrders} (hσ : PossibleOrders σ) {q : Query} (hq : Called q) {x : Err} {m : Option Str} :
    (q.validateMsg σ = .error (x, m) → ∃ t, m = some t) ∧
    (∀ b, mkNestedMsg σ q b = .error (x, m) → ∃ t, m = some t) ∧
    ∀ p : Query, p.setMatchQueryMsg σ q = .error (x, m) → ∃ t, m = some t := by
  have key : ∀ {r : Raised}, q.validateMsg σ = .error r → (Except.error (innerInvalid r) : Except Raised Query) = .error (x, m) →
      ∃ t, m = some t := by
    rintro ⟨y, u⟩ hv hr
    cases u with
    | none => exact absurd hv (called_said hq y hσ)
    | some u => cases hr; exact ⟨_, rfl⟩
  refine ⟨fun h => ?_, fun b h => ?_, fun p h => ?_⟩
  · cases m with
    | none => exact absurd h (called_said hq x hσ)
    | some t => exact ⟨t, rfl⟩
  · unfold mkNestedMsg at h
    split at h
    · cases h
    · rename_i r hv; exact key hv h
  · unfold Query.setMatchQueryMsg at h
    split at h
    · rename_i hv
      unfold mkNestedMsg at h
      rw [hv] at h
      cases h
    · rename_i r hv; exact key hv h

/-- C91: such a query is refused exactly if something is wrong with it, and of several things the first is reported: a column in a clause
that its own entity does not have, a column that does not fit the match, the select list, totals, in this order. -/
theorem C91_first {σ : SetOrders} (hσ : PossibleOrders σ) {q : Query} (hq : Called q) :
    (∀ x t, q.validateMsg σ = .error (x, some t) → FirstFault q x t) ∧
    ((∃ r, q.validateMsg σ = .error r) ↔ ∃ x t, FirstFault q x t) := by
  refine ⟨fun x t h => QueryFaults.validate_first hσ hq h, ?_, ?_⟩
  · rintro ⟨⟨x, m⟩, h⟩
    cases m with
    | none => exact absurd h (called_said hq x hσ)
    | some t => exact ⟨x, t, QueryFaults.validate_first hσ hq h⟩
  · rintro ⟨x, t, hf⟩
    cases h : q.validateMsg σ with
    | ok _ => exact absurd h (QueryFaults.fault_refused hσ hq hf)
    | error r => exact ⟨r, rfl⟩

/-- C91: the message is determined by the first fault, in whatever order sets are gone through, unless it is about columns and the match: of
several columns that do not fit the match any may be named. -/
theorem C91_exact {σ : SetOrders} (hσ : PossibleOrders σ) {q : Query} (hq : Called q) {x : Err} {t : Str} (hf : FirstFault q x t)
    (hn : (∃ v ∈ itemsOf q.body, OffModel v) ∨ NoCulprit q) : q.validateMsg σ = .error (x, some t) := by
  obtain ⟨⟨y, m⟩, hr⟩ := (C91_first hσ hq).2.2 ⟨x, t, hf⟩
  cases m with
  | none => exact absurd hr (called_said hq y hσ)
  | some u =>
    have hg := (C91_first hσ hq).1 y u hr
    have clean : (∀ v ∈ itemsOf q.body, ¬ OffModel v) → NoCulprit q := fun h => hn.elim (fun ⟨v, hv, hv'⟩ => absurd hv' (h v hv)) id
    cases hf with
    | item h1 h2 h3 h4 =>
      rw [QueryFaults.called_steps hσ hq, (QueryFaults.items_fault (QueryFaults.taken_items (called_taken hq))).2 ⟨_, _, _, _, h1, h2, h3, h4, rfl⟩]
      rfl
    | column h1 h2 h3 => exact absurd h3 (clean h1 _ _ _ h2)
    | noSelect h1 h2 h3 =>
      rw [hr]
      cases hg with
      | item g1 g2 g3 g4 => exact absurd ⟨_, _, rfl, g3, g4⟩ (h1 _ (by rw [g1]; simp))
      | column _ g2 g3 => exact absurd g3 (h2 _ _ _ g2)
      | noSelect => rfl
      | noGroupby _ _ g3 => exact absurd g3 h3
    | noGroupby h1 h2 h3 h4 h5 =>
      rw [hr]
      cases hg with
      | item g1 g2 g3 g4 => exact absurd ⟨_, _, rfl, g3, g4⟩ (h1 _ (by rw [g1]; simp))
      | column _ g2 g3 => exact absurd g3 (h2 _ _ _ g2)
      | noSelect _ _ g3 => exact absurd h3 g3
      | noGroupby => rfl

private theorem updated_body {f : Field} {q q' : Query} {x : Val} (h : Updated f q x q') : q'.body = putField f q.body x := by
  have := query_ext (q := .base .none q'.body) (q' := .base .none (putField f q.body x)) rfl (by
    intro g
    simp only [Query.body]
    by_cases hg : g = f
    · subst hg; rw [get_put]; exact h.2.1
    · rw [get_put_ne hg]; exact h.2.2 g hg)
  injection this

private theorem valid_parts {q : Query} (hv : q.validate = .ok ()) :
    validateClauses q.body = .ok () ∧ ∃ cs, searchBody q.body = .ok cs := by
  cases q with
  | base m b =>
    obtain ⟨_, h2, h3, _⟩ := base_validate_iff.1 hv
    simp only [validateMatchBase, bind_eq_ok] at h3
    obtain ⟨cs, h3, _⟩ := h3
    exact ⟨h2, cs, h3⟩
  | nested i b =>
    obtain ⟨_, h2, cs, h3, _⟩ := nested_validate_iff.1 hv
    exact ⟨h2, cs, h3⟩

/-- C91: a valid query whose select list is taken away is refused for just that. -/
theorem C91_lost_select {σ : SetOrders} (hσ : PossibleOrders σ) {q q' : Query} (hv : q.validate = .ok ()) {x : Val}
    (hx : x = .none ∨ x = .list []) (hu : Updated .select q x q') :
    q'.validateMsg σ = .error (.invalidQuery, some c!"query must have at least one expression in select") := by
  obtain ⟨hc, cs, hs⟩ := valid_parts hv
  have hb := updated_body hu
  simp only [putField] at hb
  have ho : ∀ c, OccursInBody c q'.body → OccursInBody c q.body := by
    intro c h
    rw [hb] at h
    rcases h with ⟨k, xs, hs, y, hy, _⟩ | h
    · rcases hx with rfl | rfl <;> cases hs
      cases hy
    · exact .inr h
  have hc' : validateClauses q'.body = .ok () := by
    rw [hb]
    simp only [validateClauses, bind_eq_ok] at hc ⊢
    obtain ⟨_, _, hc⟩ := hc
    exact ⟨(), by rcases hx with rfl | rfl <;> rfl, hc⟩
  have hs' : ∃ cs, searchBody q'.body = .ok cs := by
    rw [hb]
    simp only [searchBody, bind_eq_ok] at hs ⊢
    obtain ⟨_, _, _, h2, _, h3, _, h4, _, h5, _, h6, _, h7, _, h8, _, h9, _, h10, _, h11, _⟩ := hs
    exact ⟨_, [], by rcases hx with rfl | rfl <;> rfl, _, h2, _, h3, _, h4, _, h5, _, h6, _, h7, _, h8, _, h9, _, h10, _, h11, rfl⟩
  obtain ⟨cs', hs'⟩ := hs'
  rw [only_combine hσ hv hu.1 hc' hs' ho, hb]
  rcases hx with rfl | rfl <;> rfl

omit U in
private theorem totals_refused {b : Body} (hs : NonEmptySeq b.select) (ht : b.totals = .totals true)
    (hg : b.groupby = .none ∨ b.groupby = .list []) :
    combineChecksMsg b = .error (.invalidQuery, some c!"totals is only valid with a groupby") := by
  obtain ⟨k, xs, hs, hne⟩ := hs
  have h1 : selectMissing b.select = .ok false := by
    generalize b.select = v at hs
    cases hs <;> simp [selectMissing, Val.iter, Val.seq?, ok_bind, hne]
  have h2 : b.groupby.truthy = false := by rcases hg with h | h <;> rw [h] <;> rfl
  simp only [combineChecksMsg, h1, elsewhere, ok_bind, ht, totalsSet, h2]
  rfl

/-- C91: a valid query with totals whose groupby is taken away is refused for just that. -/
theorem C91_lost_groupby {σ : SetOrders} (hσ : PossibleOrders σ) {q q' : Query} (hv : q.validate = .ok ()) {x : Val}
    (hx : x = .none ∨ x = .list []) (hu : Updated .groupby q x q') (ht : q.body.totals = .totals true) :
    q'.validateMsg σ = .error (.invalidQuery, some c!"totals is only valid with a groupby") := by
  obtain ⟨hc, cs, hs⟩ := valid_parts hv
  have hb := updated_body hu
  simp only [putField] at hb
  have ho : ∀ c, OccursInBody c q'.body → OccursInBody c q.body := by
    intro c h
    rw [hb] at h
    rcases h with h | ⟨k, xs, hs, y, hy, _⟩ | h
    · exact .inl h
    · rcases hx with rfl | rfl <;> cases hs
      cases hy
    · exact .inr (.inr h)
  have hc' : validateClauses q'.body = .ok () := by
    rw [hb]
    simp only [validateClauses, bind_eq_ok] at hc ⊢
    obtain ⟨_, h1, _, _, hc⟩ := hc
    exact ⟨_, h1, (), by rcases hx with rfl | rfl <;> rfl, hc⟩
  have hs' : ∃ cs, searchBody q'.body = .ok cs := by
    rw [hb]
    simp only [searchBody, bind_eq_ok] at hs ⊢
    obtain ⟨_, h1, _, _, _, h3, _, h4, _, h5, _, h6, _, h7, _, h8, _, h9, _, h10, _, h11, _⟩ := hs
    exact ⟨_, _, h1, [], by rcases hx with rfl | rfl <;> rfl, _, h3, _, h4, _, h5, _, h6, _, h7, _, h8, _, h9, _, h10, _, h11, rfl⟩
  obtain ⟨cs', hs'⟩ := hs'
  rw [only_combine hσ hv hu.1 hc' hs' ho, hb]
  exact totals_refused (body_complete hv).1 ht hx

/-- C91: a valid query without groupby that is asked for totals is refused for just that. -/
theorem C91_totals_added {σ : SetOrders} (hσ : PossibleOrders σ) {q q' : Query} (hv : q.validate = .ok ())
    (hg : q.body.groupby = .none ∨ q.body.groupby = .list []) (hu : Updated .totals q (.totals true) q') :
    q'.validateMsg σ = .error (.invalidQuery, some c!"totals is only valid with a groupby") := by
  obtain ⟨hc, cs, hs⟩ := valid_parts hv
  have hb := updated_body hu
  simp only [putField] at hb
  have ho : ∀ c, OccursInBody c q'.body → OccursInBody c q.body := by
    intro c h
    rw [hb] at h
    rcases h with h | h | h | h | h | h | h | h | h | h | h
    · exact .inl h
    · exact .inr (.inl h)
    · exact .inr (.inr (.inl h))
    · exact .inr (.inr (.inr (.inl h)))
    · exact .inr (.inr (.inr (.inr (.inl h))))
    · exact .inr (.inr (.inr (.inr (.inr (.inl h)))))
    · exact .inr (.inr (.inr (.inr (.inr (.inr (.inl h))))))
    · exact .inr (.inr (.inr (.inr (.inr (.inr (.inr (.inl h)))))))
    · exact .inr (.inr (.inr (.inr (.inr (.inr (.inr (.inr (.inl h))))))))
    · exact .inr (.inr (.inr (.inr (.inr (.inr (.inr (.inr (.inr (.inl h)))))))))
    · cases h
  have hc' : validateClauses q'.body = .ok () := by
    rw [hb]
    simp only [validateClauses, bind_eq_ok] at hc ⊢
    obtain ⟨_, h1, _, h2, _, h3, _, h4, _, h5, _, h6, _, h7, _, h8, _, h9, _, h10, _⟩ := hc
    exact ⟨_, h1, _, h2, _, h3, _, h4, _, h5, _, h6, _, h7, _, h8, _, h9, _, h10, rfl⟩
  have hs' : ∃ cs, searchBody q'.body = .ok cs := by
    rw [hb]
    simp only [searchBody, bind_eq_ok] at hs ⊢
    obtain ⟨_, h1, _, h2, _, h3, _, h4, _, h5, _, h6, _, h7, _, h8, _, h9, _, h10, _, _, _⟩ := hs
    exact ⟨_, _, h1, _, h2, _, h3, _, h4, _, h5, _, h6, _, h7, _, h8, _, h9, _, h10, [], rfl, rfl⟩
  obtain ⟨cs', hs'⟩ := hs'
  rw [only_combine hσ hv hu.1 hc' hs' ho, hb]
  exact totals_refused (body_complete hv).1 rfl hg

end

/-! ### Cases -/

section
open Ex
@[local instance, reducible] private def exQmShow : PyShow := ⟨fun _ => false, fun _ => c!"<object>"⟩
@[local instance, reducible] private def exQmText : PyText := ⟨fun _ => c!"<object>", fun _ => c!"builtins.object"⟩

private def exQmSays {α : Type} : Except Raised α → Option Raised
  | .ok _ => none
  | .error r => some r

private def exQmOrders : SetOrders := ⟨id, id, id, id, id, id, id⟩

private theorem exQmOrders_possible : PossibleOrders exQmOrders := by
  have h : ∀ {α : Type} (eq : α → α → Bool) (xs : List α), SeesSet eq xs (id xs) :=
    fun _ xs => ⟨fun _ h => h, fun x hx => ⟨x, hx, .inl rfl⟩⟩
  exact ⟨h _, h _, h _, h _, h _, h _, h _⟩

/-- Something that is no match. -/
example : exQmSays (mkQueryMsg (.str c!"events") {}) = some (.invalidQuery, some c!"queries must have a valid Entity, Storage, Join or Query") ∧
    exQmSays (mkQueryMsg (.storage ⟨c!"events", none, none⟩) {}) = none ∧
    exQmSays (inner.setMatchMsg (.int 5)) = some (.invalidQuery, some c!"5 must be a valid Entity, Storage, Join or Query") ∧
    exQmSays (inner.setMatchMsg (.entity events)) = none := by
  refine ⟨?_, ?_, ?_, ?_⟩ <;> decide +kernel

example := (C91_new (.str c!"events") {} (.invalidQuery, some c!"queries must have a valid Entity, Storage, Join or Query")).1 rfl
example := (C91_set_match inner (.int 5) (.invalidQuery, some c!"5 must be a valid Entity, Storage, Join or Query")).1 rfl

private theorem exQmInner_reach : Reach inner := .new (.entity events) (body [col c!"a", count]) _ rfl

/-- Setters on a query over a subquery. -/
private def exQmOuter : Query := .nested inner (body [col c!"n"])
private theorem exQmOuter_reach : Reach exQmOuter := .newNested inner _ _ exQmInner_reach rfl

example :
    exQmSays (exQmOuter.setSelectMsg exQmOrders (.list [])) =
      some (.invalidQuery, some c!"select clause must be a non-empty list of SelectableExpression") ∧
    exQmSays (exQmOuter.setGroupbyMsg exQmOrders (.list [])) = none ∧
    exQmSays (exQmOuter.setGroupbyMsg exQmOrders (.list [.int 5])) =
      some (.invalidQuery, some c!"groupby clause must be a list of SelectableExpression") ∧
    exQmSays (exQmOuter.setArrayJoinMsg exQmOrders (.list [count])) =
      some (.invalidQuery, some c!"array join must be a non-empty list of Column") ∧
    exQmSays (exQmOuter.setWhereMsg exQmOrders (.list [col c!"n"])) = some (.invalidQuery, some c!"where clause must be a list of conditions") ∧
    exQmSays (exQmOuter.setHavingMsg exQmOrders (.int 1)) = some (.invalidQuery, some c!"having clause must be a list of conditions") ∧
    exQmSays (exQmOuter.setOrderbyMsg exQmOrders (.list [col c!"n"])) = some (.invalidQuery, some c!"orderby clause must be a list of OrderBy") ∧
    exQmSays (exQmOuter.setLimitbyMsg exQmOrders (.int 5)) = some (.invalidQuery, some c!"limitby clause must be a LimitBy") ∧
    exQmSays (exQmOuter.setLimitMsg exQmOrders (.int 0)) = some (.invalidExpression, some c!"limit '0' must be at least 1") ∧
    exQmSays (exQmOuter.setLimitMsg exQmOrders (.int 10001)) = some (.invalidExpression, some c!"limit '10001' is capped at 10,000") ∧
    exQmSays (exQmOuter.setOffsetMsg exQmOrders (.int (-1))) = some (.invalidExpression, some c!"offset '-1' must be at least 0") ∧
    exQmSays (exQmOuter.setGranularityMsg exQmOrders (.str c!"5")) = some (.invalidExpression, some c!"granularity '5' must be an integer") ∧
    exQmSays (exQmOuter.setTotalsMsg exQmOrders (.int 1)) = some (.invalidExpression, some c!"totals must be a boolean") := by
  refine ⟨?_, ?_, ?_, ?_, ?_, ?_, ?_, ?_, ?_, ?_, ?_, ?_, ?_⟩ <;> decide +kernel

example : FirstUnmet (fieldDemands .limit (.int 0)) (.invalidExpression, some c!"limit '0' must be at least 1") :=
  (C91_setters exQmOrders_possible exQmOuter_reach .limit (.int 0) _).1 rfl

/-- A subquery that asks for totals without a groupby is refused as a match, with the prefix and what is wrong with it; a query that was put
around it all the same would be refused in the same words, without the prefix. -/
private def exQmTotals : Query := .base (.entity events) { body [col c!"a"] with totals := .totals true }
example :
    exQmSays (exQmTotals.validateMsg exQmOrders) = some (.invalidQuery, some c!"totals is only valid with a groupby") ∧
    exQmSays (mkNestedMsg exQmOrders exQmTotals (body [col c!"a"])) =
      some (.invalidQuery, some c!"inner query is invalid: totals is only valid with a groupby") ∧
    exQmSays (inner.setMatchQueryMsg exQmOrders exQmTotals) =
      some (.invalidQuery, some c!"inner query is invalid: totals is only valid with a groupby") ∧
    exQmSays (inner.setMatchQueryMsg exQmOrders inner) = none ∧
    exQmSays ((Query.nested exQmTotals (body [col c!"a"])).validateMsg exQmOrders) =
      some (.invalidQuery, some c!"totals is only valid with a groupby") := by
  refine ⟨?_, ?_, ?_, ?_, ?_⟩ <;> decide +kernel

private theorem exQmTotals_reach : Reach exQmTotals := .new (.entity events) _ _ rfl

example := C91_validate exQmOrders_possible (q := .nested exQmTotals (body [col c!"a"])) (x := .invalidQuery)
  (t := c!"totals is only valid with a groupby") rfl
example : OwnFault exQmTotals .invalidQuery c!"totals is only valid with a groupby" := C91_validate_own exQmOrders_possible exQmTotals_reach rfl
example := C91_inner exQmOrders_possible exQmTotals_reach inner (body [col c!"a"]) (x := .invalidQuery)
  (t := c!"inner query is invalid: totals is only valid with a groupby") (.inl rfl)

/-- A column that the subquery does not have. -/
example : exQmSays ((Query.nested inner (body [col c!"zz"])).validateMsg exQmOrders) =
    some (.invalidMatch, some c!"outer query is referencing column 'zz' that does not exist in subquery") := by decide +kernel

private theorem exQmCalled : Called (.base (.entity events) {}) :=
  .new _ _ (.entity (.str c!"events") (.str c!"e") .none .none _ (.literal _ (.str _)) (.literal _ (.str _)) (.literal _ .none) (.literal _ .none) rfl) rfl
example := (C91_message_given exQmOrders_possible exQmCalled (x := .invalidQuery)
  (m := some c!"query must have at least one expression in select")).1 rfl

/-- Two columns of one entity with a data model, neither of which it has: the first is named, although the select list is the second fault
of the query, and totals without groupby the third. -/
private def exQmModelled : EntityObj := ⟨c!"events", some c!"ev", none, some ⟨[⟨c!"tags[a]", false⟩, ⟨c!"tags[b]", false⟩], ⟨c!"time", true⟩⟩⟩
private def exQmColumn (n k : Str) : Val := .column ⟨n ++ c!"[" ++ k ++ c!"]", some exQmModelled, some n, some k⟩
private def exQmBad : Query := .base (.entity events)
  { arrayJoin := .list [exQmColumn c!"tags" c!"b", exQmColumn c!"tags" c!"a"], totals := .totals true }

private theorem exQmBad_called : Called exQmBad := by
  have hm : Built (.entity exQmModelled) := .entity (.str c!"events") (.str c!"ev") .none (.dataModel ⟨[⟨c!"tags[a]", false⟩, ⟨c!"tags[b]", false⟩], ⟨c!"time", true⟩⟩) _
    (.literal _ (.str _)) (.literal _ (.str _)) (.literal _ .none) (.dataModel _) rfl
  have h1 : Built (exQmColumn c!"tags" c!"b") := .column (.str c!"tags[b]") (.entity exQmModelled) _ (.literal _ (.str _)) hm rfl
  have h2 : Built (exQmColumn c!"tags" c!"a") := .column (.str c!"tags[a]") (.entity exQmModelled) _ (.literal _ (.str _)) hm rfl
  refine .set .totals _ (.bool true) _ (.set .arrayJoin _ (.list [exQmColumn c!"tags" c!"b", exQmColumn c!"tags" c!"a"]) _ exQmCalled ?_ rfl)
    (.literal _ (.bool _)) rfl
  refine .list _ fun x hx => ?_
  rcases List.mem_cons.1 hx with rfl | hx
  · exact h1
  · cases List.mem_singleton.1 hx; exact h2

private theorem exQmBad_fault : FirstFault exQmBad .invalidColumn c!"'events' does not support the column 'tags[b]'" :=
  .item (pre := []) (c := ⟨c!"tags[b]", some exQmModelled, some c!"tags", some c!"b"⟩) rfl (by simp) rfl
    ⟨_, c!"tags", rfl, .inl ⟨rfl, by decide⟩, by simp⟩

example : exQmBad.validateMsg exQmOrders = .error (.invalidColumn, some c!"'events' does not support the column 'tags[b]'") :=
  C91_exact exQmOrders_possible exQmBad_called exQmBad_fault
    (.inl ⟨_, List.mem_cons_self, _, _, rfl, rfl, _, c!"tags", rfl, .inl ⟨rfl, by decide⟩, by simp⟩)
example := (C91_first exQmOrders_possible exQmBad_called).1 _ _ (show exQmBad.validateMsg exQmOrders =
  .error (.invalidColumn, some c!"'events' does not support the column 'tags[b]'") from rfl)

/-- The three theorems about valid queries that lose something. -/
private def exQmGrouped : Query := .base (.entity events) { body [count] with groupby := .list [col c!"a"], totals := .totals true }
example : ∀ x, x = .none ∨ x = .list [] →
    (Query.base (.entity events) { body [count] with groupby := x, totals := .totals true }).validateMsg exQmOrders =
      .error (.invalidQuery, some c!"totals is only valid with a groupby") := fun x hx =>
  C91_lost_groupby exQmOrders_possible (q := exQmGrouped) rfl hx
    ⟨rfl, rfl, fun g hg => by cases g <;> first | rfl | exact absurd rfl hg⟩ rfl
example : (Query.base (.entity events) { exQmGrouped.body with select := .list [] }).validateMsg exQmOrders =
      .error (.invalidQuery, some c!"query must have at least one expression in select") :=
  C91_lost_select exQmOrders_possible (q := exQmGrouped) rfl (.inr rfl)
    ⟨rfl, rfl, fun g hg => by cases g <;> first | rfl | exact absurd rfl hg⟩
example : (Query.nested inner { body [col c!"n"] with totals := .totals true }).validateMsg exQmOrders =
      .error (.invalidQuery, some c!"totals is only valid with a groupby") :=
  C91_totals_added exQmOrders_possible (q := exQmOuter) rfl (.inl rfl)
    ⟨rfl, rfl, fun g hg => by cases g <;> first | rfl | exact absurd rfl hg⟩

end

end Verif
