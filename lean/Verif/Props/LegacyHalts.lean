import Verif.Lemmas.LegacyHalts
import Verif.Props.LegacyMessages

/-!
# C96: which constructor speaks
-/

namespace Verif
open Spec

section
variable [PyShow] [PyText] [U : PyUnicode] [D : PyDecimal] [N : PyNumberText]

/-- C96: take a body that is the same as one that is converted up to a clause of expressions or of conditions. If the conversion of this clause
comes to a constructor and this refuses its arguments, the exception is that of this constructor, in its words, whatever is looked at later. -/
theorem C96_clause {σ : SetOrders} (hσ : PossibleOrders σ) (b b' : LegacyBody) (entity : Str) (req : RequestObj)
    (hb : (jsonToSnql b entity).1 = .ok req) {key : Str} (hs : SameBefore key b' b) {v : Val} (hv : Has b' key v) {c : BuildCall}
    (hc : ClauseComesTo key v c) {x : Err} {t : Str} (hr : Refusal c x t) : jsonToSnqlMsg σ b' entity = .error (x, some t) :=
  LegacyHalts.clause_refused hσ hb hs hv hc hr

/-- C96: the same for a bound that is no date. -/
theorem C96_bound {σ : SetOrders} (hσ : PossibleOrders σ) (b b' : LegacyBody) (entity c : Str) (req : RequestObj)
    (hb : (jsonToSnql b entity).1 = .ok req) (hc : TimeColumn entity c) {key s u : Str} (hk : key ∈ [c!"from_date", c!"to_date"])
    (hs : SameBefore key b' b) (hv : Has b' key (.str s)) (hn : s ≠ []) (hd : ∀ t, ¬ LegacyDate s t) (hu : ShownDate s u) :
    jsonToSnqlMsg σ b' entity = .error (.valueError, some (u ++ c!" is not a recognized datetime")) :=
  LegacyHalts.bound_refused hσ hb hc hk hs hv hn hd hu

/-- C96: the same for the extras together: they are looked at in the order limit, offset, granularity, totals, and nothing else can go wrong
after them. -/
theorem C96_extras {σ : SetOrders} (hσ : PossibleOrders σ) (b b' : LegacyBody) (entity : Str) (req : RequestObj)
    (hb : (jsonToSnql b entity).1 = .ok req) (hs : SameBefore c!"limit" b' b) {l o g t : Val} {dl d_o dg dt : List Demand}
    (hl : ValueAt b' c!"limit" l) (ho : ValueAt b' c!"offset" o) (hg : ValueAt b' c!"granularity" g) (ht : ValueAt b' c!"totals" t)
    (el : extraDemand .limit l dl) (eo : extraDemand .offset o d_o) (eg : extraDemand .granularity g dg) (et : extraDemand .totals t dt) :
    RefusedBy (jsonToSnqlMsg σ b' entity) (dl ++ (d_o ++ (dg ++ dt))) := by
  have h := LegacyHalts.extras_refused hσ hb hs
  rwa [LegacyMsg.allExtras, valueAt_iff.2 hl, valueAt_iff.2 ho, valueAt_iff.2 hg, valueAt_iff.2 ht, LegacyHalts.extraDemands_eq el,
    LegacyHalts.extraDemands_eq eo, LegacyHalts.extraDemands_eq eg, LegacyHalts.extraDemands_eq et] at h

end

section Examples

attribute [local instance] asciiUnicode asciiDecimal noNumberText
@[local instance, reducible] private def exLhShow : PyShow := ⟨fun _ => false, fun _ => c!"<object>"⟩
@[local instance, reducible] private def exLhText : PyText := ⟨fun _ => c!"<object>", fun _ => c!"builtins.object"⟩

private def exLhBody : LegacyBody := { entries := [(c!"selected_columns", .list [.str c!"a"])] }

private def exLhOrders : SetOrders := ⟨id, id, id, id, id, id, id⟩

private theorem exLhOrders_possible : PossibleOrders exLhOrders := by
  have h : ∀ {α : Type} (eq : α → α → Bool) (xs : List α), SeesSet eq xs (id xs) :=
    fun _ xs => ⟨fun _ h => h, fun x hx => ⟨x, hx, .inl rfl⟩⟩
  exact ⟨h _, h _, h _, h _, h _, h _, h _⟩

set_option maxRecDepth 20000 in
private theorem exLh_accepted : ∃ req, (jsonToSnql exLhBody c!"events").1 = .ok req := by
  have h : (match (jsonToSnql exLhBody c!"events").1 with | .ok _ => true | .error _ => false) = true := by decide +kernel
  split at h
  · exact ⟨_, by assumption⟩
  · cases h

private theorem exLh_bad : ¬ OptNewline ColName c!"b c" := by
  intro h
  rw [← columnNameRe_iff] at h
  revert h
  decide +kernel

private theorem exLh_text : ∀ t, ¬ Between '\'' c!"b c" t := not_between_iff.1 (by decide)

private theorem exLh_call : ComesTo (.list [.str c!"f", .list [.str c!"a", .str c!"b c"]]) (.column (.str c!"b c") .none) := by
  have h : isLegacyCondition [.str c!"f", .list [.str c!"a", .str c!"b c"]] = false := rfl
  refine .argument (pre := [.str c!"a"]) (post := []) (fun hc => ?_) .none (.cons (converts_iff.1 rfl) .nil) (.column (by simp) exLh_text)
  exact absurd (conditionShape_iff.2 hc) (by rw [List.singleton_append, h]; simp)

private theorem exLh_same {key : Str} {es : List (Str × Val)}
    (h : (readOrder.takeWhile (· ≠ key)).map (List.lookup · es) = (readOrder.takeWhile (· ≠ key)).map (List.lookup · exLhBody.entries)) :
    SameBefore key { entries := es } exLhBody := by
  intro k hk v
  rw [← lookup_has, ← lookup_has, List.map_inj_left.1 h k hk]

/-- C96: the second argument of the second expression to group by is no column. The bound after it is no date. -/
example : jsonToSnqlMsg exLhOrders { entries := [(c!"from_date", .str c!"now"), (c!"selected_columns", .list [.str c!"a"]),
      (c!"groupby", .list [.str c!"a", .tuple [.str c!"f", .list [.str c!"a", .str c!"b c"]], .str c!"not seen"])] } c!"events" =
    .error (.invalidColumn, some c!"column 'b c' is empty or contains invalid characters") :=
  C96_clause exLhOrders_possible exLhBody _ _ _ exLh_accepted.choose_spec (exLh_same (by rfl)) (lookup_has.1 (by rfl))
    (.groupby (.mk (pre := [.str c!"a"]) (post := [.str c!"not seen"]) (convertsItems_iff.1 rfl) .tuple exLh_call)) (.columnName exLh_bad)

/-- C96: a text is compared with `IN`; the condition before it is accepted. -/
example : ∃ x t, jsonToSnqlMsg exLhOrders { entries := [(c!"selected_columns", .list [.str c!"a"]),
      (c!"conditions", .list [.list [.str c!"a", .str c!"=", .int 1], .list [.str c!"'a'", .str c!"IN", .int 1]])] } c!"events" =
    .error (x, some t) := by
  obtain ⟨⟨x, m⟩, hr⟩ : ∃ r, mkConditionMsg (.str c!"a") (.op .in_) (.int 1) = .error r := ⟨_, rfl⟩
  obtain ⟨x, t, _, hf⟩ := (C89_message (.condition (.str c!"a") (.op .in_) (.int 1)) _).1 hr
  exact ⟨x, t, C96_clause exLhOrders_possible exLhBody _ _ _ exLh_accepted.choose_spec (exLh_same (by rfl)) (lookup_has.1 (by rfl))
    (.conditions (pre := [.list [.str c!"a", .str c!"=", .int 1]]) (post := []) (whereEntries_iff.1 rfl)
      (.condition (conditionShape_iff.1 (by decide +kernel)) (converts_iff.1 rfl) (.text (o := .in_)) (rhsFor_iff.1 rfl))) hf⟩

/-- C96: a bound that is no date, with conditions after it that are no list and a limit that is too small. -/
example : jsonToSnqlMsg exLhOrders { entries := [(c!"limit", .int 0), (c!"conditions", .int 1), (c!"to_date", .str c!"now+01:00"),
      (c!"selected_columns", .list [.str c!"a"])] } c!"events" = .error (.valueError, some c!"now+0100 is not a recognized datetime") :=
  C96_bound exLhOrders_possible exLhBody _ _ _ _ exLh_accepted.choose_spec .events (key := c!"to_date") (by simp) (exLh_same (by rfl))
    (lookup_has.1 (by rfl)) (by simp)
    (fun t h => by rw [← parseDatetime_iff] at h; revert h; simp [show parseDatetime c!"now+01:00" = none by decide +kernel])
    (.zone (a := c!"now") (z := c!"01:00") (by decide))

/-- C96: totals, an offset and a limit that are refused: the limit is looked at first. -/
example : jsonToSnqlMsg exLhOrders { entries := [(c!"totals", .int 1), (c!"offset", .int (-1)), (c!"limit", .int 0),
      (c!"selected_columns", .list [.str c!"a"])] } c!"events" = .error (.invalidExpression, some c!"limit '0' must be at least 1") :=
  (C96_extras exLhOrders_possible exLhBody _ _ _ exLh_accepted.choose_spec (exLh_same (by rfl))
    (l := .int 0) (o := .int (-1)) (g := .none) (t := .int 1) (valueAt_iff.1 rfl) (valueAt_iff.1 rfl) (valueAt_iff.1 rfl) (valueAt_iff.1 rfl)
    (.inr ⟨by simp, rfl⟩) (.inr ⟨by simp, rfl⟩) (.inl ⟨rfl, rfl⟩) (.inr ⟨by simp, rfl⟩) _).2
    ⟨[_], _, _, rfl, by simp only [List.mem_singleton, forall_eq]; exact ⟨_, .int 0⟩, fun h => absurd (h _ (.int 0)) (by decide), by decide⟩

end Examples

end Verif
