import Verif.Lemmas.LegacyBody

/-!
# C47–C50: legacy bodies
-/

namespace Verif
open Spec

section
variable [U : PyUnicode] [D : PyDecimal]

/-! ### C49 -/

/-- **C49**: `parse_exp` returns an expression exactly when the specification `Converts` relates it to the legacy expression: a quoted string to
its text, another non-empty string to the column of that name, a condition triple to the function of its operator, and a list of
function, arguments and alias to that function of the converted arguments, at every depth. -/
theorem C49_expression_iff (v x : Val) : parseExp v = .ok x ↔ Converts v x := converts_iff

/-- **C49** (one reading): a legacy expression has at most one meaning. -/
theorem C49_expression_unique (v x y : Val) (hx : Converts v x) (hy : Converts v y) : x = y := by
  rw [← converts_iff] at hx hy
  rw [hx] at hy; cases hy; rfl

/-! ### C50 -/

omit U in
/-- **C50**: `parse_scalar` makes a datetime of a string exactly when strings need not be kept and the string is in an accepted format;
otherwise it keeps the string; lists and tuples become tuples of such values, and other values stay. -/
theorem C50_scalar_iff (onlyStrings : Bool) (v x : Val) : parseScalar onlyStrings v = x ↔ ScalarOf (onlyStrings = true) v x :=
  scalarOf_iff Iff.rfl

omit U in
/-- **C50** (formats): `parse_datetime` accepts exactly the texts of `LegacyDate` and gives the moment they stand for. -/
theorem C50_datetime_iff (s : Str) (t : Datetime) : parseDatetime s = some t ↔ LegacyDate s t := parseDatetime_iff

/-- **C50** (conditions): the value of a condition with a string on its right is a datetime exactly when the string is in an accepted
format and the left-hand side is not a tag or the release; otherwise it is the string. -/
theorem C50_condition_value (a op : Val) (s : Str) (rest : List Val) (x : Val) (hop : op ≠ .str c!"IS NULL" ∧ op ≠ .str c!"IS NOT NULL")
    (h : parseConditionItems (a :: op :: .str s :: rest) = .ok x) :
    ∃ l o r, x = .cond l o r ∧ Converts a l ∧
      ((¬ TextSide l ∧ ∃ t, LegacyDate s t ∧ r = .datetime t) ∨ ((TextSide l ∨ ∀ t, ¬ LegacyDate s t) ∧ r = .str s)) := by
  rw [conditionOf_iff] at h
  generalize hv : Val.str s = v at h
  cases h with
  | mk h1 h2 h3 h4 =>
    cases h4
    refine ⟨_, _, _, rfl, h1, ?_⟩
    cases h3 with
    | null ho => rcases ho with rfl | rfl <;> simp [Op.value] at hop
    | value _ _ h =>
      subst hv
      cases h with
      | date h1 h2 => exact .inl ⟨h1, _, h2, rfl⟩
      | text h => exact .inr ⟨h, rfl⟩
      | other h => exact absurd rfl (h s)

/-! ### C47 -/

/-- **C47**: the conditions for `WHERE` are exactly, in this order, those for the organization, `from_date`, `to_date` and the project, and then
those of each entry of `conditions`, an inner list of at least two becoming the disjunction of its members. -/
theorem C47_where_iff (b : LegacyBody) (entity : Str) (cs : List Val) : legacyWhere b entity = .ok cs ↔ WhereOf b entity cs := whereOf_iff

variable [N : PyNumberText]

/-- **C47** (the request): the query of the request has these conditions in its `WHERE` clause, and the other clauses hold what their keys
say. -/
theorem C47_request (b b' : LegacyBody) (entity : Str) (req : RequestObj) (h : jsonToSnql b entity = (.ok req, b')) :
    ∃ q s, req.query = .snql q ∧ matchOf q = .inl (.entity ⟨entity, none, s, none⟩) ∧ FromBody b entity q.body := by
  obtain ⟨_, s, c, _, _, hq, hc⟩ := (requestOf_iff.1 ⟨b', h⟩).query
  exact ⟨_, s, hq, rfl, hc⟩

/-! ### C55 -/

/-- **C55**: the conversion succeeds exactly if there is a request that the body describes, and then it returns that request. -/
theorem C55_request_iff (b : LegacyBody) (entity : Str) (req : RequestObj) :
    (∃ b', jsonToSnql b entity = (.ok req, b')) ↔ RequestOf b entity req := requestOf_iff

/-- **C55** (one meaning): a body describes at most one request. -/
theorem C55_request_unique (b : LegacyBody) (entity : Str) (r r' : RequestObj) (h : RequestOf b entity r) (h' : RequestOf b entity r') :
    r = r' := by
  obtain ⟨b1, h1⟩ := requestOf_iff.2 h
  obtain ⟨b2, h2⟩ := requestOf_iff.2 h'
  rw [h1] at h2
  cases h2; rfl

/-! ### C48 -/

omit N in
theorem orderStep_same {part : Option Val} {o : Val} (h : ¬ DashedList o) : (orderStep part o).2 = o := by
  unfold orderStep
  split
  · rfl
  · split
    · rename_i hs
      obtain ⟨r, rfl⟩ := startsWith_dash.1 hs
      exact absurd .mk h
    · rfl
  · rfl
  · split <;> rfl
  · split <;> rfl

omit N in
theorem orderLoop_same : ∀ {os : List Val} {part : Option Val}, (∀ o ∈ os, ¬ DashedList o) → (orderLoop part os).2 = os
  | [], _, _ => rfl
  | o :: os, part, h => by
    have h1 := orderStep_same (part := part) (h o (List.mem_cons_self ..))
    simp only [orderLoop]
    split
    · rename_i hs; rw [hs] at h1; simp only at h1; rw [h1]
    · rename_i hs; rw [hs] at h1; simp only at h1
      split
      · rw [h1]
      · rw [h1, orderLoop_same fun o ho => h o (List.mem_cons_of_mem _ ho)]

omit N U D in
theorem lstrip_not_dash (s r : Str) : lstripP (· == '-') s ≠ '-' :: r := by
  intro h
  obtain ⟨a, _, _, h3⟩ := dropWhile_split (· == '-') s
  simpa using h3 _ _ h

omit N in
theorem orderStep_after {part : Option Val} {o : Val} : ¬ DashedList (orderStep part o).2 := by
  intro h
  by_cases hd : DashedList o
  · cases hd with
    | @mk s rest =>
      simp only [orderStep, startsWith_dash.2 ⟨s, rfl⟩, if_true] at h
      generalize ht : lstripP (· == '-') ('-' :: s) = t at h
      cases h
      exact lstrip_not_dash _ _ ht
  · rw [orderStep_same hd] at h; exact hd h

omit N in
theorem orderLoop_after : ∀ {os : List Val} {part : Option Val} {xs : List Val}, (orderLoop part os).1 = .ok xs →
    ∀ o ∈ (orderLoop part os).2, ¬ DashedList o
  | [], _, _, _ => by simp [orderLoop]
  | o :: os, part, xs, h => by
    simp only [orderLoop] at h ⊢
    split at h
    · cases h
    · rename_i p d o' hs
      have ha := orderStep_after (part := part) (o := o)
      rw [hs] at ha
      split at h
      · cases h
      · rename_i x hm
        cases hl : (orderLoop (some p) os).1 with
        | error e => rw [hl] at h; cases h
        | ok ys =>
          have ih := orderLoop_after hl
          intro o'' ho
          rcases List.mem_cons.1 ho with rfl | ho
          · exact ha
          · exact ih o'' ho

omit N U D in
theorem updateEntry_same {key : Str} {v : Val} : ∀ {es : List (Str × Val)}, (∀ w, es.lookup key = some w → w = v) → updateEntry key v es = es
  | [], _ => rfl
  | (k, w) :: es, h => by
    by_cases hk : k = key
    · subst hk
      simp only [updateEntry, if_true]
      rw [h w (by simp)]
    · simp only [updateEntry, if_neg hk]
      rw [updateEntry_same (fun w' hw => h w' (by
        simp only [List.lookup_cons, beq_eq_false_iff_ne.2 (fun h : key = k => hk h.symm)]; exact hw))]

omit N U D in
theorem updateEntry_lookup {key : Str} {v w : Val} : ∀ {es : List (Str × Val)}, es.lookup key = some w → (updateEntry key v es).lookup key = some v
  | [], h => by cases h
  | (k, u) :: es, h => by
    by_cases hk : k = key
    · subst hk; simp [updateEntry]
    · have hk' := beq_eq_false_iff_ne.2 (fun h : key = k => hk h.symm)
      simp only [updateEntry, if_neg hk, List.lookup_cons, hk'] at h ⊢
      exact updateEntry_lookup h

omit N U D in
/-- The property that the conversion depends on: no item of an `orderby` list is a list that begins with a dashed name. -/
def Spec.NoDashedList (b : LegacyBody) : Prop := ∀ os, Has b c!"orderby" (.list os) → ∀ o ∈ os, ¬ DashedList o

omit N in
theorem legacyOrder_same {b : LegacyBody} (h : NoDashedList b) (ht : ¬ Falsy (b.get c!"orderby")) :
    (legacyOrder (b.get c!"orderby")).2 = b.get c!"orderby" := by
  rcases getD_cases b c!"orderby" .none with hh | ⟨_, e⟩
  · have hh : Has b c!"orderby" (b.get c!"orderby") := hh
    generalize b.get c!"orderby" = v at *
    unfold legacyOrder
    split
    · rename_i os; simp only [orderLoop_same (h os hh)]
    · rfl
  · exact absurd (show Falsy (b.get c!"orderby") by rw [show b.get c!"orderby" = .none from e]; exact .none) ht

/-- **C48**, for the bodies of which it is true: if no item of an `orderby` list is itself a list that begins with a dashed name, then the
conversion leaves the body as it was, whether it succeeds or not, and so gives the same result again. What is missing is the other
bodies, for which it is false (`C48_fails_for_dashed_lists`). -/
theorem C48_conversion_again_partial (b : LegacyBody) (entity : Str) (h : NoDashedList b) :
    (jsonToSnql b entity).2 = b ∧ jsonToSnql (jsonToSnql b entity).2 entity = jsonToSnql b entity := by
  have key : (jsonToSnql b entity).2 = b := by
    unfold jsonToSnql
    split
    · rfl
    · split
      · rename_i ht
        have ht := truthy_true_iff.1 ht
        simp only [legacyOrder_same h ht]
        rw [updateEntry_same]
        intro w hw
        exact (has_getD (lookup_has.1 hw) .none).symm
      · rfl
  exact ⟨key, by rw [key]⟩

/-- **C48**, exactly: a conversion that succeeds leaves the body as it was exactly when no item of an `orderby` list is a list that begins
with a dashed name. -/
theorem C48_body_kept_iff (b b' : LegacyBody) (entity : Str) (req : RequestObj) (h : jsonToSnql b entity = (.ok req, b')) :
    b' = b ↔ NoDashedList b := by
  constructor
  · rintro rfl os hos o ho hd
    obtain ⟨q, q', _, _, h2⟩ := jsonToSnql_ok h
    have hv : b'.get c!"orderby" = .list os := has_getD hos _
    rw [hv] at h2
    rcases h2 with ⟨hf, _, _⟩ | ⟨_, ⟨obs, h3, _⟩, h4⟩
    · cases hf; cases ho
    · have h5 : (legacyOrder (.list os)).2 = .list os := by
        have h6 := updateEntry_lookup (v := (legacyOrder (.list os)).2) (lookup_has.2 hos)
        have h7 : b'.entries = updateEntry c!"orderby" (legacyOrder (.list os)).2 b'.entries := congrArg LegacyBody.entries h4
        rw [← h7, lookup_has.2 hos] at h6
        exact (Option.some.inj h6).symm
      simp only [legacyOrder] at h3 h5
      have := orderLoop_after h3
      rw [Val.list.inj h5] at this
      exact this o ho hd
  · intro hn
    have := (C48_conversion_again_partial b entity hn).1
    rw [h] at this; exact this

/-- **C48** (after the first time): what a successful conversion leaves behind is not changed by further ones, so that from the second
conversion on the results are the same. -/
theorem C48_settles (b b' : LegacyBody) (entity : Str) (req : RequestObj) (h : jsonToSnql b entity = (.ok req, b')) :
    (jsonToSnql b' entity).2 = b' ∧ jsonToSnql (jsonToSnql b' entity).2 entity = jsonToSnql b' entity := by
  refine C48_conversion_again_partial b' entity ?_
  obtain ⟨q, q', _, _, ⟨hf, _, rfl⟩ | ⟨_, ⟨obs, h3, _⟩, rfl⟩⟩ := jsonToSnql_ok h
  · intro os hos o ho
    rw [show b'.get c!"orderby" = .list os from has_getD hos _] at hf
    cases hf; cases ho
  · intro os hos o ho
    rcases getD_cases b c!"orderby" .none with hh | ⟨hno, e⟩
    · have hl := updateEntry_lookup (v := (legacyOrder (b.get c!"orderby")).2) (lookup_has.2 hh)
      rw [← lookup_has] at hos
      rw [hl] at hos
      cases hv : b.get c!"orderby" with
      | list os' =>
        rw [hv] at hos h3
        simp only [legacyOrder, Option.some.injEq, Val.list.injEq] at hos h3
        subst hos
        exact orderLoop_after h3 o ho
      | _ => rw [hv] at hos; cases hos
    · have hl : (updateEntry c!"orderby" (legacyOrder (b.get c!"orderby")).2 b.entries) = b.entries :=
        updateEntry_same (fun w hw => absurd (lookup_has.1 hw) (hno w))
      rw [← lookup_has] at hos
      rw [hl] at hos
      exact absurd (lookup_has.1 hos) (hno _)

end

section Examples

local instance legacyUnicode : PyUnicode := asciiUnicode
local instance legacyDecimal : PyDecimal := asciiDecimal
local instance legacyNumbers : PyNumberText := noNumberText

/-- A body ordered by `count() AS n`, descending, written as a list. -/
private def dashedBody : LegacyBody :=
  { entries := [(c!"selected_columns", .list [.str c!"a"]), (c!"orderby", .list [.list [.str c!"-count()", .list [], .str c!"n"]])] }

private def orderOf (r : Except Err RequestObj × LegacyBody) : Option Val :=
  match r.1 with
  | .ok req => match req.query with
    | .snql q => some q.body.orderby
    | _ => none
  | .error _ => none

set_option maxRecDepth 10000 in
/-- **C48** is false: the conversion takes the dash out of a list under `orderby`, and the second conversion of the same body orders
ascending. -/
theorem C48_fails_for_dashed_lists : ∃ (b : LegacyBody) (entity : Str) (f : Val),
    orderOf (jsonToSnql b entity) = some (.list [.orderby f .desc]) ∧
    orderOf (jsonToSnql (jsonToSnql b entity).2 entity) = some (.list [.orderby f .asc]) :=
  ⟨dashedBody, c!"events", .curried true c!"count" .absent [] .list [] (some c!"n"), rfl, rfl⟩

private def uniqBody : Val :=
  .list [.str c!"uniqIf", .list [.str c!"'x y'", .list [.str c!"tags[a]", .str c!">=", .str c!"2021-01-01T00:00:00"], .list [.str c!"now"]], .str c!"`n`"]

/-- C49: a nested expression with a quoted string, a comparison of a tag (whose value stays a string) and a backquoted alias. The inner list of one
item is no expression. -/
example : parseExp uniqBody = .error .indexError ∧
    parseExp (.list [.str c!"uniqIf", .list [.str c!"'x y'", .list [.str c!"tags[a]", .str c!">=", .str c!"2021-01-01T00:00:00"]], .str c!"`n`"]) =
      .ok (.curried true c!"uniqIf" .absent [] .list [.str c!"x y",
        .curried true c!"greaterOrEquals" .absent [] .tuple
          [.column ⟨c!"tags[a]", none, some c!"tags", some c!"a"⟩, .str c!"2021-01-01T00:00:00"] none] (some c!"n")) := ⟨rfl, rfl⟩

/-- C49: the specification relates them. -/
example : Converts (.list [.str c!"f()", .none]) (.curried true c!"f" .absent [] .list [] none) → False := by
  intro h; rw [← C49_expression_iff] at h; cases h

example : Converts (.list [.str c!"count()", .none, .str c!"c"]) (.curried true c!"count" .absent [] .list [] (some c!"c")) ∧
    Converts (.str c!"'count'") (.str c!"count") ∧
    Converts (.list [.str c!"a", .str c!"IS NULL", .none])
      (.curried true c!"isNull" .absent [] .tuple [.column ⟨c!"a", none, none, none⟩, .none] none) :=
  ⟨(C49_expression_iff _ _).1 rfl, (C49_expression_iff _ _).1 rfl, (C49_expression_iff _ _).1 rfl⟩

private def newYear : Datetime := ⟨⟨2021, 1, 1, rfl⟩, 2, 3, 4, 0, none, rfl⟩

/-- C50: the same value beside a plain column and beside the release. -/
example : parseConditionItems [.str c!"a", .str c!"=", .str c!"2021-1-01T02:03:04"] =
      .ok (.cond (plainColumn c!"a") .eq (.datetime newYear)) ∧
    parseConditionItems [.str c!"release", .str c!"=", .str c!"2021-1-01T02:03:04"] =
      .ok (.cond (plainColumn c!"release") .eq (.str c!"2021-1-01T02:03:04")) ∧
    parseConditionItems [.str c!"a", .str c!"=", .str c!"2021-13-01T02:03:04"] =
      .ok (.cond (plainColumn c!"a") .eq (.str c!"2021-13-01T02:03:04")) := ⟨rfl, rfl, rfl⟩

example : LegacyDate c!"2021-1-01T02:03:04" newYear ∧ TextSide (plainColumn c!"release") ∧ ¬ TextSide (plainColumn c!"a") :=
  ⟨(C50_datetime_iff _ _).1 rfl, .column (.inr rfl), by rintro (⟨h⟩ | _); revert h; unfold TagOrRelease; decide⟩

private def fullBody : LegacyBody :=
  { entries := [(c!"selected_columns", .list [.str c!"a"]), (c!"organization", .int 7), (c!"project", .list [.int 1, .int 2]),
      (c!"from_date", .str c!"2021-1-01T02:03:04"),
      (c!"conditions", .list [.list [.str c!"a", .str c!"=", .int 1],
        .list [.list [.str c!"b", .str c!"IS NULL"], .tuple [.str c!"c", .str c!"IN", .list [.int 3]]],
        .list [.list [.str c!"d", .str c!"!=", .none]]])] }

private def whereIn (r : Except Err RequestObj × LegacyBody) : Option Val :=
  match r.1 with
  | .ok req => match req.query with
    | .snql q => some q.body.where_
    | _ => none
  | .error _ => none

set_option maxRecDepth 10000 in
/-- C47: a body with all kinds of conditions but `to_date`; for another entity the time is not looked at. -/
example : whereIn (jsonToSnql fullBody c!"events") = some (.list [
      .cond (plainColumn c!"org_id") .eq (.int 7),
      .cond (plainColumn c!"timestamp") .gte (.datetime newYear),
      .cond (plainColumn c!"project_id") .in_ (.tuple [.int 1, .int 2]),
      .cond (plainColumn c!"a") .eq (.int 1),
      .boolCond .or .or .list [.cond (plainColumn c!"b") .isNull .none, .cond (plainColumn c!"c") .in_ (.tuple [.int 3])],
      .cond (plainColumn c!"d") .neq .none]) ∧
    (whereIn (jsonToSnql fullBody c!"others")).isSome = true := ⟨rfl, rfl⟩

set_option maxRecDepth 10000 in
/-- C47: the specification holds of that list, entry by entry. -/
example : WhereOf fullBody c!"events" [
      .cond (plainColumn c!"org_id") .eq (.int 7),
      .cond (plainColumn c!"timestamp") .gte (.datetime newYear),
      .cond (plainColumn c!"project_id") .in_ (.tuple [.int 1, .int 2]),
      .cond (plainColumn c!"a") .eq (.int 1),
      .boolCond .or .or .list [.cond (plainColumn c!"b") .isNull .none, .cond (plainColumn c!"c") .in_ (.tuple [.int 3])],
      .cond (plainColumn c!"d") .neq .none] := (C47_where_iff _ _ _).1 rfl

private def half : Dbl := ⟨false, 1, -1, rfl⟩

private def requestBody : LegacyBody :=
  { entries := [(c!"selected_columns", .list [.str c!"a"]), (c!"groupby", .str c!"b"), (c!"sample", .float (.fin half)),
      (c!"limitby", .tuple [.int 5, .str c!"tags[c]"]), (c!"limit", .int 10), (c!"totals", .bool false), (c!"consistent", .int 1),
      (c!"turbo", .bool false), (c!"dataset", .str c!""), (c!"app_id", .str c!"app")],
    tenantIds := .dict [(c!"organization_id", .val (.int 1))] }

set_option maxRecDepth 10000 in
/-- C55: a request with a sample, a `LIMIT BY` clause and flags; an empty dataset is replaced by the entity, and a flag need not be a bool. -/
example : RequestOf requestBody c!"events" {
    dataset := .val (.str c!"events"), appId := .val (.str c!"app"),
    query := .snql (.base (.entity ⟨c!"events", none, some (.fin half), none⟩)
      { select := .list [plainColumn c!"a"], groupby := .list [plainColumn c!"b"], where_ := .list [], having := .list [],
        limitby := .limitby .list [⟨c!"tags[c]", none, some c!"tags", some c!"c"⟩] (.int 5), limit := .limit (.int 10),
        totals := .totals false }),
    flags := some { consistent := .int 1, legacy := .bool true },
    tenantIds := .dict [(c!"organization_id", .val (.int 1))] } :=
  (C55_request_iff _ _ _).1 ⟨requestBody, rfl⟩

set_option maxRecDepth 10000 in
/-- C55: without anything to select, with a sample of zero, or with a `limitby` of three items there is no request. -/
example : (∀ r, ¬ RequestOf { entries := [] } c!"events" r) ∧
    (∀ r, ¬ RequestOf { entries := [(c!"selected_columns", .list [.str c!"a"]), (c!"sample", .int 0)] } c!"events" r) ∧
    (∀ r, ¬ RequestOf { entries := [(c!"selected_columns", .list [.str c!"a"]), (c!"limitby", .list [.int 1, .str c!"a", .str c!"b"])] } c!"events" r) := by
  refine ⟨fun r h => ?_, fun r h => ?_, fun r h => ?_⟩ <;>
  · obtain ⟨b', h⟩ := (C55_request_iff _ _ _).2 h
    cases h

/-- C48: a body without dashed lists, ordered descending by a string and ascending by a list. -/
example : NoDashedList { entries := [(c!"orderby", .list [.str c!"-a", .list [.str c!"f0", .str c!"-b"]])] } := by
  intro os h o ho hd
  rw [← lookup_has] at h
  cases h
  rcases List.mem_cons.1 ho with rfl | ho
  · cases hd
  · cases List.mem_singleton.1 ho; cases hd

/-- A tuple under `orderby` repeats the expression before it, ascending; at the front it is an error. A group of one condition is an error
under `having`. -/
example : orderOf (jsonToSnql { entries := [(c!"selected_columns", .list [.str c!"a"]), (c!"orderby", .list [.str c!"-a", .tuple [.str c!"b"]])] }
      c!"events") = some (.list [.orderby (plainColumn c!"a") .desc, .orderby (plainColumn c!"a") .asc]) ∧
    (jsonToSnql { entries := [(c!"selected_columns", .list [.str c!"a"]), (c!"orderby", .list [.tuple [.str c!"b"]])] } c!"events").1.toOption.isNone ∧
    (jsonToSnql { entries := [(c!"selected_columns", .list [.str c!"a"]), (c!"having", .list [.list [.list [.str c!"b", .str c!"=", .int 1]]])] }
      c!"events").1.toOption.isNone := ⟨rfl, rfl, rfl⟩

end Examples

end Verif
