import Verif.Lemmas.LegacyMessages
import Verif.Props.LegacyErrors

/-!
# C96: what is said when a legacy body cannot be converted
-/

namespace Verif
open Spec LegacyMsg

section
variable [PyShow] [PyText] [U : PyUnicode] [D : PyDecimal] [N : PyNumberText]

/-- C96: with messages, the conversion gives what it gives without. -/
theorem C96_same_class {σ : SetOrders} (hσ : PossibleOrders σ) (b : LegacyBody) (entity : Str) :
    dropMessage (jsonToSnqlMsg σ b entity) = (jsonToSnql b entity).1 := drop_conversion hσ b entity

/-- **C96**: whatever the body is, the exception is that of a constructor which refuses its arguments, in the words of that constructor; or that
of a setter for what is selected, what is grouped by or an extra, in the words of the setter; or the complaint about the text of a bound that is
no date, for an entity with a time column; or an exception of Python itself. -/
theorem C96_said {σ : SetOrders} (hσ : PossibleOrders σ) (b : LegacyBody) (entity : Str) (r : Raised)
    (h : jsonToSnqlMsg σ b entity = .error r) : LegacySaid b entity r := says_conversion hσ r h

/-- C96: the exception for a body of the right shape (C79) always has words of the SDK: a constructor or a setter refuses its arguments. -/
theorem C96_shape {σ : SetOrders} (hσ : PossibleOrders σ) (b : LegacyBody) (entity : Str) (hb : BodyShape b entity) (r : Raised)
    (h : jsonToSnqlMsg σ b entity = .error r) :
    (∃ c x t, r = (x, some t) ∧ LegacyMade entity c ∧ Refusal c x t) ∨ ∃ f v, LegacySet b f v ∧ FirstUnmet (fieldDemands f v) r := by
  have hc : (jsonToSnql b entity).1 = .error r.1 := by rw [← C96_same_class hσ, h]; rfl
  have ha := (C79_failures b entity hb).1 _ hc
  cases C96_said hσ b entity r h with
  | made hm hr => exact .inl ⟨_, _, _, rfl, hm, hr⟩
  | set hs hr => exact .inr ⟨_, _, hs, hr⟩
  | date => rcases ha with ha | ha <;> simp [Announced] at ha
  | python hp =>
    simp only [OfPython, List.mem_cons, List.not_mem_nil, or_false] at hp
    rcases hp with rfl | rfl | rfl | rfl | rfl | rfl | rfl <;> (rcases ha with ha | ha <;> simp [Announced] at ha)

/-- C96: an entity that is refused is refused first, in the words of its constructor, whatever else is wrong with the body. -/
theorem C96_entity (σ : SetOrders) (b : LegacyBody) (entity : Str) {v s : Val} (hv : ValueAt b c!"sample" v)
    (hs : (v = .none ∧ s = .none) ∨ ∃ f, v ≠ .none ∧ FloatOf v f ∧ s = .float f) {x : Err} {t : Str}
    (hr : Refusal (.entity (.str entity) .none s .none) x t) : jsonToSnqlMsg σ b entity = .error (x, some t) := by
  have h1 : legacySample v = .ok s := by
    rcases hs with ⟨rfl, rfl⟩ | ⟨f, hn, hf, rfl⟩
    · rfl
    · have hl : legacySample v = (toFloat v).map .float := by cases v <;> first | exact absurd rfl hn | rfl
      rw [hl, floatOf_iff.2 hf]; rfl
  have h2 : mkEntityMsg (.str entity) .none s .none = .error (x, some t) := (C89_message (.entity _ _ _ _) _).2 ⟨x, t, rfl, hr⟩
  simp only [jsonToSnqlMsg, legacyStartMsg, valueAt_iff.2 hv, h1, elsewhere, ok_bind, h2, error_bind]

/-- C96: a bound that is no date, given to a body that is converted without it, is refused in the words of `parse_datetime`. The text in the
message has lost the colons after its first plus sign. -/
theorem C96_date {σ : SetOrders} (hσ : PossibleOrders σ) (b : LegacyBody) (entity c : Str) (req : RequestObj)
    (hb : (jsonToSnql b entity).1 = .ok req) (hc : TimeColumn entity c) {key s u : Str} (hk : key ∈ [c!"from_date", c!"to_date"]) (hs : s ≠ [])
    (hd : ∀ t, ¬ LegacyDate s t) (hu : ShownDate s u) :
    jsonToSnqlMsg σ { b with entries := (key, .str s) :: b.entries } entity = .error (.valueError, some (u ++ c!" is not a recognized datetime")) :=
  date_refused hσ hb hc hk hs hd hu

/-- C96: an extra that is given to a body which is converted without it is refused exactly for what it lacks, in the words of its class. -/
theorem C96_extra {σ : SetOrders} (hσ : PossibleOrders σ) (b : LegacyBody) (entity : Str) (req : RequestObj)
    (hb : (jsonToSnql b entity).1 = .ok req) {key : Str} {f : Field} {v : Val}
    (hk : (key, f) ∈ [(c!"limit", Field.limit), (c!"offset", .offset), (c!"granularity", .granularity), (c!"totals", .totals)]) (hv : v ≠ .none) :
    RefusedBy (jsonToSnqlMsg σ { b with entries := (key, v) :: b.entries } entity) (fieldDemands f v) := extra_refused hσ hb hk hv

/-- C96: a body that selects nothing is refused in the words of `set_select`, if its entity is accepted and there is no array join. -/
theorem C96_nothing_selected {σ : SetOrders} (b : LegacyBody) (entity : Str) (hn : OptNewline EntityName entity)
    (hs : ValueAt b c!"sample" .none) (ha : ItemsAt b c!"aggregations" []) (hc : ItemsAt b c!"selected_columns" [])
    (hj : ValueAt b c!"arrayjoin" .none) :
    jsonToSnqlMsg σ b entity = .error (.invalidQuery, some c!"select clause must be a non-empty list of SelectableExpression") := by
  obtain ⟨smp, h1, h2⟩ := legacyEntity_iff.2 ⟨hn, none, .absent, rfl⟩
  cases h1
  have h2 : mkEntityMsg (.str entity) .none .none .none = .ok _ := QueryMsg.ok_of_drop ((BuildMsg.drop_call (.entity _ _ _ _)).trans h2)
  simp only [jsonToSnqlMsg, legacyStartMsg, valueAt_iff.2 hs, valueAt_iff.2 hj, legacySample, legacySelectMsg, itemsAt_iff.2 ha, itemsAt_iff.2 hc,
    elsewhere, ok_bind, h2, mkQueryMsg, parseAggregationsMsg, parseExpsMsg, List.map_nil, legacyArrayJoinMsg]
  rfl

end

section Examples

attribute [local instance] asciiUnicode asciiDecimal noNumberText
@[local instance, reducible] private def exLmShow : PyShow := ⟨fun _ => false, fun _ => c!"<object>"⟩
@[local instance, reducible] private def exLmText : PyText := ⟨fun _ => c!"<object>", fun _ => c!"builtins.object"⟩

private def exLmBody (more : List (Str × Val)) : LegacyBody :=
  { entries := more ++ [(c!"selected_columns", .list [.str c!"a"]), (c!"conditions", .list [.list [.str c!"a", .str c!"=", .int 1]])] }

private def exLmOrders : SetOrders := ⟨id, id, id, id, id, id, id⟩

private theorem exLmOrders_possible : PossibleOrders exLmOrders := by
  have h : ∀ {α : Type} (eq : α → α → Bool) (xs : List α), SeesSet eq xs (id xs) :=
    fun _ xs => ⟨fun _ h => h, fun x hx => ⟨x, hx, .inl rfl⟩⟩
  exact ⟨h _, h _, h _, h _, h _, h _, h _⟩

private def exLmSays (more : List (Str × Val)) (entity : Str) : Option Raised :=
  match jsonToSnqlMsg exLmOrders (exLmBody more) entity with
  | .ok _ => none
  | .error r => some r

set_option maxRecDepth 20000 in
/-- C96: what is said of a column, of an entity, of a limit, of a bound (the colon of its time zone is not shown), of a body that selects
nothing, and of a body of the wrong shape, where it is Python that speaks. The body without these entries is converted. -/
example : exLmSays [] c!"events" = none ∧
    exLmSays [(c!"groupby", .str c!"a b")] c!"events" =
      some (.invalidColumn, some c!"column 'a b' is empty or contains invalid characters") ∧
    exLmSays [(c!"limit", .int 0)] c!"events" = some (.invalidExpression, some c!"limit '0' must be at least 1") ∧
    exLmSays [(c!"from_date", .str c!"2021-13-01T00:00:00+01:00")] c!"events" =
      some (.valueError, some c!"2021-13-01T00:00:00+0100 is not a recognized datetime") ∧
    exLmSays [(c!"selected_columns", .list [])] c!"events" =
      some (.invalidQuery, some c!"select clause must be a non-empty list of SelectableExpression") ∧
    exLmSays [(c!"groupby", .none)] c!"events" = some (.typeError, none) :=
  ⟨by decide +kernel, by decide +kernel, by decide +kernel, by decide +kernel, by decide +kernel, by decide +kernel⟩

set_option maxRecDepth 20000 in
private theorem exLm_accepted : ∃ req, (jsonToSnql (exLmBody []) c!"events").1 = .ok req := by
  have h : exLmSays [] c!"events" = none := by decide +kernel
  unfold exLmSays at h
  split at h
  · rename_i r hr
    exact ⟨r, by rw [← C96_same_class exLmOrders_possible, hr]; rfl⟩
  · cases h

/-- C96: the hypotheses about bounds, with a text that has a time zone. -/
example : jsonToSnqlMsg exLmOrders (exLmBody [(c!"to_date", .str c!"now+01:00")]) c!"events" =
    .error (.valueError, some c!"now+0100 is not a recognized datetime") :=
  C96_date exLmOrders_possible (exLmBody []) _ _ _ exLm_accepted.choose_spec .events (by simp) (by simp)
    (fun t h => by rw [← parseDatetime_iff] at h; revert h; simp [show parseDatetime c!"now+01:00" = none by decide +kernel])
    (.zone (a := c!"now") (z := c!"01:00") (by decide))

/-- C96: the hypotheses about extras: totals that are no boolean, and a limit that is accepted. -/
example : jsonToSnqlMsg exLmOrders (exLmBody [(c!"totals", .int 1)]) c!"events" = .error (.invalidExpression, some c!"totals must be a boolean") ∧
    ∃ req, jsonToSnqlMsg exLmOrders (exLmBody [(c!"limit", .int 5)]) c!"events" = .ok req :=
  ⟨(C96_extra exLmOrders_possible (exLmBody []) _ _ exLm_accepted.choose_spec (v := .int 1) (.tail _ (.tail _ (.tail _ (.head _)))) (by simp) _).2
      ⟨[], _, [], rfl, nofun, by rintro ⟨_, ⟨⟩⟩, rfl⟩,
    (MetricsMsg.accepted (C96_extra exLmOrders_possible (exLmBody []) _ _ exLm_accepted.choose_spec (v := .int 5) (.head _) (by simp))).2 <| by
      intro d hd
      simp only [fieldDemands, List.mem_cons, List.not_mem_nil, or_false] at hd
      rcases hd with rfl | rfl | rfl
      · exact ⟨_, .int 5⟩
      · rintro i ⟨⟩; decide
      · rintro i ⟨⟩; decide⟩

/-- C96: an entity without a valid name is refused, although the body selects nothing. -/
example (b : LegacyBody) (h : ValueAt b c!"sample" .none) : ∃ x t, jsonToSnqlMsg exLmOrders b c!"a b" = .error (x, some t) := by
  obtain ⟨⟨x, m⟩, hr⟩ : ∃ r, mkEntityMsg (.str c!"a b") .none .none .none = .error r := ⟨_, rfl⟩
  obtain ⟨x, t, _, hf⟩ := (C89_message (.entity _ _ _ _) _).1 hr
  exact ⟨x, t, C96_entity exLmOrders b _ h (.inl ⟨rfl, rfl⟩) hf⟩

private theorem exLm_none (key : Str) : ValueAt { entries := [] } key .none := valueAt_iff.1 rfl

private theorem exLm_no_items (key : Str) : ItemsAt { entries := [] } key [] := itemsAt_iff.1 rfl

/-- C96: the empty body selects nothing. -/
private theorem exLm_empty : jsonToSnqlMsg exLmOrders { entries := [] } c!"events" =
    .error (.invalidQuery, some c!"select clause must be a non-empty list of SelectableExpression") := by
  exact C96_nothing_selected _ _ (entityNameRe_iff.1 (by decide +kernel)) (exLm_none _) (exLm_no_items _) (exLm_no_items _) (exLm_none _)

/-- C96: its shape is right. -/
example := C96_shape exLmOrders_possible { entries := [] } c!"events"
  { sample := ⟨.none, exLm_none _, .inl rfl⟩
    aggregations := ⟨[], exLm_no_items _, nofun⟩
    selected := ⟨[], exLm_no_items _, nofun⟩
    groupby := fun w hw => by rw [← lookup_has] at hw; cases hw
    dates := fun c _ key hk => ⟨.none, exLm_none _, .inl .none⟩
    conditions := ⟨[], exLm_no_items _, nofun⟩
    having := ⟨[], exLm_no_items _, nofun⟩
    orderby := ⟨.none, exLm_none _, .absent .none⟩
    limitby := ⟨.none, exLm_none _, .inl .none⟩ } _ exLm_empty

end Examples

end Verif
