import Verif.Lemmas.LegacyErrors

/-!
# C79: how the conversion of a legacy body fails
-/

namespace Verif
open Spec

section
variable [U : PyUnicode] [D : PyDecimal]

/-- **C79** (expressions): an expression of the right shape is converted or refused with an exception that the docstring announces, and every
expression that is converted has that shape. -/
theorem C79_expression (v : Val) : (∀ e, ExpShape v → parseExp v = .error e → Announced e) ∧ ∀ x, parseExp v = .ok x → ExpShape v :=
  ⟨fun e h he => parseExp_announced h e he, fun _ h => converts_shape (converts_iff.1 h)⟩

variable [N : PyNumberText]

/-- **C79**: a body of the right shape is converted, or is refused with one of the announced exceptions, or with `InvalidEntityError`. The last
happens exactly if the entity has no valid name or the sample is not positive. -/
theorem C79_failures (b : LegacyBody) (entity : Str) (h : BodyShape b entity) :
    (∀ e, (jsonToSnql b entity).1 = .error e → Announced e ∨ e = .invalidEntity) ∧
    ((jsonToSnql b entity).1 = .error .invalidEntity ↔
      ¬ (OptNewline EntityName entity ∧ ∃ v s, ValueAt b c!"sample" v ∧ SampleOf v s)) := by
  have hen : ∀ s e, mkEntity (.str entity) .none s .none = .error e → e = .invalidEntity := fun s e h =>
    (C59_expressions e).2.2.2.2.2.1 _ _ _ _ h
  refine ⟨fun e he => ?_, ⟨fun he => ?_, fun hn => ?_⟩⟩
  · rcases conversion_announced h he with h' | ⟨s, _, h'⟩
    · exact .inl h'
    · exact .inr (hen s e h')
  · rintro ⟨hname, v, s, hv, hs⟩
    rcases conversion_announced h he with h' | ⟨s', h1, h2⟩
    · simp [Announced] at h'
    · obtain ⟨w, hw1, hw2⟩ := legacyEntity_iff.2 ⟨hname, s, hs, rfl⟩
      rw [valueAt_iff.2 hv, hw1] at h1
      cases h1
      rw [hw2] at h2; cases h2
  · obtain ⟨v, hv, hsample⟩ := h.sample
    have hl : ∃ s, legacySample v = .ok s := by
      rcases hsample with rfl | ⟨f, hf⟩
      · exact ⟨_, rfl⟩
      · by_cases hnone : v = .none
        · subst hnone; exact ⟨_, rfl⟩
        · have hl : legacySample v = (toFloat v).map .float := by cases v <;> first | exact absurd rfl hnone | rfl
          rw [hl, floatOf_iff.2 hf]; exact ⟨_, rfl⟩
    obtain ⟨s, hs⟩ := hl
    have hm : mkEntity (.str entity) .none s .none = .error .invalidEntity := by
      cases hm : mkEntity (.str entity) .none s .none with
      | error e => rw [hen s e hm]
      | ok en =>
        obtain ⟨h1, s', h2, _⟩ := legacyEntity_iff.1 ⟨s, hs, hm⟩
        exact absurd ⟨h1, v, s', hv, h2⟩ hn
    have hstart : legacyStart b entity = .error .invalidEntity := by
      rw [legacyStart, valueAt_iff.2 hv, hs, ok_bind, hm]; rfl
    rw [jsonToSnql, hstart]

/-- **C79** (the shape is not too narrow): every body that is converted has the right shape. Hence a body that has not is refused. -/
theorem C79_convertible (b b' : LegacyBody) (entity : Str) (req : RequestObj) (h : jsonToSnql b entity = (.ok req, b')) : BodyShape b entity :=
  requestOf_shape (requestOf_iff.1 ⟨b', h⟩)

end

section Examples

attribute [local instance] asciiUnicode asciiDecimal noNumberText

private def shapeBody (more : List (Str × Val)) : LegacyBody :=
  { entries := more ++ [(c!"aggregations", .list [.list [.str c!"count()", .str c!"", .str c!"n"]]),
      (c!"conditions", .list [.list [.str c!"a", .str c!"=", .int 1]])] }

private def shapeFails (more : List (Str × Val)) : Option Err :=
  match (jsonToSnql (shapeBody more) c!"events").1 with
  | .ok _ => none
  | .error e => some e

private theorem shape_fails {more : List (Str × Val)} {e : Err} (h : shapeFails more = some e) :
    (jsonToSnql (shapeBody more) c!"events").1 = .error e := by
  unfold shapeFails at h
  split at h
  · cases h
  · rename_i h'; cases h; exact h'

set_option maxRecDepth 20000 in
/-- **C79** (bodies of the wrong shape): the docstring's announcement does not hold for all bodies. Seven kinds of exceptions that are not
announced come out of the conversion. -/
theorem C79_not_announced :
    ∀ e ∈ [Err.valueError, .typeError, .attributeError, .indexError, .keyError, .overflowError, .unboundLocalError],
      ¬ Announced e ∧ ∃ b, (jsonToSnql b c!"events").1 = .error e := by
  intro e he
  constructor
  · intro h
    revert he; revert h
    cases e <;> simp [Announced]
  simp only [List.mem_cons, List.not_mem_nil, or_false] at he
  rcases he with rfl | rfl | rfl | rfl | rfl | rfl | rfl
  · exact ⟨_, shape_fails (more := [(c!"having", .list [.list [.str c!"a", .str c!"like", .str c!"b"]])]) (by decide +kernel)⟩
  · exact ⟨_, shape_fails (more := [(c!"groupby", .none)]) (by decide +kernel)⟩
  · exact ⟨_, shape_fails (more := [(c!"selected_columns", .list [.list [.str c!"f", .str c!"x", .int 1]])]) (by decide +kernel)⟩
  · exact ⟨_, shape_fails (more := [(c!"selected_columns", .list [.list [.str c!"f"]])]) (by decide +kernel)⟩
  · exact ⟨_, shape_fails (more := [(c!"selected_columns", .list [.list [.str c!"a", .str c!"!", .int 1]])]) (by decide +kernel)⟩
  · exact ⟨_, shape_fails (more := [(c!"limitby", .list [.float (.inf false), .str c!"a"])]) (by decide +kernel)⟩
  · exact ⟨_, shape_fails (more := [(c!"orderby", .tuple [.str c!"a", .str c!"b"])]) (by decide +kernel)⟩

private def shapeWith (v : Val) : LegacyBody := { entries := [(c!"conditions", .list [.list [.str c!"a", .str c!"IN", v]])] }

set_option maxRecDepth 20000 in
/-- C79: bodies of the right shape that are refused: nothing is selected, a column has no valid name, and the sample is negative. -/
example : shapeFails [(c!"aggregations", .list [])] = some .invalidQuery ∧
    shapeFails [(c!"selected_columns", .list [.str c!"a b"])] = some .invalidColumn ∧
    shapeFails [(c!"sample", .int (-1))] = some .invalidEntity ∧
    shapeFails [] = none := ⟨by decide +kernel, by decide +kernel, by decide +kernel, by decide +kernel⟩

private theorem shape_none {b : LegacyBody} {key : Str} (h : b.entries.lookup key = none) : ValueAt b key .none :=
  valueAt_iff.1 (by simp [LegacyBody.get, LegacyBody.getD, h])

private theorem shape_items {b : LegacyBody} {key : Str} (h : b.entries.lookup key = none) : ItemsAt b key [] :=
  itemsAt_iff.1 (by simp only [LegacyBody.getD, h]; rfl)

/-- C79: the hypothesis holds of a body with a condition, whatever its right-hand side is. -/
example (v : Val) : BodyShape (shapeWith v) c!"events" where
  sample := ⟨.none, shape_none rfl, .inl rfl⟩
  aggregations := ⟨[], shape_items rfl, nofun⟩
  selected := ⟨[], shape_items rfl, nofun⟩
  groupby := fun w hw => by rw [← lookup_has] at hw; cases hw
  dates := fun c _ key hk => by
    simp only [List.mem_cons, List.not_mem_nil, or_false] at hk
    rcases hk with rfl | rfl <;> exact ⟨.none, shape_none rfl, .inl .none⟩
  conditions := ⟨[.list [.str c!"a", .str c!"IN", v]], itemsAt_iff.1 rfl, fun x hx => by
    cases List.mem_singleton.1 hx
    exact .condition .list (conditionShape_iff.1 rfl) (.mk .text (.text (o := .in_)) (.inr (.inr nofun)))⟩
  having := ⟨[], shape_items rfl, nofun⟩
  orderby := ⟨.none, shape_none rfl, .absent .none⟩
  limitby := ⟨.none, shape_none rfl, .inl .none⟩

private def shapeExp (v : Val) : Option Err :=
  match parseExp v with
  | .ok _ => none
  | .error e => some e

private theorem shape_exp {v : Val} {e : Err} (h : shapeExp v = some e) : parseExp v = .error e := by
  unfold shapeExp at h
  split at h
  · cases h
  · rename_i h'; cases h; exact h'

/-- C79: an expression of the right shape that is refused, and one of the wrong shape. -/
example : ExpShape (.list [.str c!"f;g", .list [.str c!"a"]]) ∧ parseExp (.list [.str c!"f;g", .list [.str c!"a"]]) = .error .invalidFunction ∧
    parseExp (.list [.str c!"f", .int 1, .int 2]) = .error .attributeError := by
  refine ⟨.call (fun h => by cases h) .none (.list fun x hx => ?_), shape_exp (by decide +kernel), shape_exp (by decide +kernel)⟩
  cases List.mem_singleton.1 hx
  exact .text

end Examples

end Verif
