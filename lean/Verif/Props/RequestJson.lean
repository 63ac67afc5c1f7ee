import Verif.Props.Request
import Verif.Lemmas.JsonValue
import Verif.Lemmas.JsonPrintable

/-!
# C46: the text of a request
-/

namespace Verif
open Spec

theorem Spec.StandsFor.unique {d : Data} {j j' : Json} (h : StandsFor d j) (h' : StandsFor d j') : j = j' := by
  rw [← Data.toJson_iff] at h h'
  rw [h] at h'
  cases h'
  rfl

section
variable [U : PyUnicode] [S : RegexSpace] [R : PyRepr]

/-- **C46** (what is sent): the text of a request is JSON for exactly the dictionary of `to_dict`. A reader that also takes `NaN` and
the infinities always finds it; a strict reader finds it if there are no such numbers. -/
theorem C46_decodes (r : RequestObj) (t : Str) (h : r.serialize = .ok t) :
    ∃ d j, r.toDict.1 = .ok d ∧ StandsFor d j ∧ readJsonText true t = some j ∧ (Finite j → readJsonText false t = some j) := by
  unfold RequestObj.serialize at h
  rw [bind_eq_ok] at h
  obtain ⟨d, hd, h⟩ := h
  simp only [jsonDumps, bind_eq_ok, Except.ok.injEq] at h
  obtain ⟨j, hj, rfl⟩ := h
  exact ⟨d, j, hd, (Data.toJson_iff d j).1 hj, readJsonText_encode true false j (.inl rfl),
    fun hf => readJsonText_encode false false j (.inr hf)⟩

/-- **C46** (success): the text exists exactly if `to_dict` succeeds and its dictionary stands for a JSON value. -/
theorem C46_serializes_iff (r : RequestObj) : (∃ t, r.serialize = .ok t) ↔ ∃ d j, r.toDict.1 = .ok d ∧ StandsFor d j := by
  constructor
  · rintro ⟨t, h⟩
    obtain ⟨d, j, h1, h2, _⟩ := C46_decodes r t h
    exact ⟨d, j, h1, h2⟩
  · rintro ⟨d, j, h1, h2⟩
    refine ⟨encodeJson false 0 j, ?_⟩
    unfold RequestObj.serialize
    rw [h1, ok_bind]
    simp only [jsonDumps, (Data.toJson_iff d j).2 h2, ok_bind]

/-- **C46** (failure): what `to_dict` raises is raised; a dictionary that stands for no JSON value raises `TypeError`. -/
theorem C46_error (r : RequestObj) : (∀ e, r.toDict.1 = .error e → r.serialize = .error e) ∧
    ∀ d, r.toDict.1 = .ok d → (¬ ∃ j, StandsFor d j) → r.serialize = .error .typeError := by
  constructor
  · intro e h
    unfold RequestObj.serialize
    rw [h]; rfl
  · intro d h hn
    unfold RequestObj.serialize
    rw [h, ok_bind]
    cases hj : d.toJson with
    | ok j => exact absurd ⟨j, (Data.toJson_iff d j).1 hj⟩ hn
    | error e =>
      cases Data.toJson_error d hj
      simp only [jsonDumps, hj]; rfl

/-- **C46** (nothing is lost): requests with the same text have payloads that stand for the same value. -/
theorem C46_injective (r r' : RequestObj) (t : Str) (h : r.serialize = .ok t) (h' : r'.serialize = .ok t) :
    ∃ d d' j, r.toDict.1 = .ok d ∧ r'.toDict.1 = .ok d' ∧ StandsFor d j ∧ StandsFor d' j := by
  obtain ⟨d, j, h1, h2, h3, _⟩ := C46_decodes r t h
  obtain ⟨d', j', h1', h2', h3', _⟩ := C46_decodes r' t h'
  rw [h3] at h3'
  cases h3'
  exact ⟨d, d', j, h1, h1', h2, h2'⟩

/-- **C46** (printing): `print` fails and succeeds as `serialize` does, and its text is JSON for the same value, with the entries of
every dictionary sorted by their keys. -/
theorem C46_print (r : RequestObj) :
    (∀ e, r.print = .error e ↔ r.serialize = .error e) ∧
    ∀ t, r.print = .ok t → ∃ d j j', r.toDict.1 = .ok d ∧ StandsFor d j ∧ Sorted j j' ∧ readJsonText true t = some j' ∧
      (Finite j → readJsonText false t = some j') := by
  constructor
  · intro e
    unfold RequestObj.print RequestObj.serialize
    cases hv : r.validate with
    | error e' =>
      have : r.toDict.1 = .error e' := by unfold RequestObj.toDict; rw [hv]
      rw [this]
      simp only [error_bind]
    | ok u =>
      rw [ok_bind]
      cases hd : r.toDict.1 with
      | error e' => simp only [error_bind]
      | ok d =>
        simp only [ok_bind, jsonDumps, jsonDumpsPretty]
        cases d.toJson with
        | error e' => simp only [error_bind]
        | ok j => simp only [ok_bind, reduceCtorEq]
  · intro t h
    unfold RequestObj.print at h
    simp only [bind_eq_ok, jsonDumpsPretty, Except.ok.injEq] at h
    obtain ⟨_, _, d, hd, j, hj, rfl⟩ := h
    exact ⟨d, j, j.sorted, hd, (Data.toJson_iff d j).1 hj, Json.sorted_spec j, readJsonText_encode true true j.sorted (.inl rfl),
      fun hf => readJsonText_encode false true j.sorted (.inr hf.sorted)⟩

/-- **C46** (any channel): the text is one line of printable ASCII, whatever characters the strings have; the printed text is
printable ASCII and new lines. -/
theorem C46_printable (r : RequestObj) :
    (∀ t, r.serialize = .ok t → ∀ c ∈ t, 32 ≤ c.toNat ∧ c.toNat ≤ 126) ∧
    ∀ t, r.print = .ok t → ∀ c ∈ t, c = '\n' ∨ (32 ≤ c.toNat ∧ c.toNat ≤ 126) := by
  constructor
  · intro t h c hc
    unfold RequestObj.serialize at h
    simp only [bind_eq_ok, jsonDumps, Except.ok.injEq] at h
    obtain ⟨d, _, j, _, rfl⟩ := h
    rcases encodeJson_shown false j 0 c hc with h | ⟨h, _⟩
    · exact h
    · cases h
  · intro t h c hc
    unfold RequestObj.print at h
    simp only [bind_eq_ok, jsonDumpsPretty, Except.ok.injEq] at h
    obtain ⟨_, _, d, _, j, _, rfl⟩ := h
    rcases encodeJson_shown true j.sorted 0 c hc with h | ⟨_, h⟩
    · exact .inr h
    · exact .inl h

/-- **C46** (any strings): a SnQL request whose payload can be built and whose tenant ids are strings and ints always
has a text, and a strict reader finds the payload in it, whatever characters the strings have. -/
theorem C46_snql (r : RequestObj) (q : Query) (d : Data) (kvs : List (Str × Data)) (hq : r.query = .snql q) (hd : r.toDict.1 = .ok d)
    (ht : r.tenantIds = .dict kvs) (hk : ∀ p ∈ kvs, (∃ s, p.2 = .val (.str s)) ∨ ∃ i, p.2 = .val (.int i)) :
    ∃ t j, r.serialize = .ok t ∧ StandsFor d j ∧ readJsonText false t = some j := by
  obtain ⟨hr, es, rfl, hp⟩ := C44_to_dict r d hd
  have tenants : ∀ kvs : List (Str × Data), (∀ p ∈ kvs, (∃ s, p.2 = .val (.str s)) ∨ ∃ i, p.2 = .val (.int i)) →
      ∃ js, toJsonEntries kvs = .ok js ∧ ∀ p ∈ js, Finite p.2 := by
    intro kvs hk
    induction kvs with
    | nil => exact ⟨[], rfl, by simp⟩
    | cons p kvs ih =>
      obtain ⟨k, v⟩ := p
      obtain ⟨js, h1, h2⟩ := ih (fun p hp => hk p (List.mem_cons_of_mem _ hp))
      rcases hk (k, v) (List.mem_cons_self ..) with ⟨s, h⟩ | ⟨i, h⟩
      · simp only at h; subst h
        exact ⟨(k, .str s) :: js, by simp [toJsonEntries, Data.toJson, Val.toJson, h1, ok_bind], by
          intro p hp; rcases List.mem_cons.1 hp with rfl | hp
          · exact .str s
          · exact h2 p hp⟩
      · simp only at h; subst h
        exact ⟨(k, .int i) :: js, by simp [toJsonEntries, Data.toJson, Val.toJson, h1, ok_bind], by
          intro p hp; rcases List.mem_cons.1 hp with rfl | hp
          · exact .int i
          · exact h2 p hp⟩
  obtain ⟨js, hj1, hj2⟩ := tenants kvs hk
  have item : ∀ k x, (k, x) ∈ es → ∃ j, x.toJson = .ok j ∧ Finite j := by
    intro k x hx
    cases (hp.entries k x).1 hx with
    | query _ h =>
      rw [hq] at h
      cases h with
      | snql _ t _ => exact ⟨.str t, rfl, .str t⟩
    | dataset => obtain ⟨s, e, _⟩ := hr.dataset; rw [e]; exact ⟨.str s, rfl, .str s⟩
    | appId => obtain ⟨s, e, _⟩ := hr.appId; rw [e]; exact ⟨.str s, rfl, .str s⟩
    | parentApi => obtain ⟨s, e, _⟩ := hr.parentApi; rw [e]; exact ⟨.str s, rfl, .str s⟩
    | tenantIds => rw [ht]; exact ⟨.obj js, by simp [Data.toJson, hj1, ok_bind], .obj _ hj2⟩
    | context _ _ _ h => rw [hq] at h; cases h
    | flag _ _ b _ _ => exact ⟨.bool b, rfl, .bool b⟩
  have all : ∀ es : List (Str × Data), (∀ k x, (k, x) ∈ es → ∃ j, x.toJson = .ok j ∧ Finite j) →
      ∃ js, toJsonEntries es = .ok js ∧ ∀ p ∈ js, Finite p.2 := by
    intro es he
    induction es with
    | nil => exact ⟨[], rfl, by simp⟩
    | cons p es ih =>
      obtain ⟨k, x⟩ := p
      obtain ⟨js, h1, h2⟩ := ih (fun k x hp => he k x (List.mem_cons_of_mem _ hp))
      obtain ⟨j, h3, h4⟩ := he k x (List.mem_cons_self ..)
      exact ⟨(k, j) :: js, by simp [toJsonEntries, h3, h1, ok_bind], by
        intro p hp; rcases List.mem_cons.1 hp with rfl | hp
        · exact h4
        · exact h2 p hp⟩
  obtain ⟨js', h1, h2⟩ := all es item
  have hj : (Data.dict es).toJson = .ok (.obj js') := by simp [Data.toJson, h1, ok_bind]
  refine ⟨encodeJson false 0 (.obj js'), .obj js', ?_, (Data.toJson_iff _ _).1 hj, readJsonText_encode false false _ (.inr (.obj _ h2))⟩
  unfold RequestObj.serialize
  rw [hd, ok_bind]
  simp only [jsonDumps, hj, ok_bind]

end

section Examples
local instance exJsonUnicode : PyUnicode := asciiUnicode
local instance exJsonSpace : RegexSpace := pySpace
local instance exJsonRepr : PyRepr := ⟨fun _ => []⟩

/-- A deletion with quotes, a backslash, a newline, and characters inside and outside of the basic plane. -/
def exJsonDelete : DeleteObj := ⟨.val (.str c!"s"), .dict [(c!"né\"\\", .list [.val (.str c!"a\n😀"), .val (.int (-5)), .val .none])]⟩

/-- C46: the text, and what a strict reader finds. -/
example : ({ exRequest (.delete exJsonDelete) with flags := none } : RequestObj).serialize =
    .ok c!"{\"query\": {\"columns\": {\"n\\u00e9\\\"\\\\\": [\"a\\n\\ud83d\\ude00\", -5, null]}}, \"app_id\": \"app\", \"tenant_ids\": {\"organization_id\": 1}, \"parent_api\": \"/api/0/\\u00e9\"}" := by decide +kernel

example := C46_decodes ({ exRequest (.delete exJsonDelete) with flags := none } : RequestObj) _ rfl
example := (C46_printable ({ exRequest (.delete exJsonDelete) with flags := none } : RequestObj)).1 _ rfl
example := C46_snql (exRequest (.snql exSnql)) exSnql _ _ rfl rfl rfl (by simp)

/-- The reader on its own: white space, nested values, escapes and numbers. -/
example : readJsonText false c!" { \"a\\/\\u00E9\" :\t[ 1 , -2, true,null , { } ] }\n" =
    some (.obj [(c!"a/é", .arr [.int 1, .int (-2), .bool true, .null, .obj []])]) := rfl
example : (readJsonText false c!"[1,]").isNone = true := rfl
example : (readJsonText false c!"[01]").isNone = true := rfl
example : (readJsonText false c!"\"a\nb\"").isNone = true := rfl
example : (readJsonText false c!"{\"a\": 1} x").isNone = true := rfl

/-- C46: the text of `print`. -/
example : ({ exRequest (.delete exJsonDelete) with flags := none } : RequestObj).print =
    .ok c!"{\n    \"app_id\": \"app\",\n    \"parent_api\": \"/api/0/\\u00e9\",\n    \"query\": {\n        \"columns\": {\n            \"n\\u00e9\\\"\\\\\": [\n                \"a\\n\\ud83d\\ude00\",\n                -5,\n                null\n            ]\n        }\n    },\n    \"tenant_ids\": {\n        \"organization_id\": 1\n    }\n}" := by decide +kernel

set_option maxRecDepth 10000 in
/-- C46: a number that JSON does not have is sent all the same, and then a strict reader refuses the text. -/
theorem C46_not_a_number_is_sent :
    ∃ t, ({ exRequest (.delete exDelete) with tenantIds := .dict [(c!"x", .val (.float .nan))] } : RequestObj).serialize = .ok t ∧
      (readJsonText true t).isSome = true ∧ readJsonText false t = none := by
  refine ⟨_, rfl, rfl, rfl⟩

/-- C46: a value that JSON does not have is an error. -/
example : ({ exRequest (.delete exDelete) with tenantIds := .dict [(c!"x", .val (.bytes [1]))] } : RequestObj).serialize =
    .error .typeError := rfl

end Examples

end Verif
