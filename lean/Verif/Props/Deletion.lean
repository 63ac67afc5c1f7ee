import Verif.Lemmas.Deletion
import Verif.Props.RequestMeaning

/-!
# C84: a deletion deletes the rows that were asked for
-/

namespace Verif

open Spec

section
variable [U : PyUnicode] [S : RegexSpace] [R : PyRepr]

/-- **C84** (rows): in the text of a deletion whose conditions are lists, the recipient finds conditions that hold for exactly the rows
that were asked for, whatever cells are and whatever it means that a cell has a value. -/
theorem C84_rows (r : RequestObj) (q : DeleteObj) (t : Str) (hr : r.query = .delete q) (hl : AllLists q) (h : r.serialize = .ok t) :
    ∃ kvs j, readJsonText true t = some (.obj kvs) ∧ kvs.lookup c!"query" = some (.obj [(c!"columns", j)]) ∧
      ∀ (D : Type) (asked : D → Val → Prop) (found : D → Json → Prop), SameValues asked found →
        ∀ row, Deletes found row j ↔ AsksFor asked row q := by
  obtain ⟨kvs, j, h1, h2, h3, _⟩ := C72_delete r q t hr h
  exact ⟨kvs, j, h1, h2, fun D asked found ha row => deletes_iff ha hl h3 row⟩

/-- **C84** (never everything): there is a column such that the recipient deletes only rows that have one of finitely many values in it. -/
theorem C84_spares (r : RequestObj) (q : DeleteObj) (t : Str) (hr : r.query = .delete q) (hl : AllLists q) (h : r.serialize = .ok t) :
    ∃ kvs j, readJsonText true t = some (.obj kvs) ∧ kvs.lookup c!"query" = some (.obj [(c!"columns", j)]) ∧
      ∃ col js, js ≠ [] ∧ ∀ (D : Type) (found : D → Json → Prop) (row : Str → D), Deletes found row j → ∃ x ∈ js, found (row col) x := by
  obtain ⟨kvs, j, h1, h2, h3, cs, hc, hne, hv⟩ := C72_delete r q t hr h
  obtain ⟨kvs', hc', hl⟩ := hl
  obtain rfl : kvs' = cs := by rw [hc] at hc'; cases hc'; rfl
  rw [hc] at h3
  cases h3 with
  | dict _ us hk hs =>
    match kvs', us, hk, hs, hne, hv, hl with
    | (k, d) :: ps, u :: us, hk, hs, _, hv, hl =>
      obtain ⟨xs, hx⟩ := hl (k, d) (by simp)
      obtain ⟨js, ej, hn, _⟩ := lists_array hx (hs ((k, d), u) (by simp))
      refine ⟨kvs, _, h1, h2, u.1, js, ?_, ?_⟩
      · have := hv (k, d) (by simp)
        rintro rfl
        obtain rfl : xs = [] := List.eq_nil_of_length_eq_zero hn
        cases hx with
        | list _ => cases this
        | tuple _ => cases this
        | data ds _ hd _ =>
          obtain rfl : ds = [] := List.eq_nil_of_length_eq_zero hd
          cases this
      · rintro D found row ⟨_, e, hd⟩
        cases e
        obtain ⟨js', x, e, hx, hf⟩ := hd u (by simp)
        rw [ej] at e
        cases e
        exact ⟨x, hx, hf⟩

/-- **C84** (the storage): the storage is no part of the text. Two requests that differ in the storage of their deletion only have the
same result. -/
theorem C84_storage_not_sent (r : RequestObj) (c s s' : Data) :
    { r with query := .delete ⟨s, c⟩ }.serialize = { r with query := .delete ⟨s', c⟩ }.serialize := by
  have hv : { r with query := .delete ⟨s, c⟩ }.validate = { r with query := .delete ⟨s', c⟩ }.validate := by
    simp only [RequestObj.validate]
    rfl
  simp only [RequestObj.serialize, RequestObj.toDict, hv]
  cases { r with query := .delete ⟨s', c⟩ }.validate with
  | error e => rfl
  | ok _ =>
    cases hf : flagsDict r.flags with
    | error e => simp only [hf]
    | ok flags =>
      have hs : (DeleteObj.mk s c).serialize = (DeleteObj.mk s' c).serialize := rfl
      simp only [hf, RequestObj.build, hs]
      cases (DeleteObj.mk s' c).serialize <;> rfl

end

/-! ## Concrete cases -/

attribute [local instance] asciiUnicode pySpace

@[local instance] private def exDeletionRepr : PyRepr := ⟨fun _ => []⟩

/-- `DeleteQuery(s, {"project_id": [1], "occurrence_id": ["1234", "5678"]})`. -/
private def exDeletion (s : Str) : DeleteObj :=
  ⟨.val (.str s), .dict [(c!"project_id", .val (.list [.int 1])), (c!"occurrence_id", .list [.val (.str c!"1234"), .val (.str c!"5678")])]⟩

private def exDeletionRequest (q : DeleteObj) : RequestObj :=
  { dataset := .val (.str c!"search_issues"), appId := .val (.str c!"myapp"), query := .delete q, tenantIds := .dict [] }

private def exDeletionText : Str :=
  c!"{\"query\": {\"columns\": {\"project_id\": [1], \"occurrence_id\": [\"1234\", \"5678\"]}}, \"app_id\": \"myapp\", \
\"tenant_ids\": {}, \"parent_api\": \"<unknown>\"}"

private theorem exDeletion_lists (s : Str) : AllLists (exDeletion s) := by
  refine ⟨_, rfl, ?_⟩
  simp only [List.mem_cons, List.not_mem_nil, or_false]
  rintro p (rfl | rfl)
  · exact ⟨_, .list _⟩
  · refine ⟨[.str c!"1234", .str c!"5678"], .data _ _ rfl ?_⟩
    simp only [List.zip_cons_cons, List.zip_nil_right, List.mem_cons, List.not_mem_nil, or_false]
    rintro p (rfl | rfl) <;> rfl

private theorem exDeletion_text (s : Str) : (exDeletionRequest (exDeletion s)).serialize = .ok exDeletionText := by
  rfl

example := C84_rows _ _ _ rfl (exDeletion_lists c!"search_issues") (exDeletion_text c!"search_issues")
example := C84_spares _ _ _ rfl (exDeletion_lists c!"search_issues") (exDeletion_text c!"search_issues")
example : (exDeletionRequest (exDeletion c!"search_issues")).serialize = (exDeletionRequest (exDeletion c!"events")).serialize :=
  C84_storage_not_sent (exDeletionRequest (exDeletion [])) _ (.val (.str c!"search_issues")) (.val (.str c!"events"))

/-- Cells that are strings, and a row that this deletion asks for, and one that it does not. -/
example : AsksFor (fun (c : Str) v => v = .str c ∨ (c = c!"1" ∧ v = .int 1)) (fun k => if k = c!"project_id" then c!"1" else c!"5678") (exDeletion c!"events") ∧
    ¬ AsksFor (fun (c : Str) v => v = .str c ∨ (c = c!"1" ∧ v = .int 1)) (fun _ => c!"1") (exDeletion c!"events") := by
  refine ⟨⟨_, rfl, ?_⟩, ?_⟩
  · simp only [List.mem_cons, List.not_mem_nil, or_false]
    rintro p (rfl | rfl)
    · exact ⟨_, .int 1, .list _, by simp, .inr ⟨by decide, rfl⟩⟩
    · refine ⟨[.str c!"1234", .str c!"5678"], .str c!"5678", .data _ _ rfl ?_, by simp, .inl rfl⟩
      simp only [List.zip_cons_cons, List.zip_nil_right, List.mem_cons, List.not_mem_nil, or_false]
      rintro p (rfl | rfl) <;> rfl
  · rintro ⟨_, e, h⟩
    cases e
    obtain ⟨xs, x, hl, hx, h⟩ := h (c!"occurrence_id", .list [.val (.str c!"1234"), .val (.str c!"5678")]) (by simp)
    match xs, hl with
    | [a, b], .data _ _ _ he =>
      have ha := he (.val (.str c!"1234"), a) (by simp)
      have hb := he (.val (.str c!"5678"), b) (by simp)
      cases ha
      cases hb
      simp only [List.mem_cons, List.not_mem_nil, or_false] at hx
      rcases hx with rfl | rfl <;> rcases h with h | ⟨_, h⟩ <;> revert h <;> simp

/-- **C84** (not only lists): a condition that is a string is accepted as well, and sent as a string; the recipient finds no array there. -/
theorem C84_string_accepted :
    ∃ q : DeleteObj, DeleteOk q ∧ ¬ AllLists q ∧ (exDeletionRequest q).serialize =
      .ok c!"{\"query\": {\"columns\": {\"id\": \"123\"}}, \"app_id\": \"myapp\", \"tenant_ids\": {}, \"parent_api\": \"<unknown>\"}" := by
  refine ⟨⟨.val (.str c!"events"), .dict [(c!"id", .val (.str c!"123"))]⟩, ⟨_, rfl, by simp, ?_⟩, ?_, rfl⟩
  · simp only [List.mem_singleton]
    rintro p rfl
    exact .str _ _
  · rintro ⟨_, e, h⟩
    cases e
    obtain ⟨xs, h⟩ := h _ (List.mem_singleton.2 rfl)
    cases h

end Verif
