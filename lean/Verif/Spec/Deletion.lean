import Verif.Spec.Json
import Verif.Model.Delete

/-!
# Specification: which rows a deletion asks for, and which rows its recipient deletes

After the comment at snuba_sdk/delete_query.py:14-27: `{"id": [1, 2, 3], "status": ["failed"]}` stands for
`DELETE FROM ... WHERE id in (1,2,3) AND status='failed'`.
-/

namespace Verif.Spec

/-- The values that a column condition lists, in the two forms in which the model has sequences. -/
inductive Lists : Data → List Val → Prop
  | list (xs) : Lists (.val (.list xs)) xs
  | tuple (xs) : Lists (.val (.tuple xs)) xs
  | data (ds xs) : ds.length = xs.length → (∀ p ∈ ds.zip xs, p.1 = .val p.2) → Lists (.list ds) xs

/-- Every column condition lists values. -/
def AllLists (d : DeleteObj) : Prop := ∃ kvs, d.columnConditions = .dict kvs ∧ ∀ p ∈ kvs, ∃ xs, Lists p.2 xs

/-- The deletion asks for the row with these cells: in every column with a condition stands one of the values listed. -/
def AsksFor {D : Type} (same : D → Val → Prop) (row : Str → D) (d : DeleteObj) : Prop :=
  ∃ kvs, d.columnConditions = .dict kvs ∧ ∀ p ∈ kvs, ∃ xs x, Lists p.2 xs ∧ x ∈ xs ∧ same (row p.1) x

/-- What the recipient does with the value that it finds under `columns`: it deletes the row if every entry has an array with the value
of that column. -/
def Deletes {D : Type} (same : D → Json → Prop) (row : Str → D) (columns : Json) : Prop :=
  ∃ kvs, columns = .obj kvs ∧ ∀ p ∈ kvs, ∃ js j, p.2 = .arr js ∧ j ∈ js ∧ same (row p.1) j

/-- Sender and recipient mean the same by values. -/
def SameValues {D : Type} (asked : D → Val → Prop) (found : D → Json → Prop) : Prop :=
  ∀ c v j, ValueOf v j → (found c j ↔ asked c v)

end Verif.Spec
