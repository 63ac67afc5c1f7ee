import Verif.Py.Repr
import Verif.Model.Delete
import Verif.Model.Entity

/-!
# The texts of delete queries, entities and storages
-/

namespace Verif

/-- `DeleteQuery.__repr__` and `DeleteQuery.print` (snuba_sdk/delete_query.py:47-51). -/
def DeleteObj.print [PyShow] (d : DeleteObj) : Str :=
  c!"DeleteQuery(storage_name=" ++ d.storageName.repr ++ c!", columnsConditions=" ++ d.columnConditions.repr ++ c!")"

/-- `f", sample={self.sample}"`, or nothing (snuba_sdk/entity.py:43, storage.py:36). -/
def sampleRepr : Option PyFloat → Str
  | none => []
  | some f => c!", sample=" ++ f.repr

/-- `Entity.__repr__` (snuba_sdk/entity.py:41-44). The alias is written as it is, without escapes. -/
def EntityObj.repr (e : EntityObj) : Str :=
  let alias := match e.alias with
    | none => []
    | some a => c!", alias='" ++ a ++ c!"'"
  c!"Entity('" ++ e.name ++ c!"'" ++ alias ++ sampleRepr e.sample ++ c!")"

/-- `Storage.__repr__` (snuba_sdk/storage.py:35-37). -/
def StorageObj.repr (s : StorageObj) : Str := c!"STORAGE('" ++ s.name ++ c!"'" ++ sampleRepr s.sample ++ c!")"

end Verif
