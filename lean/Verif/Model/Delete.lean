import Verif.Model.Metrics

/-!
# snuba_sdk/delete_query.py
-/

namespace Verif

/-- `DeleteQuery` (snuba_sdk/delete_query.py:11-30). Nothing is checked on construction. -/
structure DeleteObj where
  storageName : Data
  columnConditions : Data
  deriving Inhabited

/-- `len(x)` (Python built-in): strings, bytes, lists, tuples and dictionaries have a length, all other values raise
`TypeError`. -/
def Data.len : Data → Except Err Nat
  | .val (.str s) => .ok s.length
  | .val (.bytes bs) => .ok bs.length
  | .val (.list xs) => .ok xs.length
  | .val (.tuple xs) => .ok xs.length
  | .val _ => .error .typeError
  | .list xs => .ok xs.length
  | .dict kvs => .ok kvs.length

/-- The loop over the column conditions (snuba_sdk/delete_query.py:36-40). -/
def checkColumns : List (Str × Data) → Except Err Unit
  | [] => .ok ()
  | (_, values) :: kvs => do
    let n ← values.len
    ensure (n != 0) .invalidDelete
    checkColumns kvs

/-- `DeleteQuery.validate` (snuba_sdk/delete_query.py:32-40). Values that are no dictionaries have no `items`. -/
def DeleteObj.validate (d : DeleteObj) : Except Err Unit :=
  match d.columnConditions with
  | .dict [] => .error .invalidDelete
  | .dict kvs => checkColumns kvs
  | _ => .error .attributeError

/-- `DeleteQuery.serialize` (snuba_sdk/delete_query.py:42-45). -/
def DeleteObj.serialize (d : DeleteObj) : Except Err Data := do
  d.validate
  .ok (.dict [(c!"columns", d.columnConditions)])

end Verif
