import Verif.Model.Expressions

/-!
# snuba_sdk/entity.py and snuba_sdk/storage.py
-/

namespace Verif

/-- `entity_name_re` (snuba_sdk/entity.py:8) and `storage_name_re` (storage.py:8): `^[a-zA-Z_]+$`. -/
def entityNameRe : Regex := .seq (.plus (.cls fun c => isAlpha c || c == '_')) .eol

/-- The sample check shared by `Entity.validate` (snuba_sdk/entity.py:27-31) and `Storage.validate`
(storage.py:25-29). -/
def checkSample (v : Val) (e : Err) : Except Err (Option PyFloat) :=
  match v with
  | .none => .ok none
  | .float f => if f.leZero then .error e else .ok (some f)
  | _ => .error e

/-- The data model check of `Entity.validate` (snuba_sdk/entity.py:37-39) and `Storage.validate`
(storage.py:31-33). -/
def checkDataModel (v : Val) (e : Err) : Except Err (Option DataModel) :=
  match v with
  | .none => .ok none
  | .dataModel d => .ok (some d)
  | _ => .error e

/-- The alias check of `Entity.validate` (snuba_sdk/entity.py:33-35). -/
def checkEntityAlias (v : Val) : Except Err (Option Str) :=
  match v with
  | .none => .ok none
  | .str s => if s.isEmpty then .error .invalidEntity else .ok (some s)
  | _ => .error .invalidEntity

/-- `Entity(name, alias, sample, data_model)` (snuba_sdk/entity.py:15-39). -/
def mkEntity (name alias sample dataModel : Val) : Except Err Val := do
  let n ← asStr name .invalidEntity
  ensure (entityNameRe.matches n) .invalidEntity
  let smp ← checkSample sample .invalidEntity
  let al ← checkEntityAlias alias
  let dm ← checkDataModel dataModel .invalidEntity
  .ok (.entity ⟨n, al, smp, dm⟩)

/-- `Storage(name, sample, data_model)` (snuba_sdk/storage.py:15-33). -/
def mkStorage (name sample dataModel : Val) : Except Err Val := do
  let n ← asStr name .invalidStorage
  ensure (entityNameRe.matches n) .invalidStorage
  let smp ← checkSample sample .invalidStorage
  let dm ← checkDataModel dataModel .invalidStorage
  .ok (.storage ⟨n, smp, dm⟩)

/-- `ENTITY_TIME_COLUMNS` (snuba_sdk/entity.py:48-61). -/
def ENTITY_TIME_COLUMNS : List (Str × Str) :=
  [(c!"discover", c!"timestamp"), (c!"discover_events", c!"timestamp"),
   (c!"discover_transactions", c!"finish_ts"), (c!"errors", c!"timestamp"),
   (c!"events", c!"timestamp"), (c!"outcomes", c!"timestamp"), (c!"outcomes_raw", c!"timestamp"),
   (c!"replays", c!"timestamp"), (c!"search_issues", c!"timestamp"), (c!"sessions", c!"started"),
   (c!"spans", c!"finish_ts"), (c!"transactions", c!"finish_ts")]

/-- `get_required_time_column` (snuba_sdk/entity.py:64-65). -/
def getRequiredTimeColumn (entity : Str) : Option Str := ENTITY_TIME_COLUMNS.lookup entity

end Verif
