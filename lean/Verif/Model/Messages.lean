import Verif.Model.SetOrder
import Verif.Model.Repr
import Verif.Model.Request

/-!
# Exceptions with their messages

The checks below follow the functions of the same names in the other model files and in `Model/SetOrder.lean`, and also
give the message of the exception. `none` stands for the message of an exception that is raised elsewhere (by Python, or by a
check that is not followed here).
-/

namespace Verif

/-- An exception: its class and its message. -/
abbrev Raised := Err × Option Str

/-- `raise cls(message)`. -/
def raise {α : Type} (e : Err) (m : Str) : Except Raised α := .error (e, some m)

/-- An exception raised elsewhere. -/
def elsewhere {α : Type} : Except Err α → Except Raised α
  | .ok x => .ok x
  | .error e => .error (e, none)

/-- Insert a string before the first one that is not smaller (Python built-in `sorted`, which is stable). -/
def insertStr (s : Str) : List Str → List Str
  | [] => [s]
  | t :: ts => if strLt t s then t :: insertStr s ts else s :: t :: ts

/-- `sorted(strings)` (Python built-in; snuba_sdk/relationships.py:93, query_validation.py:168). -/
def sortStrs : List Str → List Str
  | [] => []
  | s :: ss => insertStr s (sortStrs ss)

/-- The loop of `Join.validate` over the alias mappings (snuba_sdk/relationships.py:90-97); `seen` is the
dictionary, latest entry first. -/
def checkSeenMsg : List (Str × Str) → List (Str × Str) → Except Raised Unit
  | _, [] => .ok ()
  | seen, (a, n) :: rest =>
    match seen.lookup a with
    | some m =>
      if m ≠ n then
        raise .invalidExpression
          (c!"alias '" ++ a ++ c!"' is duplicated for entities " ++ joinWith c!", " (sortStrs [n, m]))
      else checkSeenMsg ((a, n) :: seen) rest
    | none => checkSeenMsg ((a, n) :: seen) rest

/-- `Join.validate` on a list of relationship objects (snuba_sdk/relationships.py:84-97). -/
def checkJoinMsg (σ : SetOrders) (rels : List RelObj) : Except Raised Unit :=
  if rels.isEmpty then raise .invalidExpression c!"Join must have at least one Relationship"
  else checkSeenMsg [] (σ.aliases (aliasMappings rels))

/-- The loop of `_validate_subquery` (snuba_sdk/query_validation.py:66-70). -/
def checkInnerMsg (names : List (Option Str)) : List ColumnObj → Except Raised Unit
  | [] => .ok ()
  | c :: cs =>
    if names.contains (some c.name) then checkInnerMsg names cs
    else raise .invalidMatch (c!"outer query is referencing column '" ++ c.name ++ c!"' that does not exist in subquery")

/-- `_validate_subquery` (snuba_sdk/query_validation.py:49-71). -/
def validateSubqueryMsg (σ : SetOrders) (inner : Body) (cols : List ColumnObj) : Except Raised Unit :=
  match inner.select with
  | .none => .error (.assertion, none)
  | sel =>
    match sel.iter with
    | .error e => .error (e, none)
    | .ok xs => checkInnerMsg (innerNames xs) (σ.columns cols)

/-- The loop of `_validate_join` (snuba_sdk/query_validation.py:84-95). -/
def checkQualifiedMsg (dict : List (Str × Str)) : List ColumnObj → Except Raised Unit
  | [] => .ok ()
  | c :: cs =>
    match c.entity with
    | none => raise .invalidMatch (c!"column '" ++ c.name ++ c!"' must have a qualifying entity")
    | some e =>
      match e.alias.bind (fun a => dict.lookup a) with
      | none => raise .invalidMatch (c!"column '" ++ c.name ++ c!"' has unknown entity alias " ++ optStr e.alias)
      | some n =>
        if n ≠ e.name then
          raise .invalidMatch (c!"column '" ++ c.name ++ c!"' has incorrect alias for entity " ++ e.repr ++ c!": '" ++
            optStr e.alias ++ c!"'")
        else checkQualifiedMsg dict cs

/-- `_validate_join` (snuba_sdk/query_validation.py:74-95). -/
def validateJoinMsg (σ : SetOrders) (rels : List RelObj) (cols : List ColumnObj) : Except Raised Unit :=
  checkQualifiedMsg (σ.aliasDict (aliasMappings rels)).reverse (σ.columns cols)

/-- `Column.validate_data_model` (snuba_sdk/column.py:67-75); `owner` is the name of the entity or storage. -/
def ColumnObj.validateDataModelMsg (owner : Str) (dm : Option DataModel) (c : ColumnObj) : Except Raised Unit :=
  match c.validateDataModel dm with
  | .ok _ => .ok ()
  | .error e => raise e (c!"'" ++ owner ++ c!"' does not support the column '" ++ c.name ++ c!"'")

/-- The loop of `_validate_storage` and `_validate_entity` (snuba_sdk/query_validation.py:98-123). -/
def validateModelMsg (owner : Str) (dm : Option DataModel) : List ColumnObj → Except Raised Unit
  | [] => .ok ()
  | c :: cs => do
    c.validateDataModelMsg owner dm
    validateModelMsg owner dm cs

/-- `validate_match` (snuba_sdk/query_validation.py:28-46). The last branch is for match values that `Query.__post_init__`
rejects. -/
def validateMatchMsg (σ : SetOrders) : Query → Except Raised Unit
  | .nested q b => do
    let cols ← elsewhere (searchBody b)
    validateSubqueryMsg σ q.body cols
  | .base m b => do
    let cols ← elsewhere (searchBody b)
    match m with
    | .join _ rels => validateJoinMsg σ rels cols
    | .storage s => validateModelMsg s.name s.dataModel (σ.columns cols)
    | .entity e => validateModelMsg e.name e.dataModel (σ.columns cols)
    | _ => .error (.attributeError, none)

/-- `f"{entity.alias}." if entity.alias else ""` (snuba_sdk/query_validation.py:167, 185). -/
def aliasPrefix : Option Str → Str
  | none => []
  | some [] => []
  | some a => a ++ c!"."

/-- `"s" if len(missing) > 1 else ""` (snuba_sdk/query_validation.py:171, 184). -/
def plural {α : Type} (xs : List α) : Str := if xs.length > 1 then c!"s" else []

/-- `sorted([f"'{entity_alias}{…name}'" for i in not_matched])` (snuba_sdk/query_validation.py:168-170). -/
def missingNames (entityAlias : Option Str) (ms : List ModelColumn) : List Str :=
  sortStrs (ms.map fun m => c!"'" ++ aliasPrefix entityAlias ++ m.name ++ c!"'")

/-- The message on required columns (snuba_sdk/query_validation.py:171-174). -/
def requiredMessage (names : List Str) : Str :=
  c!"where clause is missing required condition" ++ plural names ++ c!" on column" ++ plural names ++ c!" " ++ joinWith c!", " names

/-- The message on the time column (snuba_sdk/query_validation.py:184-189): `ops` is the set of missing operators, `shown` the
sequence in which the comprehension sees them. -/
def timeMessage (entityAlias : Option Str) (column : Str) (ops shown : List Op) : Str :=
  c!"where clause is missing required " ++ joinWith c!", " (shown.map Op.value) ++ c!" condition" ++ plural ops ++ c!" on column '" ++
    aliasPrefix entityAlias ++ column ++ c!"'"

/-- `_check_entity_required_columns_in_conditions` (snuba_sdk/query_validation.py:130-189). `missing_ops` is again
a set of operators, over which the comprehension that makes the text loops. -/
def checkEntityRequiredMsg (σ : SetOrders) (e : EntityObj) (where_ : Val) : Except Raised Unit :=
  match e.dataModel with
  | none => .ok ()
  | some dm =>
    if where_.truthy then
      match where_.iter with
      | .error x => .error (x, none)
      | .ok xs =>
        let top := firstLevelAnd xs
        let missing := missingRequired top e.alias (σ.required dm.required)
        if missing.isEmpty then
          let ops := missingOps top e.alias dm.timeColumn.name (σ.ops [.gte, .lt])
          if ops.isEmpty then .ok () else raise .requiredColumn (timeMessage e.alias dm.timeColumn.name ops (σ.ops ops))
        else raise .requiredColumn (requiredMessage (missingNames e.alias missing))
    else raise .requiredColumn c!"where clause is missing required columns"

/-- The loop over the joined entities (snuba_sdk/query_validation.py:228-229). -/
def checkEntitiesRequiredMsg (σ : SetOrders) : List EntityObj → Val → Except Raised Unit
  | [], _ => .ok ()
  | e :: es, w => do
    checkEntityRequiredMsg σ e w
    checkEntitiesRequiredMsg σ es w

/-- `validate_required_columns` (snuba_sdk/query_validation.py:211-229). -/
def validateRequiredColumnsMsg (σ : SetOrders) : Query → Except Raised Unit
  | .nested q _ => validateRequiredColumnsMsg σ q
  | .base (.entity e) b => checkEntityRequiredMsg σ e b.where_
  | .base (.join _ rels) b => checkEntitiesRequiredMsg σ (σ.entities (joinEntities rels)) b.where_
  | .base _ _ => .ok ()

/-- The loop over the column conditions (snuba_sdk/delete_query.py:36-40). -/
def checkColumnsMsg : List (Str × Data) → Except Raised Unit
  | [] => .ok ()
  | (col, values) :: kvs => do
    let n ← elsewhere values.len
    if n = 0 then raise .invalidDelete (c!"column condition '" ++ col ++ c!"' cannot be empty") else checkColumnsMsg kvs

/-- `DeleteQuery.validate` (snuba_sdk/delete_query.py:32-40). -/
def DeleteObj.validateMsg (d : DeleteObj) : Except Raised Unit :=
  match d.columnConditions with
  | .dict [] => raise .invalidDelete c!"column conditions cannot be empty"
  | .dict kvs => checkColumnsMsg kvs
  | _ => .error (.attributeError, none)

/-- The loop over the flags (snuba_sdk/request.py:32-35). -/
def checkFlagsMsg : List (Str × Val) → Except Raised Unit
  | [] => .ok ()
  | (k, v) :: fs =>
    match checkFlag v with
    | .ok _ => checkFlagsMsg fs
    | .error e => raise e (k ++ c!" must be a boolean")

/-- `Flags.validate` (snuba_sdk/request.py:30-35). -/
def FlagsObj.validateMsg (f : FlagsObj) : Except Raised Unit := checkFlagsMsg f.fields

end Verif
