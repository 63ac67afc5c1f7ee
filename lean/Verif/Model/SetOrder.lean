import Verif.Model.Required
import Verif.Model.Legacy

/-!
# The loops over Python sets

Python visits the elements of a set in an order that depends on their hashes, and the hashes of strings change
from one process to the next. The functions below follow the ones of the other model files, but every
loop over a set goes through an order given from outside.
-/

namespace Verif

/-- The order in which each loop of the SDK over a set visits the elements: the argument lists the elements in
the order in which they were put into the set, with repetitions, the result is the sequence of the elements that
the loop sees. One field per loop: `columns` the loops over `all_columns` (snuba_sdk/query_validation.py:66,
84, 107, 121), `aliases` the loop of `Join.validate` (relationships.py:91), `aliasDict` the comprehension of
`_validate_join` (query_validation.py:83), `entities` the loop over the joined entities
(query_validation.py:228), `required` the comprehension over `required_columns` (query_validation.py:154),
`ops` the loop over `{Op.GTE, Op.LT}` (query_validation.py:177), `flags` the comprehension over `extras`
(legacy.py:361). -/
structure SetOrders where
  columns : List ColumnObj → List ColumnObj
  aliases : List (Str × Str) → List (Str × Str)
  aliasDict : List (Str × Str) → List (Str × Str)
  entities : List EntityObj → List EntityObj
  required : List ModelColumn → List ModelColumn
  ops : List Op → List Op
  flags : List Str → List Str

/-- `Join.validate` (snuba_sdk/relationships.py:84-97). -/
def checkJoinIn (σ : SetOrders) (rels : List RelObj) : Except Err Unit := do
  ensure (!rels.isEmpty) .invalidExpression
  checkSeen [] (σ.aliases (aliasMappings rels))

/-- `Join(relationships)` (snuba_sdk/relationships.py:50-97). -/
def mkJoinIn (σ : SetOrders) (relationships : Val) : Except Err Val :=
  match relationships.listOrTuple? with
  | none => .error .invalidExpression
  | some (k, xs) => do
    ensure (!xs.isEmpty) .invalidExpression
    let rs ← allRels xs
    checkJoinIn σ rs
    .ok (.join k rs)

/-- `match.validate()` for the match clause (snuba_sdk/query_visitors.py:313-314): only the method of `Join` loops
over a set (relationships.py:84-97). -/
def validateMatchClauseIn [PyUnicode] (σ : SetOrders) : Val → Except Err Unit
  | .join _ rels => checkJoinIn σ rels
  | m => m.validate

/-- `_validate_subquery` (snuba_sdk/query_validation.py:49-71). `inner_column_names` is only asked whether it
contains a name. -/
def validateSubqueryIn (σ : SetOrders) (inner : Body) (cols : List ColumnObj) : Except Err Unit :=
  validateSubquery inner (σ.columns cols)

/-- The body of the loop of `_validate_join` (snuba_sdk/query_validation.py:84-95), with the dictionary as a list
of entries, latest first. -/
def checkQualified (dict : List (Str × Str)) : List ColumnObj → Except Err Unit
  | [] => .ok ()
  | c :: cs =>
    match c.entity with
    | none => .error .invalidMatch
    | some e =>
      match e.alias.bind (fun a => dict.lookup a) with
      | none => .error .invalidMatch
      | some n => if n ≠ e.name then .error .invalidMatch else checkQualified dict cs

/-- `_validate_join` (snuba_sdk/query_validation.py:74-95). -/
def validateJoinIn (σ : SetOrders) (rels : List RelObj) (cols : List ColumnObj) : Except Err Unit :=
  checkQualified (σ.aliasDict (aliasMappings rels)).reverse (σ.columns cols)

/-- `_validate_storage` and `_validate_entity` (snuba_sdk/query_validation.py:98-123). -/
def validateModelIn (σ : SetOrders) (dm : Option DataModel) (cols : List ColumnObj) : Except Err Unit :=
  validateModel dm (σ.columns cols)

/-- `validate_match` (snuba_sdk/query_validation.py:28-46) for a query over a non-query match. -/
def validateMatchBaseIn (σ : SetOrders) (m : Val) (b : Body) : Except Err Unit := do
  let cols ← searchBody b
  match m with
  | .join _ rels => validateJoinIn σ rels cols
  | .storage s => validateModelIn σ s.dataModel cols
  | .entity e => validateModelIn σ e.dataModel cols
  | _ => .error .attributeError

/-- `Query.validate` (snuba_sdk/query.py:167-168, query_visitors.py:291-348). The clauses other than the match hold no
set. -/
def Query.validateIn [PyUnicode] (σ : SetOrders) : Query → Except Err Unit
  | .base m b => do
    validateMatchClauseIn σ m
    validateClauses b
    validateMatchBaseIn σ m b
    combineChecks b
  | .nested q b => do
    q.validateIn σ
    validateClauses b
    let cols ← searchBody b
    validateSubqueryIn σ q.body cols
    combineChecks b

/-- `Query.serialize` (snuba_sdk/query.py:170-176): only the validation loops over sets. -/
def Query.serializeIn [PyUnicode] [PyRepr] (σ : SetOrders) (q : Query) : Except Err Str := do
  q.validateIn σ
  let o ← q.optimize
  printQuery c!" " o

/-- The loop over the required columns (snuba_sdk/query_validation.py:153-164): the columns without a condition. -/
def missingRequired (top : List Val) (entityAlias : Option Str) : List ModelColumn → List ModelColumn
  | [] => []
  | r :: rs =>
    if matchingConditionExists [.eq, .in_] r.name top entityAlias then missingRequired top entityAlias rs
    else r :: missingRequired top entityAlias rs

/-- The loop over the operators of the time column (snuba_sdk/query_validation.py:175-181): the operators without a
condition. -/
def missingOps (top : List Val) (entityAlias : Option Str) (name : Str) : List Op → List Op
  | [] => []
  | o :: os =>
    if matchingConditionExists [o] name top entityAlias then missingOps top entityAlias name os
    else o :: missingOps top entityAlias name os

/-- `_check_entity_required_columns_in_conditions` (snuba_sdk/query_validation.py:130-189). -/
def checkEntityRequiredIn (σ : SetOrders) (e : EntityObj) (where_ : Val) : Except Err Unit :=
  match e.dataModel with
  | none => .ok ()
  | some dm => do
    ensure where_.truthy .requiredColumn
    let xs ← where_.iter
    let top := firstLevelAnd xs
    ensure (missingRequired top e.alias (σ.required dm.required)).isEmpty .requiredColumn
    ensure (missingOps top e.alias dm.timeColumn.name (σ.ops [.gte, .lt])).isEmpty .requiredColumn

/-- The loop over the joined entities (snuba_sdk/query_validation.py:228-229). -/
def checkEntitiesRequiredIn (σ : SetOrders) : List EntityObj → Val → Except Err Unit
  | [], _ => .ok ()
  | e :: es, w => do
    checkEntityRequiredIn σ e w
    checkEntitiesRequiredIn σ es w

/-- `validate_required_columns` (snuba_sdk/query_validation.py:211-229). -/
def validateRequiredColumnsIn (σ : SetOrders) : Query → Except Err Unit
  | .nested q _ => validateRequiredColumnsIn σ q
  | .base (.entity e) b => checkEntityRequiredIn σ e b.where_
  | .base (.join _ rels) b => checkEntitiesRequiredIn σ (σ.entities (joinEntities rels)) b.where_
  | .base _ _ => .ok ()

/-- `{extra: body.get(extra) for extra in extras if body.get(extra)}` (snuba_sdk/legacy.py:355-361), the entries in
the order of their insertion. -/
def foundFlags (body : LegacyBody) : List Str → List (Str × Val)
  | [] => []
  | k :: ks => if (body.get k).truthy then (k, body.get k) :: foundFlags body ks else foundFlags body ks

/-- `Flags(**found)` after `found["legacy"] = True` (snuba_sdk/legacy.py:355-363); a field that is not named keeps its
default `None` (request.py:23-28). -/
def legacyFlagsIn (σ : SetOrders) (body : LegacyBody) : FlagsObj :=
  let found := foundFlags body (σ.flags [c!"consistent", c!"turbo", c!"debug", c!"dry_run"])
  { consistent := (found.lookup c!"consistent").getD .none, turbo := (found.lookup c!"turbo").getD .none,
    debug := (found.lookup c!"debug").getD .none, dryRun := (found.lookup c!"dry_run").getD .none, legacy := .bool true }

end Verif
