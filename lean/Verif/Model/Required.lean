import Verif.Model.Printer

/-!
# `validate_required_columns` (snuba_sdk/query_validation.py:126-229)
-/

namespace Verif

/-- The test inside `_matching_condition_exists` (snuba_sdk/query_validation.py:199-205). -/
def matchesRequired (ops : List Op) (name : Str) (entityAlias : Option Str) : Val → Bool
  | .cond (.column c) o _ =>
    (match c.entity with
      | none => true
      | some e => e.alias == entityAlias) && c.name == name && ops.contains o
  | _ => false

/-- `_matching_condition_exists` (snuba_sdk/query_validation.py:192-208). -/
def matchingConditionExists (ops : List Op) (name : Str) (conds : List Val)
    (entityAlias : Option Str) : Bool :=
  conds.any (matchesRequired ops name entityAlias)

/-- `_check_entity_required_columns_in_conditions` (snuba_sdk/query_validation.py:130-189). `not conditions` is
the falsiness of the where clause. -/
def checkEntityRequired (e : EntityObj) (where_ : Val) : Except Err Unit :=
  match e.dataModel with
  | none => .ok ()
  | some dm => do
    ensure where_.truthy .requiredColumn
    let xs ← where_.iter
    let top := firstLevelAnd xs
    ensure (dm.required.all fun r => matchingConditionExists [.eq, .in_] r.name top e.alias)
      .requiredColumn
    ensure ([Op.gte, Op.lt].all fun o => matchingConditionExists [o] dm.timeColumn.name top e.alias)
      .requiredColumn

/-- The loop over the joined entities (snuba_sdk/query_validation.py:228-229); the set is visited in
some order, which does not matter (C82). -/
def checkEntitiesRequired : List EntityObj → Val → Except Err Unit
  | [], _ => .ok ()
  | e :: es, w => do
    checkEntityRequired e w
    checkEntitiesRequired es w

/-- `validate_required_columns` (snuba_sdk/query_validation.py:211-229). -/
def validateRequiredColumns : Query → Except Err Unit
  | .nested q _ => validateRequiredColumns q
  | .base (.entity e) b => checkEntityRequired e b.where_
  | .base (.join _ rels) b => checkEntitiesRequired (joinEntities rels) b.where_
  | .base _ _ => .ok ()

end Verif
