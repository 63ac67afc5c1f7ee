import Verif.Model.Function

/-!
# snuba_sdk/conditions.py
-/

namespace Verif

/-- The operator check of `Condition.validate` (snuba_sdk/conditions.py:83-86). -/
def asOp (op : Val) : Except Err Op :=
  match op with
  | .op o => .ok o
  | _ => .error .invalidCondition

/-- The unary operator check of `Condition.validate` (snuba_sdk/conditions.py:88-92). -/
def checkUnary (o : Op) (rhs : Val) : Except Err Unit :=
  if isUnary o then
    match rhs with
    | .none => .ok ()
    | _ => .error .invalidCondition
  else .ok ()

/-- The right-hand side check of `Condition.validate` (snuba_sdk/conditions.py:94-99). -/
def checkRhs (rhs : Val) : Except Err Unit :=
  if rhs.isColOrFn then .ok ()
  else do
    let b ← isScalar rhs
    if b then .ok () else .error .invalidCondition

/-- `Condition.validate` (snuba_sdk/conditions.py:78-99) on the raw fields; returns the `Op`. -/
def checkCondition (lhs op rhs : Val) : Except Err Op := do
  ensure lhs.isColOrFn .invalidCondition
  let o ← asOp op
  checkUnary o rhs
  checkRhs rhs
  .ok o

/-- `Condition(lhs, op, rhs)` (snuba_sdk/conditions.py:72-99). -/
def mkCondition (lhs op rhs : Val) : Except Err Val := do
  let o ← checkCondition lhs op rhs
  .ok (.cond lhs o rhs)

/-- The checks on `conditions` in `BooleanCondition.validate`
(snuba_sdk/conditions.py:122-131). -/
def checkConditionItems (cs : List Val) : Except Err Unit := do
  ensure (decide (2 ≤ cs.length)) .invalidCondition
  ensure (cs.all Val.isCondition) .invalidCondition

/-- `BooleanCondition.validate` for a given class and operator
(snuba_sdk/conditions.py:112-131). -/
def mkBool (cls : BoolCls) (op : BooleanOp) (conditions : Val) : Except Err Val :=
  match conditions.listOrTuple? with
  | none => .error .invalidCondition
  | some (k, cs) => do
    checkConditionItems cs
    .ok (.boolCond cls op k cs)

/-- `BooleanCondition(op, conditions)` (snuba_sdk/conditions.py:107-131). -/
def mkBooleanCondition (op conditions : Val) : Except Err Val :=
  match op with
  | .boolOp o => mkBool .base o conditions
  | _ => .error .invalidCondition

/-- `And(conditions)` (snuba_sdk/conditions.py:134-137). -/
def mkAnd (conditions : Val) : Except Err Val := mkBool .and .and conditions

/-- `Or(conditions)` (snuba_sdk/conditions.py:140-143). -/
def mkOr (conditions : Val) : Except Err Val := mkBool .or .or conditions

mutual
/-- One iteration of `get_first_level_and_conditions` (snuba_sdk/conditions.py:151-156): an `And`
instance is replaced by its flattened conditions. -/
def flattenAnd : Val → List Val
  | .boolCond .and _ _ cs => firstLevelAnd cs
  | c => [c]

/-- `get_first_level_and_conditions` (snuba_sdk/conditions.py:149-158). -/
def firstLevelAnd : List Val → List Val
  | [] => []
  | c :: cs => flattenAnd c ++ firstLevelAnd cs
end

end Verif
