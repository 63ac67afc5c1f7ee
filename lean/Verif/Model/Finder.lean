import Verif.Model.Translate

/-!
# `ExpressionFinder` (snuba_sdk/visitors.py:338-443) for columns

The only use of the finder in the SDK is with `exp_type = Column`
(snuba_sdk/query_visitors.py:294). The resulting set is a list.
-/

namespace Verif

mutual
/-- `ExpressionFinder(Column).visit` (dispatch: snuba_sdk/visitors.py:32-70). Branch citations: aliased 342-346,
column 348-351, function 353-368, identifier 370-374, lambda 376-383, literals 385-386,
entity/storage/relationship/join 388-412 (none of them is a `Column`), condition 414-419,
boolean 421-425, order by 427-431, limit by 433-437, totals and scalars 439-443. -/
def findColumns : Val → Except Err (List ColumnObj)
  | .aliased c _ => .ok [c]
  | .column c => .ok [c]
  | .curried _ _ _ inits _ params _ => do
    let a ← findInExprs inits
    let b ← findInExprs params
    .ok (a ++ b)
  | .ident _ => .ok []
  | .lam _ _ body => findColumns body
  | .entity _ => .ok []
  | .storage _ => .ok []
  | .rel _ => .ok []
  | .join _ _ => .ok []
  | .cond l o r => do
    let a ← findColumns l
    if !isUnary o && r.isExpression then do
      let b ← findColumns r
      .ok (a ++ b)
    else .ok a
  | .boolCond _ _ _ cs => findInAll cs
  | .orderby e _ => findColumns e
  | .limit _ => .ok []
  | .offset _ => .ok []
  | .limitby _ cols _ => .ok cols
  | .granularity _ => .ok []
  | .totals _ => .ok []
  | .none => .ok []
  | .bool _ => .ok []
  | .int _ => .ok []
  | .float _ => .ok []
  | .str _ => .ok []
  | .bytes _ => .ok []
  | .date _ => .ok []
  | .datetime _ => .ok []
  | .list xs => do
    let _ ← allScalar xs
    .ok []
  | .tuple xs => do
    let _ ← allScalar xs
    .ok []
  | .extrapolate _ => .error .assertion
  | .op _ => .error .assertion
  | .boolOp _ => .error .assertion
  | .direction _ => .error .assertion
  | .dataModel _ => .error .assertion
  | .other _ => .error .assertion

/-- The loops over initializers and parameters (snuba_sdk/visitors.py:358-366): only expressions are
visited. -/
def findInExprs : List Val → Except Err (List ColumnObj)
  | [] => .ok []
  | v :: vs =>
    if v.isExpression then do
      let a ← findColumns v
      let b ← findInExprs vs
      .ok (a ++ b)
    else findInExprs vs

/-- The loop over conditions (snuba_sdk/visitors.py:423-424) and over the terms of a clause
(query_visitors.py:246-248). -/
def findInAll : List Val → Except Err (List ColumnObj)
  | [] => .ok []
  | v :: vs => do
    let a ← findColumns v
    let b ← findInAll vs
    .ok (a ++ b)
end

end Verif
