import Verif.Model.Finder
import Verif.Model.Hash
import Verif.Model.Function

/-!
# `ExpressionFinder` (snuba_sdk/visitors.py:338-443) for an arbitrary class

`Model/Finder.lean` has the finder for columns, which is the one the SDK uses. Here is the finder for any class of the SDK. A set is the list of
what is put into it; what is put into it is hashed. Simplification: of several equal objects Python keeps one, here all of them are listed.
-/

namespace Verif

/-- A class that can be given to `ExpressionFinder` as `exp_type` (snuba_sdk/visitors.py:339-340). Simplification: classes of the SDK only, and
no tuples of classes. `function` is `Function`, `curried` its base class `CurriedFunction`; `expression` is the base class of all. -/
inductive FindClass
  | expression | column | aliased | curried | function | identifier | lambda | entity | storage | relationship | join | condition | boolean
  | orderby | limitby
  deriving DecidableEq, Repr

/-- `isinstance(node, self.exp_type)` (e.g. snuba_sdk/visitors.py:343). -/
def FindClass.has : FindClass → Val → Bool
  | .expression, v => v.isExpression
  | .column, .column _ => true
  | .aliased, .aliased .. => true
  | .curried, .curried .. => true
  | .function, .curried f .. => f
  | .identifier, .ident _ => true
  | .lambda, .lam .. => true
  | .entity, .entity _ => true
  | .storage, .storage _ => true
  | .relationship, .rel _ => true
  | .join, .join .. => true
  | .condition, .cond .. => true
  | .boolean, .boolCond .. => true
  | .orderby, .orderby .. => true
  | .limitby, .limitby .. => true
  | _, _ => false

/-- `set(xs)`: the items are hashed in turn; equal ones are not dropped, which is a simplification (snuba_sdk/visitors.py:344, 350, 355, 372, 378, 381, 390, 395, 400, 402, 408, 410, 429, 435). -/
def putIntoSet : List Val → Except Err (List Val)
  | [] => .ok []
  | v :: vs => do
    let _ ← hashTree v
    let xs ← putIntoSet vs
    .ok (v :: xs)

/-- `[Identifier(i) for i in lambda_fn.identifiers]` (snuba_sdk/visitors.py:381). -/
def identifiersOf : List Str → Except Err (List Val)
  | [] => .ok []
  | i :: is => do
    let x ← mkIdentifier (.str i)
    let xs ← identifiersOf is
    .ok (x :: xs)

/-- `_visit_column` (snuba_sdk/visitors.py:348-351). -/
def findColumn (t : FindClass) (c : ColumnObj) : Except Err (List Val) := if t.has (.column c) then putIntoSet [.column c] else .ok []

/-- `set.union(*[self.visit(column) for column in limitby.columns])` (snuba_sdk/visitors.py:437): without columns there is nothing to call
`set.union` on. -/
def findInColumns (t : FindClass) : List ColumnObj → Except Err (List Val)
  | [] => .error .typeError
  | [c] => findColumn t c
  | c :: cs => do
    let a ← findColumn t c
    let b ← findInColumns t cs
    .ok (a ++ b)

mutual
/-- `ExpressionFinder(t).visit` (dispatch: snuba_sdk/visitors.py:32-70). Branches: aliased 342-346, column 348-351, function 353-368, identifier
370-374, lambda 376-383, literals 385-386, entity 388-391, storage 393-396, relationship 398-404, join 406-412, condition 414-419, boolean
421-425, order by 427-431, limit by 433-437, totals and scalars 439-443. -/
def find (t : FindClass) : Val → Except Err (List Val)
  | .aliased c a => if t.has (.aliased c a) then putIntoSet [.aliased c a] else findColumn t c
  | .column c => findColumn t c
  | .curried f n ik is pk ps a =>
    if t.has (.curried f n ik is pk ps a) then putIntoSet [.curried f n ik is pk ps a]
    else do
      let xs ← findExprs t is
      let ys ← findExprs t ps
      .ok (xs ++ ys)
  | .ident n => if t.has (.ident n) then putIntoSet [.ident n] else .ok []
  | .lam k ids b =>
    if t.has (.lam k ids b) then putIntoSet [.lam k ids b]
    else if t = .identifier then do
      let xs ← identifiersOf ids
      putIntoSet xs
    else find t b
  | .entity e => if t.has (.entity e) then putIntoSet [.entity e] else .ok []
  | .storage s => if t.has (.storage s) then putIntoSet [.storage s] else .ok []
  | .rel r =>
    if t.has (.rel r) then putIntoSet [.rel r]
    else if t.has (.entity r.lhs) then putIntoSet [.entity r.lhs, .entity r.rhs]
    else .ok []
  | .join k rs =>
    if t.has (.join k rs) then putIntoSet [.join k rs]
    else match rs with
      | [] => .error .indexError
      | r :: rs => if t.has (.rel r) then putIntoSet ((r :: rs).map .rel) else .ok []
  | .cond l o r => do
    let a ← find t l
    if !isUnary o && r.isExpression then do
      let b ← find t r
      .ok (a ++ b)
    else .ok a
  | .boolCond _ _ _ cs => findAll t cs
  | .orderby e d => if t.has (.orderby e d) then putIntoSet [.orderby e d] else find t e
  | .limitby k cs n => if t.has (.limitby k cs n) then putIntoSet [.limitby k cs n] else findInColumns t cs
  | .limit _ | .offset _ | .granularity _ | .totals _ | .none | .bool _ | .int _ | .float _ | .str _ | .bytes _ | .date _ | .datetime _ => .ok []
  | .list xs => do
    let _ ← allScalar xs
    .ok []
  | .tuple xs => do
    let _ ← allScalar xs
    .ok []
  | .extrapolate _ | .op _ | .boolOp _ | .direction _ | .dataModel _ | .other _ => .error .assertion

/-- The loops over initializers and parameters (snuba_sdk/visitors.py:358-366): only expressions are visited. -/
def findExprs (t : FindClass) : List Val → Except Err (List Val)
  | [] => .ok []
  | v :: vs =>
    if v.isExpression then do
      let a ← find t v
      let b ← findExprs t vs
      .ok (a ++ b)
    else findExprs t vs

/-- The loop over conditions (snuba_sdk/visitors.py:423-424). -/
def findAll (t : FindClass) : List Val → Except Err (List Val)
  | [] => .ok []
  | v :: vs => do
    let a ← find t v
    let b ← findAll t vs
    .ok (a ++ b)
end

end Verif
