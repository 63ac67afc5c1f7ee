import Verif.Model.Relationships

/-!
# `Expression.validate` of constructed objects

`obj.validate()` for every class, as called again by the query validator
(snuba_sdk/query_visitors.py:311-348).
-/

namespace Verif

variable [U : PyUnicode]

/-- `Entity.validate` on an entity object (snuba_sdk/entity.py:22-39); field types hold by
construction. -/
def EntityObj.validate (e : EntityObj) : Except Err Unit := do
  ensure (entityNameRe.matches e.name) .invalidEntity
  ensure (match e.sample with | some f => !f.leZero | none => true) .invalidEntity
  ensure (match e.alias with | some a => !a.isEmpty | none => true) .invalidEntity

/-- `Storage.validate` on a storage object (snuba_sdk/storage.py:21-33). -/
def StorageObj.validate (s : StorageObj) : Except Err Unit := do
  ensure (entityNameRe.matches s.name) .invalidStorage
  ensure (match s.sample with | some f => !f.leZero | none => true) .invalidStorage

/-- The alias check on an alias that is `None` or a string
(snuba_sdk/function.py:74-82, aliased_expression.py:32-40). -/
def checkAliasStr (a : Option Str) (e : Err) : Except Err Unit :=
  match a with
  | none => .ok ()
  | some s => ensure (!s.isEmpty && ALIAS_RE.matches s) e

/-- `v.validate()` (dispatch on the class). Values that are not expressions have no such
attribute. Each branch cites its class:
column.py:41-65, function.py:49-97, 129-131, 139-146, aliased_expression.py:26-40,
conditions.py:78-99, 112-131, orderby.py:20-26, 50-55, expressions.py:94-95, 102-103, 110-111, 118-120,
127-129, relationships.py:34-47, 84-97. -/
def Val.validate : Val → Except Err Unit
  | .column c => do
    let _ ← c.validate
    .ok ()
  | .curried _ n _ inits _ params alias => do
    checkFunctionName n
    checkInits inits
    checkAliasStr alias .invalidFunction
    checkParams params
  | .ident n => ensure (identifierRe.matches n) .invalidLambda
  | .lam _ ids body => do
    ensure (ids.all fun i => identifierRe.matches i) .invalidLambda
    ensure body.isCurried .invalidLambda
  | .aliased _ a => checkAliasStr a .invalidExpression
  | .cond l o r => do
    let _ ← checkCondition l (.op o) r
    .ok ()
  | .boolCond _ _ _ cs => checkConditionItems cs
  | .orderby e _ => ensure e.isColOrFn .invalidExpression
  | .limitby _ cs n => do
    ensure (decide (1 ≤ cs.length)) .invalidExpression
    ensure (!(decide (n.toInt ≤ 0) || decide (n.toInt > 10000))) .invalidExpression
  | .limit n => ensure (!(decide (n.toInt < 1)) && !(decide (n.toInt > 10000))) .invalidExpression
  | .offset n => ensure (!(decide (n.toInt < 0))) .invalidExpression
  | .granularity n => ensure (!(decide (n.toInt < 1))) .invalidExpression
  | .totals _ => .ok ()
  | .extrapolate _ => .ok ()
  | .entity e => e.validate
  | .storage s => s.validate
  | .rel r => do
    ensure (r.lhs.alias.isSome) .invalidExpression
    ensure (r.rhs.alias.isSome) .invalidExpression
    ensure (!r.name.isEmpty) .invalidExpression
  | .join _ rels => checkJoin rels
  | _ => .error .attributeError

end Verif
