import Verif.Model.OrderBy

/-!
# snuba_sdk/relationships.py
-/

namespace Verif

/-- `valid_entity` inside `Relationship.validate` (snuba_sdk/relationships.py:35-39). -/
def validEntity (v : Val) : Except Err EntityObj :=
  match v with
  | .entity e => match e.alias with
    | some _ => .ok e
    | none => .error .invalidExpression
  | _ => .error .invalidExpression

/-- `Relationship(lhs, name, rhs)` (snuba_sdk/relationships.py:10-47). -/
def mkRelationship (lhs name rhs : Val) : Except Err Val := do
  let l ← validEntity lhs
  let r ← validEntity rhs
  let s ← asStr name .invalidExpression
  ensure (!s.isEmpty) .invalidExpression
  .ok (.rel ⟨l, s, r⟩)

/-- `all(isinstance(x, Relationship) for x in …)` (snuba_sdk/relationships.py:87). -/
def allRels : List Val → Except Err (List RelObj)
  | [] => .ok []
  | v :: vs => match v with
    | .rel r => do
      let rs ← allRels vs
      .ok (r :: rs)
    | _ => .error .invalidExpression

/-- The `(alias, name)` entry of one entity (snuba_sdk/relationships.py:70-73). -/
def EntityObj.mapping (e : EntityObj) : List (Str × Str) :=
  match e.alias with
  | some a => [(a, e.name)]
  | none => []

/-- `Join.get_alias_mappings` (snuba_sdk/relationships.py:67-75). The set is a list; the iteration order
of the set is arbitrary in Python; `Model/SetOrder.lean` has the loops over it in any order (C82). -/
def aliasMappings (rels : List RelObj) : List (Str × Str) :=
  rels.flatMap fun r => r.lhs.mapping ++ r.rhs.mapping

/-- The loop of `Join.validate` over the alias mappings (snuba_sdk/relationships.py:90-97); `seen` is the
dictionary, latest entry first. -/
def checkSeen : List (Str × Str) → List (Str × Str) → Except Err Unit
  | _, [] => .ok ()
  | seen, (a, n) :: rest =>
    match seen.lookup a with
    | some m => if m ≠ n then .error .invalidExpression else checkSeen ((a, n) :: seen) rest
    | none => checkSeen ((a, n) :: seen) rest

/-- `Join.validate` on a list of relationship objects (snuba_sdk/relationships.py:84-97). -/
def checkJoin (rels : List RelObj) : Except Err Unit := do
  ensure (!rels.isEmpty) .invalidExpression
  checkSeen [] (aliasMappings rels)

/-- `Join(relationships)` (snuba_sdk/relationships.py:50-97). -/
def mkJoin (relationships : Val) : Except Err Val :=
  match relationships.listOrTuple? with
  | none => .error .invalidExpression
  | some (k, xs) => do
    ensure (!xs.isEmpty) .invalidExpression
    let rs ← allRels xs
    checkJoin rs
    .ok (.join k rs)

/-- `Join.get_entities` (snuba_sdk/relationships.py:77-82) as a list. -/
def joinEntities (rels : List RelObj) : List EntityObj := rels.flatMap fun r => [r.lhs, r.rhs]

end Verif
