import Verif.Model.Query

/-!
# `Printer` (snuba_sdk/query_visitors.py:133-224) and `Query.serialize` / `Query.print`
-/

namespace Verif

variable [U : PyUnicode]

omit U in
/-- `f"KEYWORD {sep.join(visit(x) for x in v)}"` if `v` is truthy, else `""`
(snuba_sdk/query_visitors.py:167-199). -/
def listClause (cfg : Cfg) (keyword sep : Str) (v : Val) : Except Err Str :=
  if v.truthy then do
    let xs ← v.iter
    let ps ← translateAll cfg xs
    .ok (keyword ++ [' '] ++ joinWith sep ps)
  else .ok []

omit U in
/-- `f"KEYWORD {visit(x)}"` if `x` is not `None`, else `""` (snuba_sdk/query_visitors.py:201-224). -/
def optClause (cfg : Cfg) (keyword : Str) (v : Val) : Except Err Str :=
  match v with
  | .none => .ok []
  | v => do
    let t ← translate cfg v
    .ok (keyword ++ [' '] ++ t)

omit U in
/-- The clause texts after `MATCH`, in field order (snuba_sdk/query_visitors.py:167-224; the order is that
of the dataclass fields, query.py:65-77). -/
def bodyClauses (cfg : Cfg) (b : Body) : Except Err (List Str) := do
  let c1 ← listClause cfg c!"SELECT" c!", " b.select
  let c2 ← listClause cfg c!"BY" c!", " b.groupby
  let c3 ← listClause cfg c!"ARRAY JOIN" c!", " b.arrayJoin
  let c4 ← listClause cfg c!"WHERE" c!" AND " b.where_
  let c5 ← listClause cfg c!"HAVING" c!" AND " b.having
  let c6 ← listClause cfg c!"ORDER BY" c!", " b.orderby
  let c7 ← optClause cfg c!"LIMIT" b.limitby
  let c8 ← optClause cfg c!"LIMIT" b.limit
  let c9 ← optClause cfg c!"OFFSET" b.offset
  let c10 ← optClause cfg c!"GRANULARITY" b.granularity
  let c11 ← optClause cfg c!"TOTALS" b.totals
  .ok [c1, c2, c3, c4, c5, c6, c7, c8, c9, c10, c11]

omit U in
/-- `Printer._combine` (snuba_sdk/query_visitors.py:146-155). -/
def combineClauses (sep : Str) (cs : List Str) : Str := joinWith sep (cs.filter fun c => !c.isEmpty)

omit U in
/-- `isinstance(query.match, Join)` (snuba_sdk/query_visitors.py:140). -/
def Val.isJoin : Val → Bool
  | .join .. => true
  | _ => false

omit U in
/-- `Printer.visit` (snuba_sdk/query_visitors.py:139-165) of a freshly created printer: the entity
alias flag of its translator is on exactly while a join query is printed. `sep` is the separator of
this level; subqueries are printed by a new printer on one line (lines 161-165). The version
with the flag as explicit state is `visitSt` below. -/
def printQuery (sep : Str) : Query → Except Err Str
  | .base m b => do
    let cfg : Cfg := ⟨m.isJoin, false⟩
    let t ← translate cfg m
    let cs ← bodyClauses cfg b
    .ok (combineClauses sep ((c!"MATCH " ++ t) :: cs))
  | .nested q b => do
    let t ← printQuery c!" " q
    let cs ← bodyClauses ⟨false, false⟩ b
    .ok (combineClauses sep ((c!"MATCH { " ++ t ++ c!" }") :: cs))

omit U in
/-- A `Printer` object's `visit` with its mutable flag `translator.use_entity_aliases` as explicit
state (snuba_sdk/query_visitors.py:134-165, visitors.py:331-335): `entity_aliases` sets the flag, and resets it
only if the body did not raise (there is no `try/finally`). Returns the result and the flag afterwards.
The subquery is printed by a new `Printer` whose flag starts as `False`. -/
def visitSt (sep : Str) (flag : Bool) : Query → Except Err Str × Bool
  | .base m b =>
    let flag1 := if m.isJoin then true else flag
    let r : Except Err Str := do
      let t ← translate ⟨flag1, false⟩ m
      let cs ← bodyClauses ⟨flag1, false⟩ b
      .ok (combineClauses sep ((c!"MATCH " ++ t) :: cs))
    match r with
    | .ok s => (.ok s, if m.isJoin then false else flag1)
    | .error e => (.error e, flag1)
  | .nested q b =>
    let inner := (visitSt c!" " false q).1
    let r : Except Err Str := do
      let t ← inner
      let cs ← bodyClauses ⟨flag, false⟩ b
      .ok (combineClauses sep ((c!"MATCH { " ++ t ++ c!" }") :: cs))
    (r, flag)

/-- `Query._optimize` (snuba_sdk/query.py:182-187); `replace` re-runs `__post_init__`. -/
def Query.optimize (q : Query) : Except Err Query :=
  match q.body.where_ with
  | .none => .ok q
  | w => do
    let xs ← w.iter
    let o ← Verif.optimize xs
    match o with
    | some new => q.withBody { q.body with where_ := .list new }
    | none => .ok q

/-- `Query.serialize` = `Query.__str__` (snuba_sdk/query.py:170-176). -/
def Query.serialize (q : Query) : Except Err Str := do
  q.validate
  let o ← q.optimize
  printQuery c!" " o

/-- `Query.print` (snuba_sdk/query.py:178-180): not optimised, clauses on separate lines. -/
def Query.print (q : Query) : Except Err Str := do
  q.validate
  printQuery c!"\n" q

end Verif
