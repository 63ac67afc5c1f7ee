import Verif.Model.Validate
import Verif.Py.Utf8

/-!
# `Translation` (snuba_sdk/visitors.py:137-328)
-/

namespace Verif

/-- The two attributes of a `Translation` object (snuba_sdk/visitors.py:138-140). -/
structure Cfg where
  useAliases : Bool
  isMql : Bool
  deriving DecidableEq, Repr

/-- `Translation()` (snuba_sdk/visitors.py:138). -/
def Cfg.snql : Cfg := ⟨false, false⟩

/-- `Translation(is_mql=True)`. -/
def Cfg.mql : Cfg := ⟨false, true⟩

/-- `quote_char` (snuba_sdk/visitors.py:156). -/
def Cfg.quote (cfg : Cfg) : Char := if cfg.isMql then '"' else '\''

/-- The three `replace` calls (snuba_sdk/visitors.py:157-161). -/
def escapeStr (q : Char) (s : Str) : Str :=
  replaceChar '\n' ['\\', 'n'] (replaceChar q ['\\', q] (replaceChar '\\' ['\\', '\\'] s))

/-- The string branch of `_stringify_scalar` (snuba_sdk/visitors.py:153-163). -/
def strLit (cfg : Cfg) (s : Str) : Str := [cfg.quote] ++ escapeStr cfg.quote s ++ [cfg.quote]

/-- `f"toDateTime('{…}')"` (snuba_sdk/visitors.py:173, 175). -/
def toDateTimeLit (iso : Str) : Str := c!"toDateTime('" ++ iso ++ c!"')"

/-- Opening of an array literal (snuba_sdk/visitors.py:180). -/
def arrayOpen (cfg : Cfg) : Str := if cfg.isMql then c!"[" else c!"array("

/-- Opening of a tuple literal (snuba_sdk/visitors.py:185). -/
def tupleOpen (cfg : Cfg) : Str := if cfg.isMql then c!"[" else c!"tuple("

/-- Closing of an array or tuple literal (snuba_sdk/visitors.py:181, 186). -/
def seqClose (cfg : Cfg) : Str := if cfg.isMql then c!"]" else c!")"

/-- `f"{x}"` of an optional string (Python built-in). -/
def optStr : Option Str → Str
  | none => c!"None"
  | some s => s

/-- `f"{b}"` of a bool (Python built-in; snuba_sdk/visitors.py:325). -/
def boolStr (b : Bool) : Str := if b then c!"True" else c!"False"

/-- `f"{n}"` of an int-like value (snuba_sdk/visitors.py:322): a bool prints as `True`/`False`. -/
def PyInt.str : PyInt → Str
  | .int i => intStr i
  | .bool b => boolStr b

/-- ``f" AS `{alias}`"`` or nothing (snuba_sdk/visitors.py:192-194, 206). -/
def aliasClause : Option Str → Str
  | none => []
  | some a => c!" AS `" ++ a ++ c!"`"

/-- `_visit_column` (snuba_sdk/visitors.py:198-203). -/
def colStr (cfg : Cfg) (c : ColumnObj) : Str :=
  match c.entity with
  | some e => if cfg.useAliases then optStr e.alias ++ ['.'] ++ c.name else c.name
  | none => c.name

/-- The sample clause of `_visit_entity` and `_visit_storage`
(snuba_sdk/visitors.py:248-253, 257-262). -/
def sampleClause : Option PyFloat → Str
  | none => []
  | some f => if f.isIntegral then c!" SAMPLE " ++ f.fixed 1 else c!" SAMPLE " ++ f.fixed 6

/-- `_visit_entity` (snuba_sdk/visitors.py:243-254). -/
def entityStr (cfg : Cfg) (e : EntityObj) : Str :=
  ['('] ++ (match e.alias with
    | some a => if cfg.useAliases then a ++ c!": " else []
    | none => []) ++ e.name ++ sampleClause e.sample ++ [')']

/-- `_visit_storage` (snuba_sdk/visitors.py:256-263). -/
def storageStr (s : StorageObj) : Str := c!"STORAGE(" ++ s.name ++ sampleClause s.sample ++ [')']

/-- `_visit_relationship` (snuba_sdk/visitors.py:265-266). -/
def relStr (cfg : Cfg) (r : RelObj) : Str :=
  entityStr cfg r.lhs ++ c!" -[" ++ r.name ++ c!"]-> " ++ entityStr cfg r.rhs

/-- `_visit_join` (snuba_sdk/visitors.py:268-269). -/
def joinStr (cfg : Cfg) (rels : List RelObj) : Str := joinWith c!", " (rels.map (relStr cfg))

/-- `f"({', '.join(parts)})"`, or nothing if the sequence is `None`
(snuba_sdk/visitors.py:207-216, 218-229). -/
def parenClause (k : SeqKind) (parts : List Str) : Str :=
  if k = .absent then [] else ['('] ++ joinWith c!", " parts ++ [')']

/-- The test of the parameter loop (snuba_sdk/visitors.py:221-227). -/
def usesParam (v : Val) : Except Err Bool := if v.isParamExpr then .ok true else isScalar v

/-- The right-hand side of `_visit_condition` (snuba_sdk/visitors.py:272-278); `t` is the
translation of the right-hand side. -/
def rhsText (o : Op) (r : Val) (t : Except Err Str) : Except Err Str :=
  if isUnary o then .ok []
  else if r.isColOrFn then do
    let t ← t
    .ok (' ' :: t)
  else do
    let b ← isScalar r
    if b then do
      let t ← t
      .ok (' ' :: t)
    else .error .assertion

mutual
/-- `Translation.visit` (snuba_sdk/visitors.py:32-70) and `_stringify_scalar` (lines 142-189) in one
function: `visit` sends scalars to `_stringify_scalar`, which sends expressions back to `visit`;
the elements that reach `_stringify_scalar` have passed `is_scalar`, so its final `raise`
(line 189) is unreachable. Branch citations: aliased 191-196, column 198-203, function 205-231,
identifier 233-234, lambda 236-238, int literals 240-241, condition 271-281, boolean 313-316, order by 318-319,
limit by 321-322, totals 324-325. -/
def translate (cfg : Cfg) : Val → Except Err Str
  | .none => .ok c!"NULL"
  | .bool b => .ok (if b then c!"TRUE" else c!"FALSE")
  | .int i => .ok (intStr i)
  | .float f => .ok f.repr
  | .str s => .ok (strLit cfg s)
  | .bytes bs => match utf8Decode bs with
    | some s => .ok (strLit cfg s)
    | none => .error .unicodeDecodeError
  | .datetime d => do
    let u ← d.toNaiveUtc
    .ok (toDateTimeLit u.iso)
  | .date d => .ok (toDateTimeLit d.iso)
  | .list xs => do
    let _ ← allScalar xs
    let ps ← translateAll cfg xs
    .ok (arrayOpen cfg ++ joinWith c!", " ps ++ seqClose cfg)
  | .tuple xs => do
    let _ ← allScalar xs
    let ps ← translateAll cfg xs
    .ok (tupleOpen cfg ++ joinWith c!", " ps ++ seqClose cfg)
  | .aliased c a => .ok (colStr cfg c ++ aliasClause a)
  | .column c => .ok (colStr cfg c)
  | .curried _ n ik inits pk params alias => do
    let i ← translateInits cfg inits
    let p ← translateParams cfg params
    .ok (n ++ parenClause ik i ++ parenClause pk p ++ aliasClause alias)
  | .ident n => .ok (['`'] ++ n ++ ['`'])
  | .lam _ ids body => do
    let b ← translate cfg body
    .ok (['('] ++ joinWith c!", " (ids.map fun i => ['`'] ++ i ++ ['`']) ++ c!") -> " ++ b)
  | .entity e => .ok (entityStr cfg e)
  | .storage s => .ok (storageStr s)
  | .rel r => .ok (relStr cfg r)
  | .join _ rels => .ok (joinStr cfg rels)
  | .cond l o r => do
    let rs ← rhsText o r (translate cfg r)
    let ls ← translate cfg l
    .ok (ls ++ [' '] ++ o.value ++ rs)
  | .boolCond _ op _ cs => do
    let ps ← translateAll cfg cs
    .ok (['('] ++ joinWith ([' '] ++ op.value ++ [' ']) ps ++ [')'])
  | .orderby e d => do
    let t ← translate cfg e
    .ok (t ++ [' '] ++ d.value)
  | .limitby _ cols n => .ok (n.str ++ c!" BY " ++ joinWith c!"," (cols.map (colStr cfg)))
  | .limit n => .ok (intStr n.toInt)
  | .offset n => .ok (intStr n.toInt)
  | .granularity n => .ok (intStr n.toInt)
  | .totals b => .ok (boolStr b)
  | .extrapolate _ => .error .assertion
  | .op _ => .error .assertion
  | .boolOp _ => .error .assertion
  | .direction _ => .error .assertion
  | .dataModel _ => .error .assertion
  | .other _ => .error .assertion

/-- `[self.visit(c) for c in …]` / `[self._stringify_scalar(v) for v in value]`
(snuba_sdk/visitors.py:182, 187, 314). -/
def translateAll (cfg : Cfg) : List Val → Except Err (List Str)
  | [] => .ok []
  | v :: vs => do
    let t ← translate cfg v
    let ts ← translateAll cfg vs
    .ok (t :: ts)

/-- The initializer loop (snuba_sdk/visitors.py:209-214); other values are skipped silently. -/
def translateInits (cfg : Cfg) : List Val → Except Err (List Str)
  | [] => .ok []
  | v :: vs =>
    if v.isColumn || isLiteral v then do
      let t ← translate cfg v
      let ts ← translateInits cfg vs
      .ok (t :: ts)
    else translateInits cfg vs

/-- The parameter loop (snuba_sdk/visitors.py:220-227); other values are skipped silently. -/
def translateParams (cfg : Cfg) : List Val → Except Err (List Str)
  | [] => .ok []
  | v :: vs => do
    let use ← usesParam v
    if use then do
      let t ← translate cfg v
      let ts ← translateParams cfg vs
      .ok (t :: ts)
    else translateParams cfg vs
end

/-- `op = "!"` for the negated operators (snuba_sdk/visitors.py:308-310). -/
def mqlNeg : Op → Str
  | .neq | .notIn | .notLike => ['!']
  | _ => []

/-- The right-hand side of `_visit_condition_mql` (snuba_sdk/visitors.py:295-305). -/
def rhsMql (cfg : Cfg) (o : Op) (r : Val) : Except Err Str :=
  if isUnary o then .ok []
  else if r.isCurried then .error .invalidExpression
  else if r.isColumn then translate cfg r
  else do
    let b ← isScalar r
    if b then translate cfg r else .error .assertion

mutual
/-- `_visit_condition_mql` (snuba_sdk/visitors.py:294-311) and `_visit_boolean_condition_mql`
(lines 283-292), dispatched on the class as their callers do. Only used on conditions; the
last branch stands for calling it on something else, which no caller does. -/
def condMql (cfg : Cfg) : Val → Except Err Str
  | .cond l o r => do
    let rs ← rhsMql cfg o r
    let ls ← translate cfg l
    .ok (mqlNeg o ++ ls ++ [':'] ++ rs)
  | .boolCond _ op _ cs => do
    let ps ← condMqlAll cfg cs
    .ok (['('] ++ joinWith ([' '] ++ op.value ++ [' ']) ps ++ [')'])
  | _ => .error .assertion

/-- The loops at snuba_sdk/visitors.py:285-289 and metrics_visitors.py:81-85: anything that is not a
condition is skipped. -/
def condMqlAll (cfg : Cfg) : List Val → Except Err (List Str)
  | [] => .ok []
  | v :: vs =>
    if v.isCondition then do
      let t ← condMql cfg v
      let ts ← condMqlAll cfg vs
      .ok (t :: ts)
    else condMqlAll cfg vs
end

end Verif
