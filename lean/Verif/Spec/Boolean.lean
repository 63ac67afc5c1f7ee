import Verif.Spec.Construct
import Verif.Spec.Query
import Verif.Spec.Part
import Verif.Model.Translate

/-!
# Specification: reading the text of conditions

A reader of condition texts with the usual precedence: AND binds tighter than OR, parentheses group.
It is written from the SnQL grammar of conditions, not from the printer.
-/

namespace Verif.Spec

/-- What a reader makes of a condition text: comparisons with the texts of their operands, and groups. -/
inductive BTree
  | leaf (lhs : Str) (op : Op) (rhs : Option Str)
  | node (op : BooleanOp) (kids : List BTree)

/-- Where the reader is inside an operand: outside of quotes, in a quoted string, after a backslash in a quoted
string, in backticks, in brackets. -/
inductive Mode | code | quote | escape | tick | bracket
  deriving DecidableEq

/-- One character of an operand, at a depth of parentheses. An operand ends before a space or a closing
parenthesis that is not inside anything. -/
def operandStep : Mode → Nat → Char → Option (Mode × Nat)
  | .code, d, c =>
    if c = '(' then some (.code, d + 1)
    else if c = ')' then if d = 0 then none else some (.code, d - 1)
    else if c = ' ' then if d = 0 then none else some (.code, d)
    else if c = '\'' then some (.quote, d)
    else if c = '`' then some (.tick, d)
    else if c = '[' then some (.bracket, d)
    else some (.code, d)
  | .quote, d, c =>
    if c = '\\' then some (.escape, d) else if c = '\'' then some (.code, d) else some (.quote, d)
  | .escape, d, _ => some (.quote, d)
  | .tick, d, c => if c = '`' then some (.code, d) else some (.tick, d)
  | .bracket, d, c => if c = ']' then some (.code, d) else some (.bracket, d)

/-- The characters of the operand at the beginning of a text, and the rest. -/
def spanOperand : Mode → Nat → Str → Str × Str
  | _, _, [] => ([], [])
  | m, d, c :: s =>
    match operandStep m d c with
    | none => ([], c :: s)
    | some (m', d') => (c :: (spanOperand m' d' s).1, (spanOperand m' d' s).2)

/-- The text after a prefix. -/
def dropPrefix : Str → Str → Option Str
  | [], s => some s
  | _ :: _, [] => none
  | p :: ps, c :: s => if p = c then dropPrefix ps s else none

/-- An optional alias in backticks. -/
def readAlias (s : Str) : Str × Str :=
  match dropPrefix c!" AS `" s with
  | none => ([], s)
  | some r => (c!" AS `" ++ r.takeWhile (· != '`') ++ c!"`", (r.dropWhile (· != '`')).drop 1)

/-- An operand with its alias. -/
def readOperand (s : Str) : Str × Str :=
  let r := spanOperand .code 0 s
  (r.1 ++ (readAlias r.2).1, (readAlias r.2).2)

/-- The spellings of the comparison operators, longer ones before their prefixes. -/
def operators : List (Str × Op) :=
  [(c!"!=", .neq), (c!">=", .gte), (c!"<=", .lte), (c!"=", .eq), (c!">", .gt), (c!"<", .lt), (c!"!", .not),
   (c!"NOT IN", .notIn), (c!"NOT LIKE", .notLike), (c!"IN", .in_), (c!"LIKE", .like),
   (c!"IS NULL", .isNull), (c!"IS NOT NULL", .isNotNull)]

/-- An operator at the beginning of a text, and the rest. -/
def readOp (s : Str) : Option (Op × Str) :=
  operators.findSome? fun p => (dropPrefix p.1 s).map fun r => (p.2, r)

/-- A comparison. -/
def readLeaf (s : Str) : Option (BTree × Str) := do
  let l := readOperand s
  let s ← dropPrefix c!" " l.2
  let (o, s) ← readOp s
  if o = .isNull ∨ o = .isNotNull then some (.leaf l.1 o none, s)
  else
    let s ← dropPrefix c!" " s
    let r := readOperand s
    some (.leaf l.1 o (some r.1), r.2)

/-- A sequence of one condition is that condition. -/
def group (o : BooleanOp) : List BTree → BTree
  | [t] => t
  | ts => .node o ts

mutual
/-- A comparison or a group in parentheses. -/
def readPrim : Nat → Str → Option (BTree × Str)
  | 0, _ => none
  | f + 1, s =>
    match dropPrefix c!"(" s with
    | some s => do
      let (t, s) ← readOr f s
      let s ← dropPrefix c!")" s
      some (t, s)
    | none => readLeaf s

/-- `x AND y AND …`. -/
def readAnd : Nat → Str → Option (BTree × Str)
  | 0, _ => none
  | f + 1, s => do
    let (t, s) ← readPrim f s
    let (ts, s) ← moreAnd f s
    some (group .and (t :: ts), s)

/-- `AND y AND …`. -/
def moreAnd : Nat → Str → Option (List BTree × Str)
  | 0, _ => none
  | f + 1, s =>
    match dropPrefix c!" AND " s with
    | some s => do
      let (t, s) ← readPrim f s
      let (ts, s) ← moreAnd f s
      some (t :: ts, s)
    | none => some ([], s)

/-- `x OR y OR …`, where each part may be an AND sequence. -/
def readOr : Nat → Str → Option (BTree × Str)
  | 0, _ => none
  | f + 1, s => do
    let (t, s) ← readAnd f s
    let (ts, s) ← moreOr f s
    some (group .or (t :: ts), s)

/-- `OR y OR …`. -/
def moreOr : Nat → Str → Option (List BTree × Str)
  | 0, _ => none
  | f + 1, s =>
    match dropPrefix c!" OR " s with
    | some s => do
      let (t, s) ← readAnd f s
      let (ts, s) ← moreOr f s
      some (t :: ts, s)
    | none => some ([], s)
end

/-- Read a whole condition text. (The number bounds the depth of recursion; a text of `n` characters needs less.) -/
def readCondition (s : Str) : Option BTree :=
  match readOr (4 * s.length + 6) s with
  | some (t, []) => some t
  | _ => none

mutual
/-- The tree of a condition: its And/Or structure, with the texts of the operands. -/
inductive TreeOf (cfg : Cfg) : Val → BTree → Prop
  | unary (l o r lt) : o = .isNull ∨ o = .isNotNull → translate cfg l = .ok lt →
      TreeOf cfg (.cond l o r) (.leaf lt o none)
  | binary (l o r lt rt) : o ≠ .isNull → o ≠ .isNotNull → translate cfg l = .ok lt → translate cfg r = .ok rt →
      TreeOf cfg (.cond l o r) (.leaf lt o (some rt))
  | group (cls o k cs ts) : TreesOf cfg cs ts → TreeOf cfg (.boolCond cls o k cs) (.node o ts)

/-- The trees of a list of conditions. -/
inductive TreesOf (cfg : Cfg) : List Val → List BTree → Prop
  | nil : TreesOf cfg [] []
  | cons (c cs t ts) : TreeOf cfg c t → TreesOf cfg cs ts → TreesOf cfg (c :: cs) (t :: ts)
end

/-- A text without spaces, quotes, parentheses and brackets. -/
def Smooth (s : Str) : Prop := ∀ c ∈ s, c ∉ c!" ()[]'`\"\\"

/-- The alias of the entity, if any, is smooth. -/
def SmoothAlias (e : EntityObj) : Prop := ∀ a, e.alias = some a → Smooth a

/-- The entity alias of the column, if any, is smooth. -/
def SmoothColumn (c : ColumnObj) : Prop := ∀ e, c.entity = some e → SmoothAlias e

/-- The names in this object that the SDK does not restrict enough are smooth: function names, entity aliases and
relationship names. (This speaks about the object itself, not its parts.) -/
def SmoothNames : Val → Prop
  | .column c => SmoothColumn c
  | .aliased c _ => SmoothColumn c
  | .limitby _ cs _ => ∀ c ∈ cs, SmoothColumn c
  | .curried _ n _ _ _ _ _ => Smooth n
  | .entity e => SmoothAlias e
  | .rel r => SmoothAlias r.lhs ∧ SmoothAlias r.rhs ∧ Smooth r.name
  | .join _ rels => ∀ r ∈ rels, SmoothAlias r.lhs ∧ SmoothAlias r.rhs ∧ Smooth r.name
  | _ => True

/-- All function names, entity aliases and relationship names in the value are smooth. -/
def SmoothVal (v : Val) : Prop := ∀ x, Part x v → SmoothNames x

end Verif.Spec
