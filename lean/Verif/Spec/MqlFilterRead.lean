import Verif.Spec.Scalar
import Verif.Spec.MqlFilter

/-!
# Specification: reading the filters of metrics queries

A reader of the texts of MQL filters, written from their syntax: comparisons `name:value` and `!name:value`, and groups
`(filter AND filter)` and `(filter OR filter)`.
-/

namespace Verif.Spec

/-- What a text can tell about a filter: whether it is negated, the column, and the value, if there is one; or the combination of
filters. -/
inductive Outline where
  | comparison (negated : Bool) (name : Str) (value : Option Val)
  | group (op : BooleanOp) (parts : List Outline)

mutual
/-- The value with lists in the place of tuples. -/
def untuple : Val → Val
  | .list xs => .list (untuples xs)
  | .tuple xs => .list (untuples xs)
  | v => v

/-- The same for a list of values. -/
def untuples : List Val → List Val
  | [] => []
  | v :: vs => untuple v :: untuples vs
end

/-- The value of a comparison; `IS NULL` and `IS NOT NULL` have none. -/
def comparedWith (o : Op) (r : Val) : Option Val := if o = .isNull ∨ o = .isNotNull then none else some (untuple r)

/-- The outline of a filter. -/
inductive OutlineOf : Val → Outline → Prop
  | plain (c : ColumnObj) (o : Op) (r : Val) : ¬ Negated o →
      OutlineOf (.cond (.column c) o r) (.comparison false c.name (comparedWith o r))
  | negated (c : ColumnObj) (o : Op) (r : Val) : Negated o →
      OutlineOf (.cond (.column c) o r) (.comparison true c.name (comparedWith o r))
  | group (cls op k cs os) : Pairwise OutlineOf cs os → OutlineOf (.boolCond cls op k cs) (.group op os)

/-! ### The reader -/

/-- The characters that end a word. -/
def stops (c : Char) : Bool := c == ',' || c == ']' || c == ' ' || c == ')' || c == '}'

/-- A value that is not a sequence: a moment, a string in double quotes, or a word or number. -/
def readMqlAtom (s : Str) : Option (Val × Str) :=
  match readText c!"toDateTime('" s with
  | some r => readMoment r
  | none =>
    match readQuoted '"' s with
    | some (t, r) => some (.str t, r)
    | none => (readToken (s.takeWhile fun c => !stops c)).map fun v => (v, s.dropWhile fun c => !stops c)

mutual
/-- A value at the beginning of a text, and the rest. -/
def readMqlValue : Nat → Str → Option (Val × Str)
  | 0, _ => none
  | f + 1, s =>
    match readText c!"[" s with
    | some r => (readMqlItems f r).map fun p => (.list p.1, p.2)
    | none => readMqlAtom s

/-- Items up to the closing bracket. -/
def readMqlItems : Nat → Str → Option (List Val × Str)
  | 0, _ => none
  | f + 1, s =>
    match readText c!"]" s with
    | some r => some ([], r)
    | none => do
      let (v, s) ← readMqlValue f s
      let (vs, s) ← moreMqlItems f s
      some (v :: vs, s)

/-- Further items, each after a comma. -/
def moreMqlItems : Nat → Str → Option (List Val × Str)
  | 0, _ => none
  | f + 1, s =>
    match readText c!"]" s with
    | some r => some ([], r)
    | none => do
      let s ← readText c!", " s
      let (v, s) ← readMqlValue f s
      let (vs, s) ← moreMqlItems f s
      some (v :: vs, s)
end

/-- Everything up to the character `c`, and what comes after it. -/
def upTo (c : Char) (s : Str) : Option (Str × Str) :=
  match s.dropWhile (· != c) with
  | [] => none
  | _ :: r => some (s.takeWhile (· != c), r)

/-- The name of a column, with its subscript, and what comes after the colon. -/
def readFilterName (s : Str) : Option (Str × Str) :=
  match upTo ':' s with
  | none => none
  | some (n, r) =>
    if '[' ∈ n then do
      let (before, s) ← upTo '[' s
      let (key, s) ← upTo ']' s
      let (after, s) ← upTo ':' s
      some (before ++ '[' :: key ++ ']' :: after, s)
    else some (n, r)

/-- No value, or a value. -/
def readFilterValue (s : Str) : Option (Option Val × Str) :=
  if s.head?.all stops then some (none, s)
  else (readMqlValue (2 * s.length + 2) s).map fun p => (some p.1, p.2)

/-- A comparison. -/
def readComparison (negated : Bool) (s : Str) : Option (Outline × Str) := do
  let (n, s) ← readFilterName s
  let (v, s) ← readFilterValue s
  some (.comparison negated n v, s)

/-- What joins filters, with the operator. -/
def readJoint (s : Str) : Option (BooleanOp × Str) :=
  match readText c!" AND " s with
  | some r => some (.and, r)
  | none => (readText c!" OR " s).map fun r => (.or, r)

mutual
/-- A filter at the beginning of a text, and the rest. -/
def readFilterAt : Nat → Str → Option (Outline × Str)
  | 0, _ => none
  | f + 1, '(' :: s => do
    let (o, s) ← readFilterAt f s
    let (op, _) ← readJoint s
    let (os, s) ← moreFilters f op s
    some (.group op (o :: os), s)
  | _ + 1, '!' :: s => readComparison true s
  | _ + 1, s => readComparison false s

/-- Further filters with the same joint, up to the closing parenthesis. -/
def moreFilters : Nat → BooleanOp → Str → Option (List Outline × Str)
  | 0, _, _ => none
  | f + 1, op, s =>
    match readText c!")" s with
    | some r => some ([], r)
    | none => do
      let (op', s) ← readJoint s
      let (o, s) ← readFilterAt f s
      let (os, s) ← moreFilters f op s
      if op = op' then some (o :: os, s) else none
end

/-- Read a whole text as a filter. (The number bounds the depth of recursion.) -/
def readFilterText (s : Str) : Option Outline :=
  match readFilterAt (s.length + 1) s with
  | some (o, []) => some o
  | _ => none

/-- Filters joined by `AND`, up to the closing brace. -/
def readFilterList : Nat → Str → Option (List Outline × Str)
  | 0, _ => none
  | f + 1, s => do
    let (o, s) ← readFilterAt (s.length + 1) s
    match readText c!"}" s with
    | some r => some ([o], r)
    | none => do
      let s ← readText c!" AND " s
      let (os, s) ← readFilterList f s
      some (o :: os, s)

/-- Read the filters of a metrics query: filters in braces, joined by `AND`. -/
def readFilters (s : Str) : Option (List Outline) :=
  if s = c!"{}" then some []
  else do
    let s ← readText c!"{" s
    let (os, s) ← readFilterList (s.length + 1) s
    if s = [] then some os else none

end Verif.Spec
