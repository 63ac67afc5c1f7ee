import Verif.Model.Metrics
import Verif.Spec.Scalar

/-!
# Specification: Python literals

A reader of Python literals, written from the lexical rules of the language and not from `repr`. It is stricter than
Python: items are separated by a comma and one blank, and of the escapes it knows those by name, `\x`, `\u` and `\U`.
-/

namespace Verif.Spec

/-- What a literal denotes. -/
inductive PyLit where
  | none
  | bool (b : Bool)
  | int (i : Int)
  | float (f : PyFloat)
  | str (s : Str)
  | list (xs : List PyLit)
  | tuple (xs : List PyLit)
  | dict (kvs : List (Str × PyLit))
  deriving Inhabited

/-- The value is what the literal denotes. -/
inductive LitOf : Val → PyLit → Prop
  | none : LitOf .none .none
  | bool (b) : LitOf (.bool b) (.bool b)
  | int (i) : LitOf (.int i) (.int i)
  | float (f) : LitOf (.float f) (.float f)
  | str (s) : LitOf (.str s) (.str s)
  | list (xs ls) : xs.length = ls.length → (∀ p ∈ xs.zip ls, LitOf p.1 p.2) → LitOf (.list xs) (.list ls)
  | tuple (xs ls) : xs.length = ls.length → (∀ p ∈ xs.zip ls, LitOf p.1 p.2) → LitOf (.tuple xs) (.tuple ls)

/-- The same for payloads. -/
inductive LitFor : Data → PyLit → Prop
  | val (v l) : LitOf v l → LitFor (.val v) l
  | list (xs ls) : xs.length = ls.length → (∀ p ∈ xs.zip ls, LitFor p.1 p.2) → LitFor (.list xs) (.list ls)
  | dict (kvs ls) : kvs.map (·.1) = ls.map (·.1) → (∀ p ∈ kvs.zip ls, LitFor p.1.2 p.2.2) → LitFor (.dict kvs) (.dict ls)

/-- The value of a hexadecimal digit. -/
def pyHexDigit (c : Char) : Option Nat :=
  if '0' ≤ c ∧ c ≤ '9' then some (c.toNat - 48)
  else if 'a' ≤ c ∧ c ≤ 'f' then some (c.toNat - 87)
  else if 'A' ≤ c ∧ c ≤ 'F' then some (c.toNat - 55)
  else none

/-- The given number of hexadecimal digits, after those with the value `n`. -/
def readPyHex : Nat → Nat → Str → Option (Nat × Str)
  | 0, n, s => some (n, s)
  | k + 1, n, c :: s => do
    let d ← pyHexDigit c
    readPyHex k (n * 16 + d) s
  | _ + 1, _, [] => none

/-- The character with the code of the given number of digits. -/
def readPyCode (k : Nat) (s : Str) : Option (Char × Str) := do
  let (n, s) ← readPyHex k 0 s
  if n.isValidChar then some (Char.ofNat n, s) else none

/-- What follows a backslash. -/
def readPyEscape : Str → Option (Char × Str)
  | '\\' :: s => some ('\\', s)
  | '\'' :: s => some ('\'', s)
  | '"' :: s => some ('"', s)
  | 'a' :: s => some (Char.ofNat 7, s)
  | 'b' :: s => some (Char.ofNat 8, s)
  | 'f' :: s => some (Char.ofNat 12, s)
  | 'n' :: s => some ('\n', s)
  | 'r' :: s => some ('\r', s)
  | 't' :: s => some ('\t', s)
  | 'v' :: s => some (Char.ofNat 11, s)
  | 'x' :: s => readPyCode 2 s
  | 'u' :: s => readPyCode 4 s
  | 'U' :: s => readPyCode 8 s
  | _ => none

/-- A character inside a string; a line does not end inside a string. -/
def readPyChar : Str → Option (Char × Str)
  | [] => none
  | '\\' :: s => readPyEscape s
  | c :: s => if c = '\n' ∨ c = '\r' then none else some (c, s)

/-- The characters of a string up to the closing quote `q`. (The number bounds the depth of recursion.) -/
def readPyStr (q : Char) : Nat → Str → Option (Str × Str)
  | 0, _ => none
  | _ + 1, [] => none
  | f + 1, c :: s =>
    if c = q then some ([], s)
    else do
      let (c, s) ← readPyChar (c :: s)
      let (cs, s) ← readPyStr q f s
      some (c :: cs, s)

/-- Characters of words and numbers. -/
def pyWordChar (c : Char) : Bool := c.isAlphanum || c == '_' || c == '.' || c == '+' || c == '-'

/-- A word or a number. `nan` and `inf` are what Python prints for floats that are no numbers. -/
def readPyWord (t : Str) : Option PyLit :=
  if t = c!"None" then some .none
  else if t = c!"True" then some (.bool true)
  else if t = c!"False" then some (.bool false)
  else match readToken t with
    | some (.int i) => some (.int i)
    | some (.float f) => some (.float f)
    | _ => none

mutual
/-- A literal at the beginning of a text, and the rest. -/
def readPyLit : Nat → Str → Option (PyLit × Str)
  | 0, _ => none
  | f + 1, s =>
    match s with
    | '\'' :: s => (readPyStr '\'' (s.length + 1) s).map fun p => (.str p.1, p.2)
    | '"' :: s => (readPyStr '"' (s.length + 1) s).map fun p => (.str p.1, p.2)
    | '[' :: s => readPyItems f ']' s >>= fun p =>
      match p with
      | (ls, ']' :: s) => some (.list ls, s)
      | _ => none
    | '(' :: s => readPyItems f ')' s >>= fun p =>
      match p with
      | ([], ')' :: s) => some (.tuple [], s)
      | ([l], ')' :: s) => some (l, s)
      | ([l], ',' :: ')' :: s) => some (.tuple [l], s)
      | (ls, ')' :: s) => some (.tuple ls, s)
      | _ => none
    | '{' :: s => readPyEntries f s >>= fun p =>
      match p with
      | (ls, '}' :: s) => some (.dict ls, s)
      | _ => none
    | s => (readPyWord (s.takeWhile pyWordChar)).map fun l => (l, s.dropWhile pyWordChar)

/-- Literals separated by commas, or nothing before the closing bracket. -/
def readPyItems : Nat → Char → Str → Option (List PyLit × Str)
  | 0, _, _ => none
  | f + 1, close, s =>
    if s.head? = some close then some ([], s)
    else readPyLit f s >>= fun p =>
      match p with
      | (l, ',' :: ' ' :: s) => (readPyItems f close s).map fun p => (l :: p.1, p.2)
      | (l, s) => some ([l], s)

/-- Keys and values separated by commas, or nothing before the closing brace. -/
def readPyEntries : Nat → Str → Option (List (Str × PyLit) × Str)
  | 0, _ => none
  | f + 1, s =>
    if s.head? = some '}' then some ([], s)
    else readPyLit f s >>= fun p =>
      match p with
      | (.str k, ':' :: ' ' :: s) => readPyLit f s >>= fun p =>
        match p with
        | (l, ',' :: ' ' :: s) => (readPyEntries f s).map fun p => ((k, l) :: p.1, p.2)
        | (l, s) => some ([(k, l)], s)
      | _ => none
end

/-- A literal at the beginning of a text, and the rest; a text of `n` characters needs less than `2 * n + 2` steps. -/
def readPy (s : Str) : Option (PyLit × Str) := readPyLit (2 * s.length + 2) s

/-- A keyword argument `, word=literal`, if there is one. -/
def readPyKeyword (word s : Str) : Option (Option PyLit × Str) :=
  match readText (c!", " ++ word ++ c!"=") s with
  | none => some (none, s)
  | some s => (readPy s).map fun p => (some p.1, p.2)

/-- The call `DeleteQuery(storage_name=…, columnsConditions=…)`. -/
def readDeleteCall (s : Str) : Option (PyLit × PyLit) := do
  let s ← readText c!"DeleteQuery(storage_name=" s
  let (n, s) ← readPy s
  let s ← readText c!", columnsConditions=" s
  let (c, s) ← readPy s
  if s = c!")" then some (n, c) else none

/-- The call `Entity(name, alias=…, sample=…)`, in which the keywords may be missing. -/
def readEntityCall (s : Str) : Option (PyLit × Option PyLit × Option PyLit) := do
  let s ← readText c!"Entity(" s
  let (n, s) ← readPy s
  let (a, s) ← readPyKeyword c!"alias" s
  let (x, s) ← readPyKeyword c!"sample" s
  if s = c!")" then some (n, a, x) else none

/-- The call `STORAGE(name, sample=…)`, in which the keyword may be missing. -/
def readStorageCall (s : Str) : Option (PyLit × Option PyLit) := do
  let s ← readText c!"STORAGE(" s
  let (n, s) ← readPy s
  let (x, s) ← readPyKeyword c!"sample" s
  if s = c!")" then some (n, x) else none

/-- No quote, no backslash and no end of a line: such a text can be written between single quotes as it is. -/
def PlainText (s : Str) : Prop := ∀ c ∈ s, c ≠ '\'' ∧ c ≠ '\\' ∧ c ≠ '\n' ∧ c ≠ '\r'

end Verif.Spec
