import Verif.Py.Json
import Verif.Spec.Decimal
import Verif.Spec.Scalar

/-!
# Specification: JSON

A reader of JSON texts, written from the grammar of RFC 8259 and not from the encoder. With `lenient` it also
takes the words `NaN`, `Infinity` and `-Infinity`, as Python's reader does.
-/

namespace Verif.Spec

/-- The payload stands for the JSON value: scalars for themselves, lists and tuples for arrays, dictionaries for
objects with the same entries. -/
inductive ValueOf : Val → Json → Prop
  | none : ValueOf .none .null
  | bool (b) : ValueOf (.bool b) (.bool b)
  | int (i) : ValueOf (.int i) (.int i)
  | float (f) : ValueOf (.float f) (.float f)
  | str (s) : ValueOf (.str s) (.str s)
  | list (xs js) : xs.length = js.length → (∀ p ∈ xs.zip js, ValueOf p.1 p.2) → ValueOf (.list xs) (.arr js)
  | tuple (xs js) : xs.length = js.length → (∀ p ∈ xs.zip js, ValueOf p.1 p.2) → ValueOf (.tuple xs) (.arr js)

/-- The same for payloads. -/
inductive StandsFor : Data → Json → Prop
  | val (v j) : ValueOf v j → StandsFor (.val v) j
  | list (xs js) : xs.length = js.length → (∀ p ∈ xs.zip js, StandsFor p.1 p.2) → StandsFor (.list xs) (.arr js)
  | dict (kvs js) : kvs.map (·.1) = js.map (·.1) → (∀ p ∈ kvs.zip js, StandsFor p.1.2 p.2.2) → StandsFor (.dict kvs) (.obj js)

/-- Only numbers that JSON has: no NaN and no infinity anywhere. -/
inductive Finite : Json → Prop
  | null : Finite .null
  | bool (b) : Finite (.bool b)
  | int (i) : Finite (.int i)
  | float (d) : Finite (.float (.fin d))
  | str (s) : Finite (.str s)
  | arr (xs) : (∀ x ∈ xs, Finite x) → Finite (.arr xs)
  | obj (kvs) : (∀ p ∈ kvs, Finite p.2) → Finite (.obj kvs)

/-- White space of JSON. -/
def jsonSpace (c : Char) : Bool := c = ' ' ∨ c = '\t' ∨ c = '\n' ∨ c = '\r'

/-- Skip white space. -/
def skip (s : Str) : Str := s.dropWhile jsonSpace

/-- The value of a hexadecimal digit. -/
def hexDigit (c : Char) : Option Nat :=
  if '0' ≤ c ∧ c ≤ '9' then some (c.toNat - 48)
  else if 'a' ≤ c ∧ c ≤ 'f' then some (c.toNat - 87)
  else if 'A' ≤ c ∧ c ≤ 'F' then some (c.toNat - 55)
  else none

/-- Four hexadecimal digits. -/
def readHex : Str → Option (Nat × Str)
  | a :: b :: c :: d :: s => do
    let a ← hexDigit a
    let b ← hexDigit b
    let c ← hexDigit c
    let d ← hexDigit d
    some (((a * 16 + b) * 16 + c) * 16 + d, s)
  | _ => none

/-- The second half of a pair of surrogates. -/
def readLow (hi : Nat) : Str → Option (Char × Str)
  | '\\' :: 'u' :: s => do
    let (lo, s) ← readHex s
    if 0xdc00 ≤ lo ∧ lo < 0xe000 then some (Char.ofNat (0x10000 + (hi - 0xd800) * 0x400 + (lo - 0xdc00)), s) else none
  | _ => none

/-- The character of a UTF-16 code, which may need a second one. -/
def readUtf16 (n : Nat) (s : Str) : Option (Char × Str) :=
  if 0xd800 ≤ n ∧ n < 0xdc00 then readLow n s
  else if 0xdc00 ≤ n ∧ n < 0xe000 then none
  else some (Char.ofNat n, s)

/-- What follows a backslash. -/
def readEscape : Str → Option (Char × Str)
  | '"' :: s => some ('"', s)
  | '\\' :: s => some ('\\', s)
  | '/' :: s => some ('/', s)
  | 'b' :: s => some (Char.ofNat 8, s)
  | 'f' :: s => some (Char.ofNat 12, s)
  | 'n' :: s => some ('\n', s)
  | 'r' :: s => some ('\r', s)
  | 't' :: s => some ('\t', s)
  | 'u' :: s => do
    let (n, s) ← readHex s
    readUtf16 n s
  | _ => none

/-- A character inside a string; control characters must be escaped. -/
def readJsonChar : Str → Option (Char × Str)
  | [] => none
  | '\\' :: s => readEscape s
  | c :: s => if c.toNat < 32 then none else some (c, s)

/-- The characters of a string up to the closing quote. -/
def readJsonStr : Nat → Str → Option (Str × Str)
  | 0, _ => none
  | _ + 1, '"' :: s => some ([], s)
  | f + 1, s => do
    let (c, s) ← readJsonChar s
    let (cs, s) ← readJsonStr f s
    some (c :: cs, s)

/-- Digits of an exponent. -/
def jsonDigits (ds : Str) : Option Nat := if ds ≠ [] ∧ ds.all digit then some (numeral ds) else none

/-- An exponent, or nothing. -/
def jsonExponent : Str → Option Int
  | [] => some 0
  | c :: s =>
    if c = 'e' ∨ c = 'E' then
      match s with
      | '+' :: ds => (jsonDigits ds).map fun (n : Nat) => (n : Int)
      | '-' :: ds => (jsonDigits ds).map fun (n : Nat) => -(n : Int)
      | ds => (jsonDigits ds).map fun (n : Nat) => (n : Int)
    else none

/-- A number without its sign. A number without fraction and exponent is an int, all others the nearest floats. The integer
part has no superfluous zero. -/
def jsonUnsigned (neg : Bool) (s : Str) : Option Json :=
  let i := s.takeWhile digit
  if i = [] ∨ (i.head? = some '0' ∧ i ≠ ['0']) then none
  else match s.dropWhile digit with
    | [] => some (.int (if neg then -(numeral i : Int) else numeral i))
    | '.' :: r =>
      let f := r.takeWhile digit
      if f = [] then none
      else (jsonExponent (r.dropWhile digit)).map fun x => .float (ofDecimal neg (numeral (i ++ f)) (x - f.length))
    | r => (jsonExponent r).map fun x => .float (ofDecimal neg (numeral i) x)

/-- A number. -/
def jsonNumber : Str → Option Json
  | '-' :: s => jsonUnsigned true s
  | s => jsonUnsigned false s

/-- A word or a number. -/
def jsonToken (lenient : Bool) (t : Str) : Option Json :=
  if t = c!"null" then some .null
  else if t = c!"true" then some (.bool true)
  else if t = c!"false" then some (.bool false)
  else if lenient = true ∧ t = c!"NaN" then some (.float .nan)
  else if lenient = true ∧ t = c!"Infinity" then some (.float (.inf false))
  else if lenient = true ∧ t = c!"-Infinity" then some (.float (.inf true))
  else jsonNumber t

/-- Characters of words and numbers: no structural characters, no quotes, no white space. -/
def tokenChar (c : Char) : Bool :=
  !(jsonSpace c || c == ',' || c == ':' || c == '[' || c == ']' || c == '{' || c == '}' || c == '"')

mutual
/-- A value at the beginning of a text, and the rest. -/
def readJson (lenient : Bool) : Nat → Str → Option (Json × Str)
  | 0, _ => none
  | f + 1, s =>
    match skip s with
    | '"' :: s => do
      let (t, s) ← readJsonStr (s.length + 1) s
      some (.str t, s)
    | '[' :: s => readArray lenient f (skip s)
    | '{' :: s => readObject lenient f (skip s)
    | s => (jsonToken lenient (s.takeWhile tokenChar)).map fun j => (j, s.dropWhile tokenChar)

/-- What follows an opening bracket and white space. -/
def readArray (lenient : Bool) : Nat → Str → Option (Json × Str)
  | 0, _ => none
  | _ + 1, ']' :: s => some (.arr [], s)
  | f + 1, s => do
    let (xs, s) ← readElements lenient f s
    some (.arr xs, s)

/-- One or more values, separated by commas, and the closing bracket. -/
def readElements (lenient : Bool) : Nat → Str → Option (List Json × Str)
  | 0, _ => none
  | f + 1, s => do
    let (x, s) ← readJson lenient f s
    match skip s with
    | ']' :: s => some ([x], s)
    | ',' :: s => do
      let (xs, s) ← readElements lenient f s
      some (x :: xs, s)
    | _ => none

/-- What follows an opening brace and white space. -/
def readObject (lenient : Bool) : Nat → Str → Option (Json × Str)
  | 0, _ => none
  | _ + 1, '}' :: s => some (.obj [], s)
  | f + 1, s => do
    let (kvs, s) ← readMembers lenient f s
    some (.obj kvs, s)

/-- One or more entries, separated by commas, and the closing brace. -/
def readMembers (lenient : Bool) : Nat → Str → Option (List (Str × Json) × Str)
  | 0, _ => none
  | f + 1, s =>
    match skip s with
    | '"' :: s => do
      let (k, s) ← readJsonStr (s.length + 1) s
      match skip s with
      | ':' :: s => do
        let (x, s) ← readJson lenient f s
        match skip s with
        | '}' :: s => some ([(k, x)], s)
        | ',' :: s => do
          let (kvs, s) ← readMembers lenient f s
          some ((k, x) :: kvs, s)
        | _ => none
      | _ => none
    | _ => none
end

/-- Read a whole text as JSON. (The number bounds the depth of recursion; a text of `n` characters needs less.) -/
def readJsonText (lenient : Bool) (s : Str) : Option Json :=
  match readJson lenient (2 * s.length + 2) s with
  | some (j, r) => if skip r = [] then some j else none
  | none => none

/-- The keys are in the order of their code points. -/
def KeysSorted (kvs : List (Str × Json)) : Prop := kvs.Pairwise fun a b => ¬ b.1.map Char.toNat < a.1.map Char.toNat

/-- The same value, but the entries of every object are sorted by their keys. -/
inductive Sorted : Json → Json → Prop
  | null : Sorted .null .null
  | bool (b) : Sorted (.bool b) (.bool b)
  | int (i) : Sorted (.int i) (.int i)
  | float (f) : Sorted (.float f) (.float f)
  | str (s) : Sorted (.str s) (.str s)
  | arr (xs ys) : xs.length = ys.length → (∀ p ∈ xs.zip ys, Sorted p.1 p.2) → Sorted (.arr xs) (.arr ys)
  | obj (kvs ms js) : kvs.map (·.1) = ms.map (·.1) → (∀ p ∈ kvs.zip ms, Sorted p.1.2 p.2.2) → ms.Perm js → KeysSorted js →
      Sorted (.obj kvs) (.obj js)

end Verif.Spec
