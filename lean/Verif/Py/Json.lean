import Verif.Model.Metrics

/-!
# Python's `json.dumps`

`json.dumps(obj)` and `json.dumps(obj, sort_keys=True, indent=4 * " ")` as used at snuba_sdk/request.py:114, 119, 127.
The encoder of the standard library walks through the object, checks the types and writes the text at once; here the walk
(`toJson`) and the writing (`encodeJson`) are two functions, which makes no difference to the result since nothing is
returned if an exception is raised.

Simplifications: keys of dictionaries are strings; no cyclic objects; no recursion limit; no limit on the digits of ints.
-/

namespace Verif

/-- A JSON value. Dictionaries keep the order of their entries. -/
inductive Json where
  | null
  | bool (b : Bool)
  | int (i : Int)
  | float (f : PyFloat)
  | str (s : Str)
  | arr (xs : List Json)
  | obj (kvs : List (Str × Json))
  deriving Inhabited

mutual
/-- The types that the encoder accepts (CPython `json.encoder`, used at snuba_sdk/request.py:114): `None`, bools, ints, floats,
strings, lists and tuples; all others raise `TypeError`. -/
def Val.toJson : Val → Except Err Json
  | .none => .ok .null
  | .bool b => .ok (.bool b)
  | .int i => .ok (.int i)
  | .float f => .ok (.float f)
  | .str s => .ok (.str s)
  | .list xs => do
    let js ← toJsonVals xs
    .ok (.arr js)
  | .tuple xs => do
    let js ← toJsonVals xs
    .ok (.arr js)
  | _ => .error .typeError

/-- The items of a list in their order (CPython `json.encoder`, used at snuba_sdk/request.py:114). -/
def toJsonVals : List Val → Except Err (List Json)
  | [] => .ok []
  | x :: xs => do
    let j ← x.toJson
    let js ← toJsonVals xs
    .ok (j :: js)
end

mutual
/-- The encoder on payloads (CPython `json.encoder`, used at snuba_sdk/request.py:114). -/
def Data.toJson : Data → Except Err Json
  | .val v => v.toJson
  | .list xs => do
    let js ← toJsonList xs
    .ok (.arr js)
  | .dict kvs => do
    let js ← toJsonEntries kvs
    .ok (.obj js)

/-- The items of a list in their order (CPython `json.encoder`, used at snuba_sdk/request.py:114). -/
def toJsonList : List Data → Except Err (List Json)
  | [] => .ok []
  | x :: xs => do
    let j ← x.toJson
    let js ← toJsonList xs
    .ok (j :: js)

/-- The entries of a dictionary in their order (CPython `json.encoder`, used at snuba_sdk/request.py:114). -/
def toJsonEntries : List (Str × Data) → Except Err (List (Str × Json))
  | [] => .ok []
  | (k, x) :: xs => do
    let j ← x.toJson
    let js ← toJsonEntries xs
    .ok ((k, j) :: js)
end

/-- A hexadecimal digit in lower case (Python's format `x`). -/
def hexChar (n : Nat) : Char := Char.ofNat (if n < 10 then 48 + n else 87 + n)

/-- `'\\u{0:04x}'.format(n)` (CPython `json.encoder.py_encode_basestring_ascii`, used at snuba_sdk/request.py:114). -/
def hexEscape (n : Nat) : Str :=
  ['\\', 'u', hexChar (n / 4096 % 16), hexChar (n / 256 % 16), hexChar (n / 16 % 16), hexChar (n % 16)]

/-- One character of a string (CPython `json.encoder.ESCAPE_DCT` and `py_encode_basestring_ascii`, used at
snuba_sdk/request.py:114): printable ASCII is kept, everything else is escaped, with two surrogates above `0xffff`. -/
def jsonChar (c : Char) : Str :=
  if c = '"' then c!"\\\""
  else if c = '\\' then c!"\\\\"
  else if c = '\n' then c!"\\n"
  else if c = '\r' then c!"\\r"
  else if c = '\t' then c!"\\t"
  else if c.toNat = 12 then c!"\\f"
  else if c.toNat = 8 then c!"\\b"
  else if 32 ≤ c.toNat ∧ c.toNat ≤ 126 then [c]
  else if c.toNat < 65536 then hexEscape c.toNat
  else hexEscape (55296 + (c.toNat - 65536) / 1024 % 1024) ++ hexEscape (56320 + (c.toNat - 65536) % 1024)

/-- A string (CPython `json.encoder.py_encode_basestring_ascii`, used at snuba_sdk/request.py:114). -/
def jsonStr (s : Str) : Str := ['"'] ++ s.flatMap jsonChar ++ ['"']

/-- A float (CPython `json.encoder.JSONEncoder.iterencode.floatstr`, used at snuba_sdk/request.py:114). -/
def jsonFloat : PyFloat → Str
  | .fin d => (PyFloat.fin d).repr
  | .inf neg => if neg then c!"-Infinity" else c!"Infinity"
  | .nan => c!"NaN"

/-- `'\n' + indent * level`, with `indent=4 * " "` (CPython `json.encoder._make_iterencode`, used at
snuba_sdk/request.py:127). -/
def newlineIndent (n : Nat) : Str := '\n' :: List.replicate (4 * n) ' '

/-- What stands after an opening or before a closing bracket: nothing, or a new line if the text is indented
(CPython `json.encoder._make_iterencode`, used at snuba_sdk/request.py:114, 127). -/
def jsonEdge (pretty : Bool) (n : Nat) : Str := if pretty then newlineIndent n else []

/-- The separator of items: `", "`, or a comma and a new line if the text is indented (CPython
`json.encoder._make_iterencode`, used at snuba_sdk/request.py:114, 127). -/
def jsonSep (pretty : Bool) (n : Nat) : Str := ',' :: (if pretty then newlineIndent n else [' '])

mutual
/-- The text of a value at a level of indentation (CPython `json.encoder._make_iterencode`, used at snuba_sdk/request.py:114,
127). -/
def encodeJson (pretty : Bool) (n : Nat) : Json → Str
  | .null => c!"null"
  | .bool b => if b then c!"true" else c!"false"
  | .int i => intStr i
  | .float f => jsonFloat f
  | .str s => jsonStr s
  | .arr [] => c!"[]"
  | .arr (x :: xs) =>
    ['['] ++ jsonEdge pretty (n + 1) ++ encodeJson pretty (n + 1) x ++ encodeMore pretty (n + 1) xs ++ jsonEdge pretty n ++ [']']
  | .obj [] => c!"{}"
  | .obj ((k, x) :: xs) =>
    ['{'] ++ jsonEdge pretty (n + 1) ++ jsonStr k ++ c!": " ++ encodeJson pretty (n + 1) x ++ encodeEntries pretty (n + 1) xs ++
      jsonEdge pretty n ++ ['}']

/-- The items after the first (CPython `json.encoder._make_iterencode`, used at snuba_sdk/request.py:114, 127). -/
def encodeMore (pretty : Bool) (n : Nat) : List Json → Str
  | [] => []
  | x :: xs => jsonSep pretty n ++ encodeJson pretty n x ++ encodeMore pretty n xs

/-- The entries after the first (CPython `json.encoder._make_iterencode`, used at snuba_sdk/request.py:114, 127). -/
def encodeEntries (pretty : Bool) (n : Nat) : List (Str × Json) → Str
  | [] => []
  | (k, x) :: xs => jsonSep pretty n ++ jsonStr k ++ c!": " ++ encodeJson pretty n x ++ encodeEntries pretty n xs
end

/-- Comparison of strings by code points (Python built-in `<`). -/
def strLt : Str → Str → Bool
  | _, [] => false
  | [], _ :: _ => true
  | a :: as, b :: bs => if a = b then strLt as bs else decide (a.toNat < b.toNat)

/-- Insert an entry before the first one whose key is not smaller (Python built-in `sorted`, which is stable). -/
def insertEntry (k : Str) (j : Json) : List (Str × Json) → List (Str × Json)
  | [] => [(k, j)]
  | (k', j') :: kvs => if strLt k' k then (k', j') :: insertEntry k j kvs else (k, j) :: (k', j') :: kvs

mutual
/-- `sort_keys=True`: the entries of every dictionary in the order of their keys (CPython
`json.encoder._make_iterencode`, used at snuba_sdk/request.py:127). -/
def Json.sorted : Json → Json
  | .arr xs => .arr (sortedList xs)
  | .obj kvs => .obj (sortedEntries kvs)
  | j => j

/-- `sort_keys=True` inside the items (CPython `json.encoder._make_iterencode`, used at snuba_sdk/request.py:127). -/
def sortedList : List Json → List Json
  | [] => []
  | x :: xs => x.sorted :: sortedList xs

/-- `sorted(dct.items())`, and the same inside the values (CPython `json.encoder._make_iterencode`, used at
snuba_sdk/request.py:127). -/
def sortedEntries : List (Str × Json) → List (Str × Json)
  | [] => []
  | (k, x) :: xs => insertEntry k x.sorted (sortedEntries xs)
end

/-- `json.dumps(obj)` (snuba_sdk/request.py:114, 119). -/
def jsonDumps (d : Data) : Except Err Str := do
  let j ← d.toJson
  .ok (encodeJson false 0 j)

/-- `json.dumps(obj, sort_keys=True, indent=4 * " ")` (snuba_sdk/request.py:127). -/
def jsonDumpsPretty (d : Data) : Except Err Str := do
  let j ← d.toJson
  .ok (encodeJson true 0 j.sorted)

end Verif
