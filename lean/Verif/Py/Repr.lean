import Verif.Py.Json

/-!
# Python's `repr`

`repr(x)` as used at snuba_sdk/delete_query.py:51 (and, through f-strings, the texts of ints and floats).

Simplifications: keys of dictionaries are strings; no cyclic objects; no lone surrogates in strings; no limit on the digits of
ints.
-/

namespace Verif

/-- What `repr` does not take from its argument alone: which characters above `0x7e` are printable (`str.isprintable`, which depends
on the version of the Unicode tables), and the texts of objects other than `None`, bools, ints, floats, strings, lists, tuples
and dictionaries (Python built-in, used at snuba_sdk/delete_query.py:51). Nothing is assumed of either. -/
class PyShow where
  printable : Char → Bool
  object : Val → Str

/-- `f"{n:02x}"` (Python built-in, used by `repr` at snuba_sdk/delete_query.py:51). -/
def hexTwo (n : Nat) : Str := [hexChar (n / 16 % 16), hexChar (n % 16)]

/-- `f"{n:04x}"` (Python built-in, used by `repr` at snuba_sdk/delete_query.py:51). -/
def hexFour (n : Nat) : Str := hexTwo (n / 256) ++ hexTwo n

/-- One character of a string in the quotes `q` (CPython `unicode_repr`, used at snuba_sdk/delete_query.py:51): the quote
and backslashes are escaped, so are control characters and all that is not printable. -/
def reprChar [PyShow] (q c : Char) : Str :=
  if c = q ∨ c = '\\' then ['\\', c]
  else if c = '\t' then c!"\\t"
  else if c = '\n' then c!"\\n"
  else if c = '\r' then c!"\\r"
  else if c.toNat < 32 ∨ c.toNat = 127 then c!"\\x" ++ hexTwo c.toNat
  else if c.toNat < 127 ∨ PyShow.printable c = true then [c]
  else if c.toNat < 256 then c!"\\x" ++ hexTwo c.toNat
  else if c.toNat < 65536 then c!"\\u" ++ hexFour c.toNat
  else c!"\\U" ++ hexFour (c.toNat / 65536) ++ hexFour c.toNat

/-- The quotes of a string (CPython `unicode_repr`, used at snuba_sdk/delete_query.py:51): double ones if it has single
quotes and no double ones. -/
def reprQuote (s : Str) : Char := if '\'' ∈ s ∧ '"' ∉ s then '"' else '\''

/-- `repr` of a string (CPython `unicode_repr`, used at snuba_sdk/delete_query.py:51). -/
def reprStr [PyShow] (s : Str) : Str := [reprQuote s] ++ s.flatMap (reprChar (reprQuote s)) ++ [reprQuote s]

/-- `repr` of a bool (Python built-in, used at snuba_sdk/delete_query.py:51). -/
def reprBool (b : Bool) : Str := if b then c!"True" else c!"False"

/-- The text of a tuple with the given texts of items (CPython `tuplerepr`, used at snuba_sdk/delete_query.py:51): a
tuple of one item has a comma. -/
def reprTuple : List Str → Str
  | [t] => ['('] ++ t ++ c!",)"
  | ts => ['('] ++ joinWith c!", " ts ++ [')']

mutual
/-- `repr` of a value (Python built-in, used at snuba_sdk/delete_query.py:51). -/
def Val.repr [PyShow] : Val → Str
  | .none => c!"None"
  | .bool b => reprBool b
  | .int i => intStr i
  | .float f => f.repr
  | .str s => reprStr s
  | .list xs => ['['] ++ joinWith c!", " (reprVals xs) ++ [']']
  | .tuple xs => reprTuple (reprVals xs)
  | v => PyShow.object v

/-- The items of a sequence (Python built-in, used at snuba_sdk/delete_query.py:51). -/
def reprVals [PyShow] : List Val → List Str
  | [] => []
  | x :: xs => x.repr :: reprVals xs
end

mutual
/-- `repr` of a payload (Python built-in, used at snuba_sdk/delete_query.py:51). -/
def Data.repr [PyShow] : Data → Str
  | .val v => v.repr
  | .list xs => ['['] ++ joinWith c!", " (reprItems xs) ++ [']']
  | .dict kvs => ['{'] ++ joinWith c!", " (reprEntries kvs) ++ ['}']

/-- The items of a list (Python built-in, used at snuba_sdk/delete_query.py:51). -/
def reprItems [PyShow] : List Data → List Str
  | [] => []
  | x :: xs => x.repr :: reprItems xs

/-- The entries of a dictionary (Python built-in, used at snuba_sdk/delete_query.py:51). -/
def reprEntries [PyShow] : List (Str × Data) → List Str
  | [] => []
  | (k, x) :: xs => (reprStr k ++ c!": " ++ x.repr) :: reprEntries xs
end

end Verif
