/-!
# Python strings

`Str` models Python's `str` as a list of Unicode scalar values.  Simplification: Python
strings may also hold lone surrogates, which `Char` cannot represent.
-/

namespace Verif

/-- Python `str` (language built-in; no lone surrogates). -/
abbrev Str := List Char

open Lean in
/-- `c!"abc"` is the character list `['a', 'b', 'c']` (notation only). -/
macro:max "c!" s:str : term => do
  let cs := s.getString.toList
  let es : Array (TSyntax `term) := (cs.map (fun c => ⟨(Syntax.mkCharLit c).raw⟩)).toArray
  `(([$es,*] : List Char))

/-- `sep.join(parts)` (Python built-in, used e.g. at snuba_sdk/visitors.py:182). -/
def joinWith (sep : Str) : List Str → Str
  | [] => []
  | [p] => p
  | p :: q :: ps => p ++ sep ++ joinWith sep (q :: ps)

/-- `s.replace(c, t)` for a one-character pattern `c`
(Python built-in, used at snuba_sdk/visitors.py:158-160). -/
def replaceChar (c : Char) (t : Str) (s : Str) : Str :=
  s.flatMap fun x => if x = c then t else [x]

/-- The decimal digit character of `d < 10` (Python built-in `str(int)`). -/
def digitChar (d : Nat) : Char := Char.ofNat (48 + d)

/-- `str(n)` for a natural number with explicit fuel (Python built-in `str(int)`). -/
def natStrAux : Nat → Nat → Str
  | 0, _ => []
  | f + 1, n => if n < 10 then [digitChar n] else natStrAux f (n / 10) ++ [digitChar (n % 10)]

/-- `str(n)` for `n ≥ 0` (Python built-in). -/
def natStr (n : Nat) : Str := natStrAux (n + 1) n

/-- `str(i)` / `f"{i}"` / `f"{i:d}"` for an int (Python built-in; visitors.py:165, 241). -/
def intStr : Int → Str
  | .ofNat n => natStr n
  | .negSucc n => '-' :: natStr (n + 1)

/-- `f"{n:0{w}d}"`: zero padded decimal (Python built-in, used by `isoformat`). -/
def padNat (w n : Nat) : Str :=
  let s := natStr n
  List.replicate (w - s.length) '0' ++ s

/-- ASCII letters (`[a-zA-Z]`). -/
def isAlpha (c : Char) : Bool := ('a' ≤ c && c ≤ 'z') || ('A' ≤ c && c ≤ 'Z')

/-- ASCII digits (`[0-9]`). -/
def isDigit (c : Char) : Bool := '0' ≤ c && c ≤ '9'

/-- Whitespace in the sense of `str.isspace` / `re` `\s` on `str` / `str.strip()` (CPython
`_PyUnicode_IsWhitespace`; the complete table). -/
def isSpace (c : Char) : Bool :=
  let n := c.toNat
  (9 ≤ n && n ≤ 13) || (28 ≤ n && n ≤ 32) || n == 0x85 || n == 0xa0 || n == 0x1680 ||
  (0x2000 ≤ n && n ≤ 0x200a) || n == 0x2028 || n == 0x2029 || n == 0x202f || n == 0x205f ||
  n == 0x3000

/-- `s.lstrip()` with a character class. -/
def lstripP (p : Char → Bool) (s : Str) : Str := s.dropWhile p

/-- `s.rstrip()` with a character class. -/
def rstripP (p : Char → Bool) (s : Str) : Str := (s.reverse.dropWhile p).reverse

/-- `s.strip(chars)` where `p` is membership in `chars`; `s.strip()` for `p = isSpace`
(Python built-in; snuba_sdk/mql/mql.py:130, column.py:63, legacy.py:121). -/
def stripP (p : Char → Bool) (s : Str) : Str := rstripP p (lstripP p s)

/-- `s.split(c, 1)` when `c` occurs: text before and after the first `c`
(Python built-in; column.py:62). -/
def splitOnce (c : Char) : Str → Option (Str × Str)
  | [] => none
  | x :: xs => if x = c then some ([], xs) else (splitOnce c xs).map fun (a, b) => (x :: a, b)

/-- `sub in s` for strings (Python built-in; snuba.py:120). -/
def isInfix (sub : Str) : Str → Bool
  | [] => sub.isEmpty
  | s@(_ :: xs) => sub.isPrefixOf s || isInfix sub xs

/-- `s.endswith(t)` (Python built-in; legacy.py:105, 117). -/
def endsWith (s t : Str) : Bool := t.reverse.isPrefixOf s.reverse

/-- `s.startswith(t)` (Python built-in; legacy.py:105). -/
def startsWith (s t : Str) : Bool := t.isPrefixOf s

/-- `s[1:-1]` (Python slice; legacy.py:106, mql.py:369). -/
def slice1m1 (s : Str) : Str := (s.drop 1).dropLast

end Verif
