import Verif.Py.Str

/-!
# Regular expressions with Python's backtracking semantics

`Regex.run r s` lists, in the order in which Python's `re` engine tries them, the rests of the
input after the possible matches of `r` at the start of `s`.  `re.match` succeeds iff the list is
non-empty and its first element is the rest after the match it returns.
Only the constructs used in the SDK are present. -/

namespace Verif

/-- Regex syntax (the subset of Python `re` used in the SDK). -/
inductive Regex where
  | eps                                 -- empty
  | cls (p : Char → Bool)               -- one character of a class
  | seq (a b : Regex)                   -- a b
  | alt (a b : Regex)                   -- a | b
  | star (a : Regex)                    -- greedy a*
  | eol                                 -- `$`: at the end, or before a newline that ends the text

/-- Greedy iteration of a matcher; each round must consume something. The fuel is an upper
bound of the number of rounds (the length of the input always suffices). -/
def starRun (f : Str → List Str) : Nat → Str → List Str
  | 0, s => [s]
  | n + 1, s => ((f s).filter fun t => t.length < s.length).flatMap (starRun f n) ++ [s]

/-- Python's `$` without `re.MULTILINE`. -/
def atEol (s : Str) : Bool := s == [] || s == ['\n']

/-- Backtracking matcher (Python built-in `re`); all rests in priority order. -/
def Regex.run : Regex → Str → List Str
  | .eps, s => [s]
  | .cls p, s => match s with
    | [] => []
    | c :: cs => if p c then [cs] else []
  | .seq a b, s => (a.run s).flatMap b.run
  | .alt a b, s => a.run s ++ b.run s
  | .star a, s => starRun a.run s.length s
  | .eol, s => if atEol s then [s] else []

/-- Truth value of `pattern.match(s)`. -/
def Regex.matches (r : Regex) (s : Str) : Bool := !(r.run s).isEmpty

/-- `a+` is `a a*`. -/
def Regex.plus (a : Regex) : Regex := .seq a (.star a)

/-- `a?` is greedy. -/
def Regex.opt (a : Regex) : Regex := .alt a .eps

/-- A literal character. -/
def Regex.chr (c : Char) : Regex := .cls (· == c)

end Verif
