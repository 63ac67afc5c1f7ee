import Verif.Spec.Decimal
import Verif.Spec.Date
import Verif.Spec.Literal
import Verif.Model.Val

/-!
# Specification: reading scalar literals

A reader of SnQL scalar texts. It is written from the syntax of literals, not from the printer.
-/

namespace Verif.Spec

/-- The scalar values that keep their identity in SnQL: all plain scalars but bytes (which are printed as
strings) and datetimes with a timezone (which are printed as UTC). -/
inductive Pure : Val → Prop
  | none : Pure .none
  | bool (b : Bool) : Pure (.bool b)
  | int (i : Int) : Pure (.int i)
  | float (f : PyFloat) : Pure (.float f)
  | str (s : Str) : Pure (.str s)
  | date (d : Date) : Pure (.date d)
  | datetime (t : Datetime) : t.tz = none → Pure (.datetime t)
  | list (xs : List Val) : (∀ x ∈ xs, Pure x) → Pure (.list xs)
  | tuple (xs : List Val) : (∀ x ∈ xs, Pure x) → Pure (.tuple xs)

/-- A decimal digit. -/
def digit (c : Char) : Bool := '0' ≤ c ∧ c ≤ '9'

/-- Nothing, or `e`, a sign and digits. -/
def readExponent : Str → Option Int
  | [] => some 0
  | 'e' :: '+' :: ds => if ds ≠ [] ∧ ds.all digit then some (numeral ds) else none
  | 'e' :: '-' :: ds => if ds ≠ [] ∧ ds.all digit then some (-(numeral ds : Int)) else none
  | _ => none

/-- An unsigned number: an int if it is all digits, otherwise the float nearest to the decimal. -/
def readNumber (neg : Bool) (s : Str) : Option Val :=
  let i := s.takeWhile digit
  if i = [] then none
  else match s.dropWhile digit with
    | [] => some (.int (if neg then -(numeral i : Int) else numeral i))
    | '.' :: r =>
      let f := r.takeWhile digit
      if f = [] then none
      else (readExponent (r.dropWhile digit)).map fun x => .float (ofDecimal neg (numeral (i ++ f)) (x - f.length))
    | r => (readExponent r).map fun x => .float (ofDecimal neg (numeral i) x)

/-- A word or a number. -/
def readToken (t : Str) : Option Val :=
  if t = c!"NULL" then some .none
  else if t = c!"TRUE" then some (.bool true)
  else if t = c!"FALSE" then some (.bool false)
  else if t = c!"nan" then some (.float .nan)
  else if t = c!"inf" then some (.float (.inf false))
  else if t = c!"-inf" then some (.float (.inf true))
  else match t with
    | '-' :: r => readNumber true r
    | r => readNumber false r

/-- A date, or a date and a time, up to `')`. -/
def readMoment (s : Str) : Option (Val × Str) := do
  let ((y, m, d), s) ← readDate s
  if h : dateOk y m d = true then
    match readText c!"T" s with
    | none => do
      let s ← readText c!"')" s
      some (.date ⟨y, m, d, h⟩, s)
    | some s => do
      let ((hh, mi, sec, us), s) ← readTime s
      let s ← readText c!"')" s
      if h' : timeOk hh mi sec us none = true then
        some (.datetime ⟨⟨y, m, d, h⟩, hh, mi, sec, us, none, h'⟩, s)
      else none
  else none

/-- A scalar that is not a sequence. -/
def readAtom (s : Str) : Option (Val × Str) :=
  match readText c!"toDateTime('" s with
  | some r => readMoment r
  | none =>
    match readQuoted '\'' s with
    | some (t, r) => some (.str t, r)
    | none => (readToken (s.takeWhile fun c => c != ',' && c != ')')).map
        fun v => (v, s.dropWhile fun c => c != ',' && c != ')')

mutual
/-- A scalar at the beginning of a text, and the rest. -/
def readValue : Nat → Str → Option (Val × Str)
  | 0, _ => none
  | f + 1, s =>
    match readText c!"array(" s with
    | some r => (readItems f r).map fun p => (.list p.1, p.2)
    | none =>
      match readText c!"tuple(" s with
      | some r => (readItems f r).map fun p => (.tuple p.1, p.2)
      | none => readAtom s

/-- Items up to the closing parenthesis. -/
def readItems : Nat → Str → Option (List Val × Str)
  | 0, _ => none
  | f + 1, s =>
    match readText c!")" s with
    | some r => some ([], r)
    | none => do
      let (v, s) ← readValue f s
      let (vs, s) ← moreItems f s
      some (v :: vs, s)

/-- Further items, each after a comma. -/
def moreItems : Nat → Str → Option (List Val × Str)
  | 0, _ => none
  | f + 1, s =>
    match readText c!")" s with
    | some r => some ([], r)
    | none => do
      let s ← readText c!", " s
      let (v, s) ← readValue f s
      let (vs, s) ← moreItems f s
      some (v :: vs, s)
end

/-- Read a whole text as a scalar. (The number bounds the depth of recursion; a text of `n` characters needs less.) -/
def readScalar (s : Str) : Option Val :=
  match readValue (2 * s.length + 2) s with
  | some (v, []) => some v
  | _ => none

end Verif.Spec
