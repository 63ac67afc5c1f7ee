import Verif.Spec.MqlRoundTrip
import Verif.Spec.Part
import Verif.Spec.Formula

/-!
# Specification: what becomes of a parsed query when it is printed and parsed again

Written without reference to the printer, to the rules of the grammar and to the visitor.
-/

namespace Verif.Spec

/-- Several filters become one, their conjunction. -/
def joinFilters : Val → Val
  | .list (f :: g :: fs) => .list [.boolCond .and .and .list (f :: g :: fs)]
  | v => v

/-- An empty list of parameters becomes no list. -/
def dropEmpty : Val → Val
  | .list [] => .none
  | v => v

mutual
/-- The query with the filters of each part joined, and without empty lists of parameters. -/
def settle : MVal → MVal
  | .ts t => .ts { t with aggregateParams := dropEmpty t.aggregateParams, filters := joinFilters t.filters }
  | .formula n p a f g => .formula n (settle p) (dropEmpty a) (joinFilters f) g
  | .list xs => .list (settleAll xs)
  | x => x

/-- The same for each of several. -/
def settleAll : List MVal → List MVal
  | [] => []
  | x :: xs => settle x :: settleAll xs
end

/-- Nothing in the part has to be settled: it has at most one filter, and no empty list of parameters. -/
inductive IsSettled : MVal → Prop
  | ts (t : TimeseriesObj) : t.aggregateParams ≠ .list [] → (∀ f g fs, t.filters ≠ .list (f :: g :: fs)) → IsSettled (.ts t)
  | formula (n p a f g) : a ≠ .list [] → (∀ x y xs, f ≠ .list (x :: y :: xs)) → IsSettled (.formula n p a f g)
  | value (v : Val) : IsSettled (.val v)

section
variable [S : RegexSpace]

/-- There is no backslash and no line break in the strings of the filters. -/
def SafeStrings (v : Val) : Prop := ∀ s, Part (.str s) v → SafeText s

/-- The strings among the parameters are without backslashes and line breaks. -/
def QuotedParams (v : Val) : Prop := ∀ xs, v = .list xs → ∀ s, .str s ∈ xs → SafeText s

/-- The strings among the parameters need no quotes: formulas are printed without them. -/
def BareParams (v : Val) : Prop :=
  ∀ xs, v = .list xs → ∀ s, .str s ∈ xs → BareText s ∧ ∀ c ∈ s.head?, isDigit c = false

/-- No parameters. -/
def NoParams (v : Val) : Prop := v = .none ∨ v = .list []

/-- A part of a query that is printed in such a way that it can be read again.
- The MRI needs no backticks; they are not printed.
- Numbers are written without exponents, which MQL does not know.
- Strings in filters and in parameters of aggregates are without backslashes and line breaks; parameters of formulas that are
strings need no quotes; and strings are no operands.
- The negation has no filters and columns of its own; they would be read as those of its operand.
- Functions that have the name of an operator have as many operands as the operator and no parameters: they are printed as
operators. -/
inductive Survives : MVal → Prop
  | number (f : PyFloat) : PlainFloat f → Survives (.val (.float f))
  | ts (t : TimeseriesObj) :
      (∀ m, t.metric.mri = .str m → (∀ x ∈ m, x ∉ mriStops) ∧ ∀ c ∈ m.head?, S.isSpace c = false) →
      PlainParams t.aggregateParams → QuotedParams t.aggregateParams → SafeStrings t.filters → Survives (.ts t)
  | operator (op : Arith) (x y : MVal) (a f g : Val) : NoParams a → SafeStrings f →
      Survives (.formula (.str op.name) (.list [x, y]) a f g)
  | negation (x : MVal) (a : Val) : NoParams a → IsQuery x → Survives (.formula (.str c!"negate") (.list [x]) a .none .none)
  | function (n : Str) (xs : List MVal) (a f g : Val) : (∀ op : Arith, n ≠ op.name) → n ≠ c!"negate" → PlainParams a → BareParams a →
      SafeStrings f → Survives (.formula (.str n) (.list xs) a f g)

end

end Verif.Spec
