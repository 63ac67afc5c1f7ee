import Verif.Spec.Formula
import Verif.Spec.Built
import Verif.Spec.MqlReads

/-!
# Specification: what a parsed query may consist of
-/

namespace Verif.Spec

variable [U : PyUnicode]

/-- A column without an entity. -/
inductive BareColumn : Val → Prop
  | mk (c : ColumnObj) : c.entity = none → Built (.column c) → BareColumn (.column c)

/-- A condition made with the constructors of the SDK. -/
structure MadeCond (v : Val) : Prop where
  cond : Cond v
  built : Built v

/-- One part of a parsed query is well-formed: timeseries are valid, formulas have a list of parameters, and the
filters of both are conditions and the groupings columns without entities. Nothing is asked of objects of other classes. -/
inductive WellFormed : MVal → Prop
  | ts (t) : TimeseriesOk t → OptList MadeCond t.filters → OptList BareColumn t.groupby → WellFormed (.ts t)
  | formula (n xs a f g) : OptList MadeCond f → OptList BareColumn g → WellFormed (.formula n (.list xs) a f g)
  | other (x) : (∀ n ps a f g, x ≠ .formula n ps a f g) → (∀ t, x ≠ .ts t) → WellFormed x

/-- A float without a sign. -/
inductive NotNegative : PyFloat → Prop
  | fin (d : Dbl) : d.neg = false → NotNegative (.fin d)
  | inf : NotNegative (.inf false)

/-- A string or a float without a sign. -/
inductive PlainScalar : Val → Prop
  | str (s) : PlainScalar (.str s)
  | float (f) : NotNegative f → PlainScalar (.float f)

/-- Absent, or a list that is not empty, of such items. -/
inductive SomeList (P : Val → Prop) : Val → Prop
  | none : SomeList P .none
  | list (xs : List Val) : xs ≠ [] → (∀ x ∈ xs, P x) → SomeList P (.list xs)

/-- A column that has a name only. -/
inductive TagColumn : Val → Prop
  | mk (k : Str) : KeyText k → TagColumn (keyColumn k)

/-- An MRI, with or without backticks around it in the text: `a:b/c@d`, and no backtick in it. -/
def LooseMri (m : Str) : Prop :=
  ∃ a b c d, m = a ++ ':' :: (b ++ '/' :: (c ++ '@' :: d)) ∧ a ≠ [] ∧ b ≠ [] ∧ c ≠ [] ∧ d ≠ [] ∧
    ':' ∉ a ∧ '/' ∉ b ∧ '@' ∉ c ∧ '`' ∉ m

section
variable [S : RegexSpace]

/-- What can be written in braces: columns compared with a string, with a pattern `prefix*` or with a list of strings, joined by
`AND` and `OR`. A string compared for equality is no pattern. -/
inductive TagFilter : Val → Prop
  | text (k : Str) (o : Op) (s : Str) : KeyText k → (o = .eq ∨ o = .neq) → (∀ u, BareText u → s ≠ u ++ ['*']) →
      TagFilter (.cond (keyColumn k) o (.str s))
  | pattern (k : Str) (o : Op) (u : Str) : KeyText k → (o = .like ∨ o = .notLike) → BareText u →
      TagFilter (.cond (keyColumn k) o (.str (u ++ ['*'])))
  | many (k : Str) (o : Op) (ss : List Str) : KeyText k → (o = .in_ ∨ o = .notIn) → ss ≠ [] →
      TagFilter (.cond (keyColumn k) o (.list (ss.map .str)))
  | all (cs : List Val) : 2 ≤ cs.length → (∀ x ∈ cs, TagFilter x) → TagFilter (.boolCond .and .and .list cs)
  | any (cs : List Val) : 2 ≤ cs.length → (∀ x ∈ cs, TagFilter x) → TagFilter (.boolCond .or .or .list cs)

/-- One part of a parsed query, in full, with a condition on the names of functions: a timeseries of a metric with one name, two
operands joined by an arithmetic operator, the negation of a query, a function that is called, a number, or a string. -/
inductive PartWith (Name : Str → Prop) : MVal → Prop
  | ts (m : MetricObj) (s : Str) (a f g : Val) :
      ((∃ n, PublicText n ∧ m = ⟨.str n, .none, .none⟩) ∨ ∃ n, LooseMri n ∧ m = ⟨.none, .str n, .none⟩) → Name s →
      OptList PlainScalar a → SomeList TagFilter f → SomeList TagColumn g → PartWith Name (.ts ⟨m, .str s, a, f, g⟩)
  | arithmetic (op : Arith) (x y : MVal) (f g : Val) : SomeList TagFilter f → SomeList TagColumn g →
      PartWith Name (.formula (.str op.name) (.list [x, y]) .none f g)
  | negation (x : MVal) (f g : Val) : IsQuery x → SomeList TagFilter f → SomeList TagColumn g →
      PartWith Name (.formula (.str c!"negate") (.list [x]) .none f g)
  | call (n : Str) (x : MVal) (xs : List MVal) (a f g : Val) : Name n → Aggregated x → OptList PlainScalar a →
      SomeList TagFilter f → SomeList TagColumn g → PartWith Name (.formula (.str n) (.list (x :: xs)) a f g)
  | number (f : PyFloat) : f ≠ .nan → PartWith Name (.val (.float f))
  | text (s : Str) : PartWith Name (.val (.str s))

/-- One part of a parsed query. Functions are named by letters, digits and underscores, and no digit comes first. -/
abbrev ParsedPart : MVal → Prop := PartWith NameText

end

end Verif.Spec
