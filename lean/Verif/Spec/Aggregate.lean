import Verif.Model.Val

/-!
# Specification: calls inside names and functions inside functions
-/

namespace Verif.Spec

/-- A character of a word: a letter or an underscore. -/
def WordChar (c : Char) : Prop := ('a' ≤ c ∧ c ≤ 'z') ∨ ('A' ≤ c ∧ c ≤ 'Z') ∨ c = '_'

/-- The word `w` stands directly before an opening bracket in `s`, and cannot be extended to the left. -/
def CallIn (w s : Str) : Prop :=
  ∃ before after, s = before ++ w ++ '(' :: after ∧ w ≠ [] ∧ (∀ c ∈ w, WordChar c) ∧
    ∀ c, before.getLast? = some c → ¬ WordChar c

/-- `g` is the function `f`, or a parameter of a function found there, to any depth. -/
inductive FnIn : Val → Val → Prop
  | self (f : Val) : FnIn f f
  | param {f : Val} {isFn name ik inits pk params nm} {p : Val} : FnIn f (.curried isFn name ik inits pk params nm) →
      p ∈ params → p.isCurried = true → FnIn f p

/-- The function named `name` with parameters `params` occurs in `f`. -/
def CallOf (f : Val) (name : Str) (params : List Val) : Prop :=
  ∃ isFn ik inits pk nm, FnIn f (.curried isFn name ik inits pk params nm)

/-- The aggregate functions by family: the beginning of the names, and how they end. -/
def aggregateFamilies : List (Str × List Str) :=
  [(c!"any", [c!"", c!"Heavy", c!"Last"]), (c!"apdex", [c!""]), (c!"arg", [c!"Max", c!"Min"]),
   (c!"avg", [c!"", c!"Weighted"]), (c!"categoricalInformationValue", [c!""]), (c!"count", [c!""]),
   (c!"covar", [c!"Pop", c!"Samp"]), (c!"failure_rate", [c!""]),
   (c!"group", [c!"Array", c!"ArrayInsertAt", c!"ArrayMovingAvg", c!"ArrayMovingSum", c!"BitAnd", c!"BitOr", c!"BitXor",
   c!"Bitmap", c!"BitmapAnd", c!"BitmapOr", c!"BitmapXor", c!"UniqArray"]),
   (c!"histogram", [c!""]), (c!"kurt", [c!"Pop", c!"Samp"]), (c!"max", [c!"", c!"Map"]), (c!"min", [c!"", c!"Map"]),
   (c!"quantile", [c!"", c!"s", c!"Deterministic", c!"Exact", c!"ExactHigh", c!"ExactLow", c!"ExactWeighted",
   c!"TDigest", c!"TDigestWeighted", c!"Timing", c!"TimingWeighted"]),
   (c!"retention", [c!""]), (c!"sequence", [c!"Count", c!"Match"]), (c!"simpleLinearRegression", [c!""]),
   (c!"skew", [c!"Pop", c!"Samp"]), (c!"stddev", [c!"Pop", c!"Samp"]),
   (c!"stochastic", [c!"LinearRegression", c!"LogisticRegression"]),
   (c!"sum", [c!"", c!"Map", c!"MapFiltered", c!"WithOverflow"]), (c!"topK", [c!"", c!"Weighted"]),
   (c!"uniq", [c!"", c!"Combined", c!"Combined64", c!"Exact", c!"HLL12", c!"UpTo"]), (c!"var", [c!"Pop", c!"Samp"]),
   (c!"windowFunnel", [c!""])]

/-- What may be added to the name of an aggregate function. -/
inductive Combinator : Str → Prop
  | none : Combinator []
  | if_ : Combinator c!"If"
  | array : Combinator c!"Array"
  | sampleState : Combinator c!"SampleState"
  | state : Combinator c!"State"
  | merge : Combinator c!"Merge"
  | mergeState : Combinator c!"MergeState"
  | forEach : Combinator c!"ForEach"
  | orDefault : Combinator c!"OrDefault"
  | orNull : Combinator c!"OrNull"
  | resample : Combinator c!"Resample"

/-- The names of aggregate functions. -/
def AggregateName (name : Str) : Prop :=
  ∃ stem endings, (stem, endings) ∈ aggregateFamilies ∧ ∃ ending ∈ endings, ∃ suffix, Combinator suffix ∧
    name = stem ++ ending ++ suffix

/-- The names taken for aggregates: without bracket, those of aggregate functions; with a bracket, the texts in which an aggregate
function is called, or in which an alias occurs. -/
def AggregateText (aliases : Option (List Str)) (name : Str) : Prop :=
  ('(' ∉ name ∧ AggregateName name) ∨
  ('(' ∈ name ∧ ((∃ w, AggregateName w ∧ CallIn w name) ∨
    ∃ al, aliases = some al ∧ ∃ a ∈ al, ∃ before after, name = before ++ a ++ after))

end Verif.Spec
