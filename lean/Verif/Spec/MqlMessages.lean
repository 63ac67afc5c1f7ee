import Verif.Spec.MqlErrors
import Verif.Spec.MqlMeaning
import Verif.Model.Messages
import Verif.Model.MqlVisitor

/-!
# Specification: what the MQL parser says about a text it refuses

The causes are patterns of the text, except for the syntax error, which is the failure of the grammar to match.
-/

namespace Verif.Spec

/-- Characters of keys and of the names of variables. -/
def VariableName (k : Str) : Prop := k ≠ [] ∧ ∀ c ∈ k, (isAlpha c || isDigit c || c == '_' || c == '.') = true

/-- Somewhere in the text there is a variable: a dollar sign and a name. -/
def VariableIn (text : Str) : Prop := ∃ pre k post, text = pre ++ '$' :: (k ++ post) ∧ VariableName k

/-- Somewhere in the text there is a minus sign directly in front of a string in quotes. -/
def NegatedStringIn (text : Str) : Prop := ∃ pre q post, text = pre ++ '-' :: (q ++ post) ∧ QuotesText q

section
variable [S : RegexSpace]

/-- Somewhere in the text a function without parameters is called, and its first argument is a metric without an aggregate. It is
not simply an aggregate of a metric like `sum(a)`: there are other arguments, or blanks behind it, or the argument is not written as a
metric with filters and columns. -/
def BareCallIn (text : Str) : Prop :=
  ∃ pre n w t w' as post s, text = pre ++ (n ++ '(' :: (w ++ (t ++ (w' ++ (argsText as ++ ')' :: post))))) ∧ CallName n ∧
    Blanks w ∧ Means .sum t (.ts s) ∧ ¬ Aggregated (.ts s) ∧ Blanks w' ∧
    (∀ a ∈ as, Blanks a.gap ∧ Blanks a.before ∧ Means .sum a.text a.value) ∧
    (w' = [] → as = [] → ∀ o fs gs, ¬ InnerText t o fs gs)

/-- The grammar matches the text without the blanks around it, to its end. -/
def GrammarMatches (text : Str) : Prop := ∃ n nd, pegRun mqlGrammar n (.rule .expression) (stripP isSpace text) = .ok nd []

/-- What the parser may raise for a text: the class of the exception, its message, and what is wrong with the text. -/
inductive MqlFault (text : Str) : Raised → Prop
  | grammar : ¬ GrammarMatches text → MqlFault text (.invalidMQL, some c!"Invalid metrics syntax")
  | variable_ : GrammarMatches text → VariableIn text → MqlFault text (.invalidMQL, some c!"Variables are not supported yet")
  | negation : GrammarMatches text → NegatedStringIn text →
    MqlFault text (.invalidMQL, some c!"Unary expression not supported for type <class 'str'>")
  | call : GrammarMatches text → BareCallIn text →
    MqlFault text (.invalidMQL, some c!"Cannot use arbitrary functions on a Timeseries without an aggregate")
  | column (pre k post) : GrammarMatches text → text = pre ++ (k ++ post) → BadKey k →
    MqlFault text (.invalidColumn, some (c!"column '" ++ k ++ c!"' is empty or contains invalid characters"))
  | scalar : GrammarMatches text → OnlyScalar text ∨ ScalarInParens text → MqlFault text (.assertion, none)

end

end Verif.Spec
