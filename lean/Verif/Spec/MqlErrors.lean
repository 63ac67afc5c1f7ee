import Verif.Spec.MqlFilterText

/-!
# Specification: texts on which the MQL parser fails with something else than its own error

Written as patterns of the text, without reference to the grammar and to the visitor.
-/

namespace Verif.Spec

/-- A number without a sign: digits, perhaps with a point and digits. -/
def DigitsText (t : Str) : Prop :=
  ∃ a f, a ≠ [] ∧ (∀ c ∈ a, isDigit c = true) ∧ (∀ c ∈ f, isDigit c = true) ∧ (t = a ∨ f ≠ [] ∧ t = a ++ '.' :: f)

/-- What may stand between quotes: a quote or a backslash only after a backslash, and no newline after a backslash. -/
inductive QuotedInner : Str → Prop
  | nil : QuotedInner []
  | plain (c u) : c ≠ '"' → c ≠ '\\' → QuotedInner u → QuotedInner (c :: u)
  | escaped (c u) : c ≠ '\n' → QuotedInner u → QuotedInner ('\\' :: c :: u)

/-- A string in quotes. -/
def QuotesText (t : Str) : Prop := ∃ u, t = '"' :: (u ++ ['"']) ∧ QuotedInner u

/-- A number, perhaps with a minus sign, or a string in quotes. -/
def ScalarText (t : Str) : Prop := DigitsText t ∨ (∃ u, t = '-' :: u ∧ DigitsText u) ∨ QuotesText t

/-- The text without the blanks around it is a number or a string. -/
def OnlyScalar (text : Str) : Prop :=
  ∃ a t b, text = a ++ (t ++ b) ∧ (∀ c ∈ a, isSpace c = true) ∧ (∀ c ∈ b, isSpace c = true) ∧ ScalarText t

/-- A key that no column can have as its name: letters, digits, underscores and points, but a digit or a point first. -/
structure BadKey (k : Str) : Prop where
  chars : ∀ c ∈ k, (isAlpha c || isDigit c || c == '_' || c == '.') = true
  head : ∃ c u, k = c :: u ∧ (isDigit c = true ∨ c = '.')

section
variable [S : RegexSpace]

/-- Somewhere in the text there are parentheses around a number or a string. -/
def ScalarInParens (text : Str) : Prop :=
  ∃ pre w t w' post, text = pre ++ '(' :: (w ++ (t ++ (w' ++ ')' :: post))) ∧ Blanks w ∧ Blanks w' ∧ ScalarText t

/-- Somewhere in the text there is a bad key where a key belongs: in front of a colon, after the word `by`, or in a list
after a parenthesis or a comma. -/
def BadKeyIn (text : Str) : Prop :=
  ∃ pre k post, text = pre ++ (k ++ post) ∧ BadKey k ∧
    ((∃ w r, post = w ++ ':' :: r ∧ Blanks w) ∨
      ∃ p w, Blanks w ∧ (pre = p ++ (c!"by" ++ w) ∨ pre = p ++ '(' :: w ∨ pre = p ++ ',' :: w))

end

end Verif.Spec
