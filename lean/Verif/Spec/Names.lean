import Verif.Py.Unicode

/-!
# Specification of accepted names
-/

namespace Verif.Spec

/-- `s` is a text of the language `L`, or such a text followed by one newline (what Python's `$`
allows). -/
def OptNewline (L : Str → Prop) (s : Str) : Prop := L s ∨ ∃ b, L b ∧ s = b ++ ['\n']

section
variable [U : PyUnicode]

/-- `ident`: a letter or underscore followed by word characters and `. : / @`. -/
def ColIdent (s : Str) : Prop :=
  ∃ h u, s = h :: u ∧ (isAlpha h = true ∨ h = '_') ∧
    ∀ c ∈ u, U.isWord c = true ∨ c = '.' ∨ c = ':' ∨ c = '/' ∨ c = '@'

/-- `key`: no brackets. -/
def ColKey (s : Str) : Prop := '[' ∉ s ∧ ']' ∉ s

/-- `ident` or `ident[key]`. -/
def ColName (s : Str) : Prop :=
  ColIdent s ∨ ∃ i k, ColIdent i ∧ ColKey k ∧ s = i ++ '[' :: k ++ [']']

end

/-- Word of letters, digits, underscore not starting with a digit. -/
def IdentName (s : Str) : Prop :=
  ∃ h u, s = h :: u ∧ (isAlpha h = true ∨ h = '_') ∧
    ∀ c ∈ u, isAlpha c = true ∨ isDigit c = true ∨ c = '_'

/-- Non-empty word of letters and underscore. -/
def EntityName (s : Str) : Prop := s ≠ [] ∧ ∀ c ∈ s, isAlpha c = true ∨ c = '_'

/-- Alias text: ASCII letters, digits and `_ . + * / : - [ ] ( ) @`. -/
def AliasText (s : Str) : Prop :=
  ∀ c ∈ s, isAlpha c = true ∨ isDigit c = true ∨ c ∈ c!"_.+*/:-[]()@"

/-- Function name: a letter, then at least one word character or one of `( ) . , + ' " : [ ] -` or space. -/
def FunctionName [U : PyUnicode] (s : Str) : Prop :=
  ∃ h u, s = h :: u ∧ isAlpha h = true ∧ u ≠ [] ∧
    ∀ c ∈ u, U.isWord c = true ∨ c ∈ c!"().,+'\":[]- "

/-- A text that can be put between backticks and read as one word: no backtick, no quotes, no
backslash, no comma, no whitespace (in particular no newline). -/
def QuoteSafe (s : Str) : Prop :=
  ∀ c ∈ s, c ≠ '`' ∧ c ≠ '\'' ∧ c ≠ '"' ∧ c ≠ '\\' ∧ c ≠ ',' ∧ isSpace c = false

end Verif.Spec
