import Verif.Model.Metrics
import Verif.Model.MqlGrammar
import Verif.Spec.MqlArith
import Verif.Spec.Decimal

/-!
# How the parts of MQL are written

Written without reference to the rules of the grammar; of the model of the grammar only the class of blanks is used.
-/

namespace Verif

section
variable [S : RegexSpace]

/-- A number: digits, and perhaps a point and digits; its value is the nearest float. -/
def NumText (t : Str) (x : PyFloat) : Prop :=
  ∃ a f, a ≠ [] ∧ (∀ c ∈ a, isDigit c = true) ∧ (∀ c ∈ f, isDigit c = true) ∧ (t = a ∧ f = [] ∨ f ≠ [] ∧ t = a ++ '.' :: f) ∧
    x = ofDecimal false (Spec.numeral (a ++ f)) (-(f.length : Int))

/-- The name of a function: letters, digits and underscores, and no digit first. -/
structure NameText (n : Str) : Prop where
  ne : n ≠ []
  chars : ∀ c ∈ n, (isAlpha c || isDigit c || c == '_') = true
  head : ∀ c ∈ n.head?, isDigit c = false

/-- The characters that an MRI without backticks cannot contain. -/
def mriStops : Str := c!"(){}[]\"`,"

/-- An MRI that needs no backticks: `a:b/c@d`. -/
def MriText (m : Str) : Prop :=
  ∃ a b c d, m = a ++ ':' :: (b ++ '/' :: (c ++ '@' :: d)) ∧ a ≠ [] ∧ b ≠ [] ∧ c ≠ [] ∧ d ≠ [] ∧
    ':' ∉ a ∧ '/' ∉ b ∧ '@' ∉ c ∧ ∀ x ∈ m, x ∉ mriStops

/-- A lower-case word. -/
def WordText (w : Str) : Prop := w ≠ [] ∧ ∀ x ∈ w, ('a' ≤ x && x ≤ 'z' || x == '_') = true

/-- A public name that needs no backticks: lower-case words joined by points. -/
def PublicText (m : Str) : Prop :=
  ∃ a, ∃ rest : List Str, m = a ++ rest.flatMap (fun w => '.' :: w) ∧ WordText a ∧ ∀ w ∈ rest, WordText w

/-- The metric that a text denotes. -/
inductive MetricText : Str → MetricObj → Prop
  | mri {m : Str} (h : MriText m) (hs : ∀ c ∈ m.head?, S.isSpace c = false) : MetricText m ⟨.none, .str m, .none⟩
  | pub {m : Str} (h : PublicText m) : MetricText m ⟨.str m, .none, .none⟩

end

end Verif
