import Verif.Spec.MqlText

/-!
# How filters are written, and how chains of them are to be read

Written without reference to the rules of the grammar and to the visitor.
-/

namespace Verif

namespace Spec

/-- Split a chain at the links marked `true`. -/
def groups {α : Type} (x : α) : List (Bool × α) → List (List α)
  | [] => [[x]]
  | (true, y) :: ls => [x] :: groups y ls
  | (false, y) :: ls =>
    match groups y ls with
    | [] => [[x]]
    | g :: gs => (x :: g) :: gs

/-- The conjunction of conditions; one condition stands for itself. -/
def conj : List Val → Val
  | [v] => v
  | vs => .boolCond .and .and .list vs

/-- The disjunction of conditions; one condition stands for itself. -/
def disj : List Val → Val
  | [v] => v
  | vs => .boolCond .or .or .list vs

/-- A disjunction of conjunctions. -/
def orOfAnds (x : Val) (ls : List (Bool × Val)) : Val := disj ((groups x ls).map conj)

/-- A link of a chain of filters: how it is joined to what is before, whether the joint means "or", the text of the
filter and its value. -/
structure FilterLink where
  joint : Str
  isOr : Bool
  text : Str
  value : Val

/-- The text of a chain. -/
def filterChain (t : Str) (ls : List FilterLink) : Str := t ++ ls.flatMap fun l => l.joint ++ l.text

/-- The kinds of values in filters. -/
inductive ValueKind where
  | text | pattern | list
  deriving DecidableEq

/-- The operator of a filter. -/
def compareOp : Bool → ValueKind → Op
  | false, .text => .eq
  | true, .text => .neq
  | false, .pattern => .like
  | true, .pattern => .notLike
  | false, .list => .in_
  | true, .list => .notIn

end Spec

section
variable [S : RegexSpace]

open Spec

/-- Blanks. -/
def Blanks (w : Str) : Prop := ∀ c ∈ w, S.isSpace c = true

/-- The key of a filter: letters, digits, underscores and points, a letter or underscore first. -/
structure KeyText (k : Str) : Prop where
  ne : k ≠ []
  chars : ∀ c ∈ k, (isAlpha c || isDigit c || c == '_' || c == '.') = true
  head : ∀ c ∈ k.head?, (isAlpha c || c == '_') = true

/-- The column that a key denotes. -/
def keyColumn (k : Str) : Val := .column ⟨k, none, none, none⟩

/-- A string without backslashes and newlines. -/
def SafeText (s : Str) : Prop := '\\' ∉ s ∧ '\n' ∉ s

/-- A string in quotes; the quotes in it are written with a backslash. -/
def quoteText (s : Str) : Str := '"' :: (s.flatMap (fun c => if c = '"' then ['\\', '"'] else [c]) ++ ['"'])

/-- A string that can be written without quotes. -/
def BareText (u : Str) : Prop := u ≠ [] ∧ ∀ c ∈ u, c ∉ c!",[]\"}{()*" ∧ S.isSpace c = false

/-- A string, with or without quotes. -/
inductive ItemText : Str → Str → Prop
  | quoted {s : Str} (h : SafeText s) : ItemText (quoteText s) s
  | bare {u : Str} (h : BareText u) : ItemText u u

/-- The rest of a list: more items, then the closing bracket. -/
inductive ItemsText : Str → List Str → Prop
  | nil {w : Str} (hw : Blanks w) : ItemsText (w ++ [']']) []
  | cons {w w' t r s : Str} {ss : List Str} (hw : Blanks w) (hw' : Blanks w') (ht : ItemText t s) (hr : ItemsText r ss) :
      ItemsText (w ++ ',' :: (w' ++ (t ++ r))) (s :: ss)

/-- The value of a filter. A string that ends in a star (and could otherwise be written without quotes) is a pattern,
with or without quotes. -/
inductive FilterValueText : Str → ValueKind → Val → Prop
  | quoted {s : Str} (h : SafeText s) (hp : ∀ u, BareText u → s ≠ u ++ ['*']) : FilterValueText (quoteText s) .text (.str s)
  | bare {u : Str} (h : BareText u) : FilterValueText u .text (.str u)
  | quotedPattern {u : Str} (h : BareText u) : FilterValueText (quoteText (u ++ ['*'])) .pattern (.str (u ++ ['*']))
  | pattern {u : Str} (h : BareText u) : FilterValueText (u ++ ['*']) .pattern (.str (u ++ ['*']))
  | list {w t r s : Str} {ss : List Str} (hw : Blanks w) (ht : ItemText t s) (hr : ItemsText r ss) :
      FilterValueText ('[' :: (w ++ (t ++ r))) .list (.list ((s :: ss).map .str))

/-- How filters are joined; the second argument tells whether the joint means "or", the third is the text of the filter
after the joint. Blanks alone join filters only if the next filter does not begin with the word itself. -/
inductive JointText : Str → Bool → Str → Prop
  | and {w w' word next : Str} (hw : Blanks w) (hne : w ≠ []) (hword : word = c!"AND" ∨ word = c!"and") (hw' : Blanks w') :
      JointText (w ++ (word ++ w')) false next
  | comma {w w' next : Str} (hw : Blanks w) (hw' : Blanks w') : JointText (w ++ ',' :: w') false next
  | blank {w next : Str} (hw : Blanks w) (hne : w ≠ []) (h1 : ¬ c!"AND" <+: next) (h2 : ¬ c!"and" <+: next) :
      JointText w false next
  | or {w w' word next : Str} (hw : Blanks w) (hne : w ≠ []) (hword : word = c!"OR" ∨ word = c!"or") (hw' : Blanks w')
      (hne' : w' ≠ []) : JointText (w ++ (word ++ w')) true next

/-- A filter and its value: a comparison `key: value` or `!key: value`, or a chain in parentheses. -/
inductive FilterText : Str → Val → Prop
  | compare {neg : Bool} {k w w' t : Str} {kind : ValueKind} {v : Val} (hk : KeyText k) (hw : Blanks w) (hw' : Blanks w')
      (ht : FilterValueText t kind v) :
      FilterText ((if neg then ['!'] else []) ++ (k ++ (w ++ ':' :: (w' ++ t)))) (.cond (keyColumn k) (compareOp neg kind) v)
  | group {w w' t : Str} {v : Val} {ls : List FilterLink} (hw : Blanks w) (hw' : Blanks w') (h : FilterText t v)
      (hl : ∀ l ∈ ls, FilterText l.text l.value) (hj : ∀ l ∈ ls, JointText l.joint l.isOr l.text) :
      FilterText ('(' :: (w ++ (filterChain t ls ++ (w' ++ [')'])))) (orOfAnds v (ls.map fun l => (l.isOr, l.value)))

end

end Verif
