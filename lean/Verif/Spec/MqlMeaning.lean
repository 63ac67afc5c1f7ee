import Verif.Spec.MqlResult

/-!
# Specification: the language MQL

Every text of the language with the query that it denotes, written without reference to the rules of the grammar and to the
visitor. `MqlReads.lean` describes texts that are read in one way only; here are all texts, also those in which a metric has no
aggregate. (Some of them have more than one meaning: what comes after an MRI without backticks may be taken as part of the MRI.)
-/

namespace Verif

namespace Spec

/-- What stands between quotes, and the string it denotes: a quote is written with a backslash in front of it; every other
backslash stands for itself, together with the character after it. -/
inductive Unescaped : Str → Str → Prop
  | nil : Unescaped [] []
  | plain {c : Char} {u s : Str} (h1 : c ≠ '"') (h2 : c ≠ '\\') (h : Unescaped u s) : Unescaped (c :: u) (c :: s)
  | quote {u s : Str} (h : Unescaped u s) : Unescaped ('\\' :: '"' :: u) ('"' :: s)
  | other {c : Char} {u s : Str} (h1 : c ≠ '"') (h2 : c ≠ '\n') (h : Unescaped u s) : Unescaped ('\\' :: c :: u) ('\\' :: c :: s)

/-- A string in quotes. -/
def QuotedMeans (t s : Str) : Prop := ∃ u, t = '"' :: (u ++ ['"']) ∧ Unescaped u s

/-- The name of a function: letters, digits and underscores. -/
def CallName (n : Str) : Prop := n ≠ [] ∧ ∀ c ∈ n, (isAlpha c || isDigit c || c == '_') = true

section
variable [S : RegexSpace]

/-- Items with commas between them. -/
inductive Listed {α : Type} (P : Str → α → Prop) : Str → List α → Prop
  | one {t : Str} {x : α} (h : P t x) : Listed P t [x]
  | cons {t w w' r : Str} {x : α} {xs : List α} (h : P t x) (hw : Blanks w) (hw' : Blanks w') (hr : Listed P r xs) :
      Listed P (t ++ (w ++ ',' :: (w' ++ r))) (x :: xs)

/-- A string in a list: with or without quotes. -/
inductive ItemMeans : Str → Str → Prop
  | quoted {t s : Str} (h : QuotedMeans t s) : ItemMeans t s
  | bare {u : Str} (h : BareText u) : ItemMeans u u

/-- The value of a filter: a string, a pattern `prefix*`, or a list of strings. A pattern remains one in quotes. -/
inductive ValueMeans : Str → ValueKind → Val → Prop
  | quoted {t s : Str} (h : QuotedMeans t s) (hp : ∀ u, BareText u → s ≠ u ++ ['*']) : ValueMeans t .text (.str s)
  | bare {u : Str} (h : BareText u) : ValueMeans u .text (.str u)
  | pattern {u : Str} (h : BareText u) : ValueMeans (u ++ ['*']) .pattern (.str (u ++ ['*']))
  | quotedPattern {u : Str} (h : BareText u) : ValueMeans ('"' :: (u ++ ['*', '"'])) .pattern (.str (u ++ ['*']))
  | list {w t w' : Str} {ss : List Str} (hw : Blanks w) (h : Listed ItemMeans t ss) (hw' : Blanks w') :
      ValueMeans ('[' :: (w ++ (t ++ (w' ++ [']'])))) .list (.list (ss.map .str))

/-- What joins filters that must all hold: the word, a comma, or nothing. -/
def AndWord (j : Str) : Prop := j = c!"AND" ∨ j = c!"and" ∨ j = c!"," ∨ j = []

/-- What joins filters of which one must hold. -/
def OrWord (j : Str) : Prop := j = c!"OR" ∨ j = c!"or"

/-- A filter with the joint in front of it. -/
structure Joined where
  before : Str
  joint : Str
  after : Str
  text : Str
  value : Val

/-- How it is written. -/
def Joined.written (j : Joined) : Str := j.before ++ (j.joint ++ (j.after ++ j.text))

/-- Single filters, filters that must all hold, and alternatives. -/
inductive FilterRank where
  | one | all | any

/-- Filters and their values: "and" binds tighter than "or". -/
inductive FilterMeans : FilterRank → Str → Val → Prop
  | compare {neg : Bool} {k w w' t : Str} {kind : ValueKind} {v : Val} (hk : KeyText k) (hw : Blanks w) (hw' : Blanks w')
      (ht : ValueMeans t kind v) :
      FilterMeans .one ((if neg then ['!'] else []) ++ (k ++ (w ++ ':' :: (w' ++ t)))) (.cond (keyColumn k) (compareOp neg kind) v)
  | group {w t w' : Str} {v : Val} (hw : Blanks w) (h : FilterMeans .any t v) (hw' : Blanks w') :
      FilterMeans .one ('(' :: (w ++ (t ++ (w' ++ [')'])))) v
  | all {t : Str} {v : Val} {js : List Joined} (h : FilterMeans .one t v) (hj : ∀ j ∈ js, FilterMeans .one j.text j.value)
      (hw : ∀ j ∈ js, Blanks j.before ∧ AndWord j.joint ∧ Blanks j.after) :
      FilterMeans .all (t ++ js.flatMap Joined.written) (conj (v :: js.map (·.value)))
  | any {t : Str} {v : Val} {js : List Joined} (h : FilterMeans .all t v) (hj : ∀ j ∈ js, FilterMeans .all j.text j.value)
      (hw : ∀ j ∈ js, Blanks j.before ∧ OrWord j.joint ∧ Blanks j.after) :
      FilterMeans .any (t ++ js.flatMap Joined.written) (disj (v :: js.map (·.value)))

/-- The filters of a query: none, `{}`, or a filter in braces. -/
inductive BlockMeans : Str → List Val → Prop
  | none : BlockMeans [] []
  | empty : BlockMeans c!"{}" []
  | some {w t w' : Str} {v : Val} (hw : Blanks w) (h : FilterMeans .any t v) (hw' : Blanks w') :
      BlockMeans ('{' :: (w ++ (t ++ (w' ++ ['}'])))) [v]

/-- A column to group by. -/
inductive KeyMeans : Str → Val → Prop
  | mk {k : Str} (h : KeyText k) : KeyMeans k (keyColumn k)

/-- The columns to group by: none, `by key`, or `by (key, …)`. -/
inductive GroupMeans : Str → List Val → Prop
  | none : GroupMeans [] []
  | one {w w' k : Str} {c : Val} (hw : Blanks w) (hw' : Blanks w') (hk : KeyMeans k c) : GroupMeans (w ++ (c!"by" ++ (w' ++ k))) [c]
  | many {w w' w1 t w2 : Str} {cs : List Val} (hw : Blanks w) (hw' : Blanks w') (hw1 : Blanks w1) (h : Listed KeyMeans t cs)
      (hw2 : Blanks w2) : GroupMeans (w ++ (c!"by" ++ (w' ++ '(' :: (w1 ++ (t ++ (w2 ++ [')'])))))) cs

/-- A parameter of an aggregate: a number, or a string with or without quotes. What begins with a digit is a number. -/
inductive ParamMeans : Str → Val → Prop
  | number {t : Str} {x : PyFloat} (h : NumText t x) : ParamMeans t (.float x)
  | quoted {t s : Str} (h : QuotedMeans t s) : ParamMeans t (.str s)
  | bare {u : Str} (h : BareText u) (hd : ∀ c ∈ u.head?, isDigit c = false) : ParamMeans u (.str u)

/-- The parameters in parentheses; there may be none between them. -/
inductive ParamsMeans : Str → List Val → Prop
  | none {w : Str} (hw : Blanks w) : ParamsMeans ('(' :: (w ++ [')'])) []
  | some {w t w' : Str} {vs : List Val} (hw : Blanks w) (h : Listed ParamMeans t vs) (hw' : Blanks w') :
      ParamsMeans ('(' :: (w ++ (t ++ (w' ++ [')'])))) vs

/-- A metric: an MRI or a public name, with or without backticks. -/
inductive MetricMeans : Str → MetricObj → Prop
  | mri {m : Str} (h : MriText m) : MetricMeans m ⟨.none, .str m, .none⟩
  | tickedMri {m : Str} (h : LooseMri m) : MetricMeans ('`' :: (m ++ ['`'])) ⟨.none, .str m, .none⟩
  | name {m : Str} (h : PublicText m) : MetricMeans m ⟨.str m, .none, .none⟩
  | tickedName {m : Str} (h : PublicText m) : MetricMeans ('`' :: (m ++ ['`'])) ⟨.str m, .none, .none⟩

/-- What can be in the parentheses of an aggregate: a metric, with filters and columns if there are any. -/
inductive SeriesMeans : Str → MetricObj → List Val → List Val → Prop
  | mk {m b g : Str} {o : MetricObj} {fs gs : List Val} (hm : MetricMeans m o) (hb : BlockMeans b fs) (hg : GroupMeans g gs) :
      SeriesMeans (m ++ (b ++ g)) o fs gs

/-- How tightly the parts of a text are bound. -/
inductive Rank where
  | call | target | operand | signed | product | sum

/-- The texts of the language and their values.

A call of a function whose first argument is a bare metric is an aggregate of that metric if it has parameters
(`seriesCall`), and has no meaning otherwise. The other arguments of such a call have no part in its meaning. -/
inductive Means : Rank → Str → MVal → Prop
  | aggregate {n w i w' : Str} {o : MetricObj} {fs gs : List Val} (hn : CallName n) (hw : Blanks w) (hi : SeriesMeans i o fs gs)
      (hw' : Blanks w') :
      Means .call (n ++ '(' :: (w ++ (i ++ (w' ++ [')'])))) (.ts ⟨o, .str n, .none, optList fs, optList gs⟩)
  | curriedAggregate {n p w i w' : Str} {o : MetricObj} {ps fs gs : List Val} (hn : CallName n) (hp : ParamsMeans p ps)
      (hw : Blanks w) (hi : SeriesMeans i o fs gs) (hw' : Blanks w') :
      Means .call (n ++ (p ++ '(' :: (w ++ (i ++ (w' ++ [')']))))) (.ts ⟨o, .str n, .list ps, optList fs, optList gs⟩)
  | function {n w t w' : Str} {x : MVal} {as : List Arg} (hn : CallName n) (hw : Blanks w) (hx : Means .sum t x)
      (ha : Aggregated x) (hw' : Blanks w') (has : ∀ a ∈ as, Means .sum a.text a.value)
      (hb : ∀ a ∈ as, Blanks a.gap ∧ Blanks a.before) :
      Means .call (n ++ '(' :: (w ++ (t ++ (w' ++ (argsText as ++ [')'])))))
        (.formula (.str n) (.list (x :: as.map (·.value))) .none .none .none)
  | curriedFunction {n p w t w' : Str} {ps : List Val} {x : MVal} {as : List Arg} (hn : CallName n) (hp : ParamsMeans p ps)
      (hw : Blanks w) (hx : Means .sum t x) (ha : Aggregated x) (hw' : Blanks w')
      (has : ∀ a ∈ as, Means .sum a.text a.value) (hb : ∀ a ∈ as, Blanks a.gap ∧ Blanks a.before) :
      Means .call (n ++ (p ++ '(' :: (w ++ (t ++ (w' ++ (argsText as ++ [')']))))))
        (.formula (.str n) (.list (x :: as.map (·.value))) (.list ps) .none .none)
  | seriesCall {n p w t w' : Str} {ps : List Val} {s : TimeseriesObj} {as : List Arg} (hn : CallName n) (hp : ParamsMeans p ps)
      (hw : Blanks w) (hx : Means .sum t (.ts s)) (ha : ¬ Aggregated (.ts s)) (hw' : Blanks w')
      (has : ∀ a ∈ as, Means .sum a.text a.value) (hb : ∀ a ∈ as, Blanks a.gap ∧ Blanks a.before) :
      Means .call (n ++ (p ++ '(' :: (w ++ (t ++ (w' ++ (argsText as ++ [')']))))))
        (.ts { s with aggregate := .str n, aggregateParams := .list ps })
  | grouped {t g : Str} {x : MVal} {gs : List Val} (h : Means .call t x) (hg : GroupMeans g gs) :
      Means .target (t ++ g) (addGroups gs x)
  | paren {w t w' : Str} {x : MVal} (hw : Blanks w) (h : Means .sum t x) (hq : IsQuery x) (hw' : Blanks w') :
      Means .target ('(' :: (w ++ (t ++ (w' ++ [')'])))) x
  | metric {t : Str} {o : MetricObj} (h : MetricMeans t o) :
      Means .target t (.ts ⟨o, .str c!"AGGREGATE_PLACEHOLDER", .none, .none, .none⟩)
  | number {t : Str} {f : PyFloat} (h : NumText t f) : Means .operand t (.val (.float f))
  | string {t s : Str} (h : QuotedMeans t s) : Means .operand t (.val (.str s))
  | filtered {t b g : Str} {x : MVal} {fs gs : List Val} (h : Means .target t x) (hd : ∀ c ∈ t.head?, isDigit c = false)
      (hb : BlockMeans b fs) (hg : GroupMeans g gs) : Means .operand (t ++ (b ++ g)) (addGroups gs (addFilters fs x))
  | plain {t : Str} {x : MVal} (h : Means .operand t x) : Means .signed t x
  | minus {t : Str} {x y : MVal} (h : Means .operand t x) (hy : negateM x = some y) : Means .signed ('-' :: t) y
  | factor {t : Str} {x : MVal} (h : Means .signed t x) : Means .product t x
  | times {t w w' u : Str} {x y : MVal} {op : Arith} (h : Means .product t x) (hw : Blanks w) (ho : op.level = 2) (hw' : Blanks w')
      (hu : Means .signed u y) :
      Means .product (t ++ (w ++ op.char :: (w' ++ u))) (.formula (.str op.name) (.list [x, y]) .none .none .none)
  | summand {t : Str} {x : MVal} (h : Means .product t x) : Means .sum t x
  | plus {t w w' u : Str} {x y : MVal} {op : Arith} (h : Means .sum t x) (hw : Blanks w) (ho : op.level = 1) (hw' : Blanks w')
      (hu : Means .product u y) :
      Means .sum (t ++ (w ++ op.char :: (w' ++ u))) (.formula (.str op.name) (.list [x, y]) .none .none .none)

/-- The text, without the blanks around it, denotes the query. -/
def Denotes (text : Str) (x : MVal) : Prop :=
  ∃ a t b, text = a ++ (t ++ b) ∧ (∀ c ∈ a, isSpace c = true) ∧ (∀ c ∈ b, isSpace c = true) ∧ Means .sum t x ∧ IsQuery x

end

end Spec

end Verif
