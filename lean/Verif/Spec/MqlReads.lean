import Verif.Spec.MqlFilterText

/-!
# How queries are written in MQL, and how they are to be read

Written without reference to the rules of the grammar and to the visitor. The texts covered are those in which every
metric is aggregated.
-/

namespace Verif

namespace Spec

/-- Put conditions or columns in front of those that are there. -/
def prepend (xs : List Val) : Val → Val
  | .list ys => .list (xs ++ ys)
  | v => if xs.isEmpty then v else .list xs

/-- The query with more filters. -/
def addFilters (xs : List Val) : MVal → MVal
  | .ts t => .ts { t with filters := prepend xs t.filters }
  | .formula n p a f g => .formula n p a (prepend xs f) g
  | q => q

/-- The query with more columns to group by. -/
def addGroups (xs : List Val) : MVal → MVal
  | .ts t => .ts { t with groupby := prepend xs t.groupby }
  | .formula n p a f g => .formula n p a f (prepend xs g)
  | q => q

/-- The optional value of a list. -/
def optList : List Val → Val
  | [] => .none
  | xs => .list xs

/-- An argument of a function after the first: the blanks before and after the comma, its text and its value. -/
structure Arg where
  gap : Str
  before : Str
  text : Str
  value : MVal

/-- The text of the arguments after the first. -/
def argsText (as : List Arg) : Str := as.flatMap fun a => a.gap ++ ',' :: (a.before ++ a.text)

end Spec

/-- What unary minus makes of an operand. -/
def negateM : MVal → Option MVal
  | .val (.float f) => some (.val (.float f.negate))
  | .ts t => some (.formula (.str c!"negate") (.list [.ts t]) .none .none .none)
  | .formula n p a f g => some (.formula (.str c!"negate") (.list [.formula n p a f g]) .none .none .none)
  | _ => none

/-- Timeseries and formulas. -/
def IsQuery : MVal → Prop
  | .ts _ | .formula .. => True
  | _ => False

/-- The value is not a timeseries with the name that the parser gives to timeseries without an aggregate. -/
def Aggregated : MVal → Prop
  | .ts t => t.aggregate ≠ .str c!"AGGREGATE_PLACEHOLDER"
  | _ => True

section
variable [S : RegexSpace]

open Spec

/-- The filters of a query: none, `{}`, or a chain of filters in braces. -/
inductive BlockText : Str → List Val → Prop
  | none : BlockText [] []
  | empty : BlockText c!"{}" []
  | some {w w' t : Str} {v : Val} {ls : List FilterLink} (hw : Blanks w) (hw' : Blanks w') (h : FilterText t v)
      (hl : ∀ l ∈ ls, FilterText l.text l.value) (hj : ∀ l ∈ ls, JointText l.joint l.isOr l.text) :
      BlockText ('{' :: (w ++ (filterChain t ls ++ (w' ++ ['}'])))) [orOfAnds v (ls.map fun l => (l.isOr, l.value))]

/-- More columns, then the closing parenthesis. -/
inductive KeysText : Str → List Str → Prop
  | nil {w : Str} (hw : Blanks w) : KeysText (w ++ [')']) []
  | cons {w w' k r : Str} {ks : List Str} (hw : Blanks w) (hw' : Blanks w') (hk : KeyText k) (hr : KeysText r ks) :
      KeysText (w ++ ',' :: (w' ++ (k ++ r))) (k :: ks)

/-- The columns to group by: none, `by key`, or `by (key, …)`. -/
inductive GroupText : Str → List Val → Prop
  | none : GroupText [] []
  | one {w w' k : Str} (hw : Blanks w) (hw' : Blanks w') (hne : w' ≠ []) (hk : KeyText k) :
      GroupText (w ++ (c!"by" ++ (w' ++ k))) [keyColumn k]
  | many {w w' w'' k r : Str} {ks : List Str} (hw : Blanks w) (hw' : Blanks w') (hw'' : Blanks w'') (hk : KeyText k)
      (hr : KeysText r ks) : GroupText (w ++ (c!"by" ++ (w' ++ '(' :: (w'' ++ (k ++ r))))) ((k :: ks).map keyColumn)

/-- A parameter of an aggregate: a number, or a string with or without quotes. -/
inductive ParamText : Str → Val → Prop
  | number {t : Str} {x : PyFloat} (h : NumText t x) : ParamText t (.float x)
  | quoted {s : Str} (h : SafeText s) : ParamText (quoteText s) (.str s)
  | bare {u : Str} (h : BareText u) (hd : ∀ c ∈ u.head?, isDigit c = false) : ParamText u (.str u)

/-- More parameters, then the closing parenthesis. -/
inductive ParamsTail : Str → List Val → Prop
  | nil {w : Str} (hw : Blanks w) : ParamsTail (w ++ [')']) []
  | cons {w w' t r : Str} {v : Val} {vs : List Val} (hw : Blanks w) (hw' : Blanks w') (ht : ParamText t v) (hr : ParamsTail r vs) :
      ParamsTail (w ++ ',' :: (w' ++ (t ++ r))) (v :: vs)

/-- The parameters of an aggregate in parentheses, if there are any. -/
inductive ParamsText : Str → Val → Prop
  | none : ParamsText [] .none
  | some {w t r : Str} {v : Val} {vs : List Val} (hw : Blanks w) (ht : ParamText t v) (hr : ParamsTail r vs) :
      ParamsText ('(' :: (w ++ (t ++ r))) (.list (v :: vs))

/-- The metric in the parentheses of an aggregate, with filters and columns if there are any. (Without filters no blanks
may follow, because they would belong to the MRI.) -/
inductive InnerText : Str → MetricObj → List Val → List Val → Prop
  | plain {m : Str} {o : MetricObj} (hm : MetricText m o) : InnerText m o [] []
  | filtered {m b g w : Str} {o : MetricObj} {fs gs : List Val} (hm : MetricText m o) (hb : BlockText b fs) (hne : b ≠ [])
      (hg : GroupText g gs) (hw : Blanks w) : InnerText (m ++ (b ++ (g ++ w))) o fs gs

/-- The kinds of texts: calls of functions without anything behind them, operands, operands with a sign, and expressions. -/
inductive Level where
  | call | operand | signed | expr
  deriving DecidableEq

/-- The texts of queries and their values. An expression is read as the tidy tree of its operators and operands. (If a
function has several arguments, no blanks may follow the last.) -/
inductive Reads : Level → Str → MVal → Prop
  | number {t : Str} {f : PyFloat} (h : NumText t f) : Reads .operand t (.val (.float f))
  | aggregate {n p w i : Str} {o : MetricObj} {ps : Val} {fs gs : List Val} (hn : NameText n) (hp : ParamsText p ps) (hw : Blanks w)
      (hi : InnerText i o fs gs) :
      Reads .call (n ++ (p ++ '(' :: (w ++ (i ++ [')'])))) (.ts ⟨o, .str n, ps, optList fs, optList gs⟩)
  | function {n p w t w' : Str} {ps : Val} {x : MVal} {as : List Arg} (hn : NameText n) (hp : ParamsText p ps) (hw : Blanks w)
      (hw' : Blanks w') (hlast : as ≠ [] → w' = []) (hx : Reads .expr t x) (ha : Aggregated x)
      (has : ∀ a ∈ as, Reads .expr a.text a.value) (hb : ∀ a ∈ as, Blanks a.gap ∧ Blanks a.before) :
      Reads .call (n ++ (p ++ '(' :: (w ++ (t ++ (argsText as ++ (w' ++ [')']))))))
        (.formula (.str n) (.list (x :: as.map (·.value))) ps .none .none)
  | plainCall {t g : Str} {x : MVal} {gs : List Val} (h : Reads .call t x) (hg : GroupText g gs) :
      Reads .operand (t ++ g) (addGroups gs x)
  | filteredCall {t g b g' : Str} {x : MVal} {fs gs gs' : List Val} (h : Reads .call t x) (hg : GroupText g gs) (hb : BlockText b fs)
      (hne : b ≠ []) (hg' : GroupText g' gs') :
      Reads .operand (t ++ (g ++ (b ++ g'))) (addGroups gs' (addFilters fs (addGroups gs x)))
  | paren {w w' t b g : Str} {x : MVal} {fs gs : List Val} (hw : Blanks w) (hw' : Blanks w') (hx : Reads .expr t x) (hq : IsQuery x)
      (hb : BlockText b fs) (hg : GroupText g gs) :
      Reads .operand ('(' :: (w ++ (t ++ (w' ++ ')' :: (b ++ g))))) (addGroups gs (addFilters fs x))
  | plain {t : Str} {x : MVal} (h : Reads .operand t x) : Reads .signed t x
  | minus {t : Str} {x y : MVal} (h : Reads .operand t x) (hy : negateM x = some y) : Reads .signed ('-' :: t) y
  | chain {t : Str} {x : MVal} {ls : List (Link MVal)} {tr : Tree MVal} (hx : Reads .signed t x)
      (hl : ∀ l ∈ ls, Reads .signed l.text l.value) (hb : ∀ l ∈ ls, Blanks l.before ∧ Blanks l.after)
      (htr : tr.Tidy) (hflat : tr.flat = (x, ls.map fun l => (l.op, l.value))) : Reads .expr (chainText t ls) tr.formula

end

end Verif
