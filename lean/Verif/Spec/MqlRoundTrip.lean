import Verif.Spec.MqlReads

/-!
# Which queries survive printing as MQL and parsing, and what becomes of them

Written without reference to the printer, to the rules of the grammar and to the visitor. Each relation tells which
objects MQL can express (as they are printed) and gives their normal form: numbers become floats, tuples become lists, columns and
metrics keep their names only, top-level filters are joined by `And`, and arithmetic with several operands is nested to
the left.
-/

namespace Verif

section
variable [S : RegexSpace]

namespace Spec

/-- Numbers that are written without an exponent, and the nearest float. -/
inductive NumberFor : Val → PyFloat → Prop
  | int (i : Int) : NumberFor (.int i) (ofDecimal (decide (i < 0)) i.natAbs 0)
  | float (d : Dbl) (h : 'e' ∉ (PyFloat.fin d).repr) : NumberFor (.float (.fin d)) (.fin d)

/-- The sequence of the items, as a list or as a tuple. -/
def SeqFor (v : Val) (xs : List Val) : Prop := v = .list xs ∨ v = .tuple xs

/-- A parameter of an aggregate: a number without a sign, or a string. The parameters of timeseries are printed in
quotes, those of formulas are not. -/
inductive ParamFor : Bool → Val → Val → Prop
  | int {q : Bool} (n : Nat) : ParamFor q (.int n) (.float (ofDecimal false n 0))
  | float {q : Bool} (d : Dbl) (hn : d.neg = false) (h : 'e' ∉ (PyFloat.fin d).repr) : ParamFor q (.float (.fin d)) (.float (.fin d))
  | quoted {s : Str} (h : SafeText s) : ParamFor true (.str s) (.str s)
  | bare {u : Str} (h : BareText u) (hd : ∀ c ∈ u.head?, isDigit c = false) : ParamFor false (.str u) (.str u)

/-- The parameters of an aggregate; empty ones are the same as none. -/
inductive ParamsFor (q : Bool) : Val → Val → Prop
  | none : ParamsFor q .none .none
  | empty {v : Val} (hv : SeqFor v []) : ParamsFor q v .none
  | some {v : Val} {ps : List (Val × Val)} (hne : ps ≠ []) (hv : SeqFor v (ps.map (·.1))) (h : ∀ p ∈ ps, ParamFor q p.1 p.2) :
      ParamsFor q v (.list (ps.map (·.2)))

/-- A filter: a column is compared with a string, with a prefix of strings, or with several strings; or filters are
combined. -/
inductive FilterFor : Val → Val → Prop
  | text {c : ColumnObj} {neg : Bool} {s : Str} (hk : KeyText c.name) (h : SafeText s) (hp : ∀ u, BareText u → s ≠ u ++ ['*']) :
      FilterFor (.cond (.column c) (compareOp neg .text) (.str s)) (.cond (keyColumn c.name) (compareOp neg .text) (.str s))
  | pattern {c : ColumnObj} {neg : Bool} {u : Str} (hk : KeyText c.name) (h : BareText u) (hs : '\\' ∉ u) :
      FilterFor (.cond (.column c) (compareOp neg .pattern) (.str (u ++ ['*'])))
        (.cond (keyColumn c.name) (compareOp neg .pattern) (.str (u ++ ['*'])))
  | list {c : ColumnObj} {neg : Bool} {v : Val} {ss : List Str} (hk : KeyText c.name) (hne : ss ≠ []) (hv : SeqFor v (ss.map .str))
      (h : ∀ s ∈ ss, SafeText s) :
      FilterFor (.cond (.column c) (compareOp neg .list) v) (.cond (keyColumn c.name) (compareOp neg .list) (.list (ss.map .str)))
  | and {cls : BoolCls} {k : SeqKind} {ps : List (Val × Val)} (hne : ps ≠ []) (h : ∀ p ∈ ps, FilterFor p.1 p.2) :
      FilterFor (.boolCond cls .and k (ps.map (·.1))) (conj (ps.map (·.2)))
  | or {cls : BoolCls} {k : SeqKind} {ps : List (Val × Val)} (hne : ps ≠ []) (h : ∀ p ∈ ps, FilterFor p.1 p.2) :
      FilterFor (.boolCond cls .or k (ps.map (·.1))) (disj (ps.map (·.2)))

/-- The filters of a query. -/
inductive FiltersFor : Val → List Val → Prop
  | none : FiltersFor .none []
  | empty {v : Val} (hv : SeqFor v []) : FiltersFor v []
  | some {v : Val} {ps : List (Val × Val)} (hne : ps ≠ []) (hv : SeqFor v (ps.map (·.1))) (h : ∀ p ∈ ps, FilterFor p.1 p.2) :
      FiltersFor v [conj (ps.map (·.2))]

/-- The columns by which a query is grouped. -/
inductive GroupFor : Val → List Val → Prop
  | none : GroupFor .none []
  | some {v : Val} {cs : List ColumnObj} (hne : cs ≠ []) (hv : SeqFor v (cs.map .column)) (h : ∀ c ∈ cs, KeyText c.name) :
      GroupFor v (cs.map fun c => keyColumn c.name)

/-- A metric: its MRI counts if it has one, else its public name. -/
inductive MetricFor : MetricObj → MetricObj → Prop
  | mri {p i : Val} {m : Str} (h : MriText m) (hs : ∀ c ∈ m.head?, S.isSpace c = false) : MetricFor ⟨p, .str m, i⟩ ⟨.none, .str m, .none⟩
  | pub {i : Val} {m : Str} (h : PublicText m) : MetricFor ⟨.str m, .none, i⟩ ⟨.str m, .none, .none⟩

/-- `x₀ op x₁ op x₂ …`, nested to the left. -/
def leftNested (op : Arith) (x : MVal) (xs : List MVal) : MVal :=
  xs.foldl (fun a b => .formula (.str op.name) (.list [a, b]) .none .none .none) x

/-- A query (or a number in a formula) that MQL can express, and its normal form. The unary minus must not have filters
or columns of its own. -/
inductive NormalForm : MVal → MVal → Prop
  | number {v : Val} {x : PyFloat} (h : NumberFor v x) : NormalForm (.val v) (.val (.float x))
  | timeseries {m o : MetricObj} {a : Str} {ps ps' f g : Val} {fs gs : List Val} (hm : MetricFor m o) (ha : NameText a)
      (hp : ParamsFor true ps ps') (hf : FiltersFor f fs) (hg : GroupFor g gs) :
      NormalForm (.ts ⟨m, .str a, ps, f, g⟩) (.ts ⟨o, .str a, ps', optList fs, optList gs⟩)
  | arithmetic {op : Arith} {xs : MVal} {a f g : Val} {p : MVal × MVal} {ps : List (MVal × MVal)} {fs gs : List Val} (hne : ps ≠ [])
      (hxs : xs = .list ((p :: ps).map (·.1)) ∨ xs = .tuple ((p :: ps).map (·.1))) (h : NormalForm p.1 p.2)
      (hs : ∀ p ∈ ps, NormalForm p.1 p.2) (ha : ParamsFor false a .none) (hf : FiltersFor f fs) (hg : GroupFor g gs) :
      NormalForm (.formula (.str op.name) xs a f g) (addGroups gs (addFilters fs (leftNested op p.2 (ps.map (·.2)))))
  | function {n : Str} {xs : MVal} {a a' f g : Val} {p : MVal × MVal} {ps : List (MVal × MVal)} {fs gs : List Val} (hn : NameText n)
      (hi : ∀ op : Arith, n ≠ op.name) (hneg : n ≠ c!"negate")
      (hxs : xs = .list ((p :: ps).map (·.1)) ∨ xs = .tuple ((p :: ps).map (·.1))) (h : NormalForm p.1 p.2) (hagg : Aggregated p.1)
      (hs : ∀ p ∈ ps, NormalForm p.1 p.2) (ha : ParamsFor false a a') (hf : FiltersFor f fs) (hg : GroupFor g gs) :
      NormalForm (.formula (.str n) xs a f g) (.formula (.str n) (.list ((p :: ps).map (·.2))) a' (optList fs) (optList gs))
  | negation {xs : MVal} {a f : Val} {x x' : MVal} (hxs : xs = .list [x] ∨ xs = .tuple [x]) (h : NormalForm x x') (hq : IsQuery x)
      (ha : ParamsFor false a .none) (hf : FiltersFor f []) :
      NormalForm (.formula (.str c!"negate") xs a f .none) (.formula (.str c!"negate") (.list [x']) .none .none .none)

end Spec

end

namespace Spec

/-- A finite float that is written without an exponent. -/
def PlainFloat (f : PyFloat) : Prop := ∃ d, f = .fin d ∧ 'e' ∉ f.repr

/-- The floats among the parameters of an aggregate are written without exponents. -/
def PlainParams (v : Val) : Prop := ∀ xs, v = .list xs → ∀ f, .float f ∈ xs → PlainFloat f

/-- All numbers in a normal form are written without exponents. -/
inductive PlainNumbers : MVal → Prop
  | number {f : PyFloat} (h : PlainFloat f) : PlainNumbers (.val (.float f))
  | timeseries {t : TimeseriesObj} (h : PlainParams t.aggregateParams) : PlainNumbers (.ts t)
  | formula {n a f g : Val} {xs : List MVal} (h : ∀ x ∈ xs, PlainNumbers x) (ha : PlainParams a) :
      PlainNumbers (.formula n (.list xs) a f g)

end Spec

end Verif
