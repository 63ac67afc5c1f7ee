import Verif.Spec.Semantics
import Verif.Spec.MqlArith
import Verif.Model.Metrics

/-!
# Specification: the meaning of a metrics query

What a query asks for, over an arbitrary store of series. Written without reference to the printer, to the optimiser, to the
rules of the grammar and to the visitor. Filters and columns of a formula apply to every series in it ("pushed down to each of
the Timeseries", snuba_sdk/metrics_query.py:23-24). Only what MQL has a meaning for has one here; the rest has none.
-/

namespace Verif.Spec

/-- Kleene negation. -/
def Tri.neg : Tri → Tri
  | .no => .yes
  | .unknown => .unknown
  | .yes => .no

/-- Conjunction of a list. -/
def Tri.every : List Tri → Tri
  | [] => .yes
  | t :: ts => t.and (every ts)

/-- What a metric is called. -/
inductive MetricName where
  | mri (s : Str)
  | public_ (s : Str)
  deriving DecidableEq

/-- A parameter of an aggregate or a function. -/
inductive Datum where
  | number (f : PyFloat)
  | text (s : Str)

/-- A store: the tags of its rows, when values of tags are equal and match patterns, the series that an aggregate of a metric over
the rows for which a filter holds gives when grouped by tags, and what numbers and functions of series are. -/
structure Store (Row D T : Type) where
  tag : Row → Str → D
  text : Str → D
  eq : D → D → Tri
  like : D → Str → Tri
  series : MetricName → Str → List Datum → (Row → Tri) → List Str → T
  number : PyFloat → T
  call : Str → List Datum → List T → T

/-- Apply a partial function to all items. -/
def each {α β : Type} (f : α → Option β) : List α → Option (List β)
  | [] => some []
  | x :: xs => (f x).bind fun y => (each f xs).map (y :: ·)

/-- A string. -/
def textOf : Val → Option Str
  | .str s => some s
  | _ => none

/-- Strings in a sequence. -/
def textsOf : Val → Option (List Str)
  | .list xs | .tuple xs => each textOf xs
  | _ => none

/-- The comparison of a tag with a value. -/
def Store.comparison {Row D T : Type} (W : Store Row D T) : Op → Val → Option (D → Tri)
  | .eq, .str s => some fun d => W.eq d (W.text s)
  | .neq, .str s => some fun d => (W.eq d (W.text s)).neg
  | .like, .str s => some fun d => W.like d s
  | .notLike, .str s => some fun d => (W.like d s).neg
  | .in_, v => (textsOf v).map fun ss d => Tri.any (ss.map fun s => W.eq d (W.text s))
  | .notIn, v => (textsOf v).map fun ss d => (Tri.any (ss.map fun s => W.eq d (W.text s))).neg
  | _, _ => none

mutual
/-- For which rows a filter holds. -/
def Store.filter {Row D T : Type} (W : Store Row D T) : Val → Option (Row → Tri)
  | .cond (.column c) o v => (W.comparison o v).map fun f r => f (W.tag r c.name)
  | .boolCond _ .and _ cs => (W.filters cs).map fun fs r => Tri.every (fs.map (· r))
  | .boolCond _ .or _ cs => (W.filters cs).map fun fs r => Tri.any (fs.map (· r))
  | _ => none

/-- The same for several. -/
def Store.filters {Row D T : Type} (W : Store Row D T) : List Val → Option (List (Row → Tri))
  | [] => some []
  | c :: cs => (W.filter c).bind fun f => (W.filters cs).map (f :: ·)
end

/-- For which rows all filters of a query hold. -/
def Store.rows {Row D T : Type} (W : Store Row D T) : Val → Option (Row → Tri)
  | .none => some fun _ => .yes
  | .list cs | .tuple cs => (W.filters cs).map fun fs r => Tri.every (fs.map (· r))
  | _ => none

/-- The tag that a column stands for. -/
def tagOf : Val → Option Str
  | .column c => some c.name
  | _ => none

/-- The tags by which a query is grouped. -/
def tagsOf : Val → Option (List Str)
  | .none => some []
  | .list xs | .tuple xs => each tagOf xs
  | _ => none

/-- A number (an int counts as the nearest float) or a string. -/
def datumOf : Val → Option Datum
  | .int i => some (.number (ofDecimal (decide (i < 0)) i.natAbs 0))
  | .float f => some (.number f)
  | .str s => some (.text s)
  | _ => none

/-- The parameters of an aggregate or a function. -/
def dataOf : Val → Option (List Datum)
  | .none => some []
  | .list xs | .tuple xs => each datumOf xs
  | _ => none

/-- The MRI of a metric counts if it has one, else its public name. -/
def nameOf (m : MetricObj) : Option MetricName :=
  match m.mri, m.publicName with
  | .str s, _ => some (.mri s)
  | .none, .str s => some (.public_ s)
  | _, _ => none

/-- A function of series. The operators are binary; a formula with more operands means the operator applied from the left. -/
def Store.apply {Row D T : Type} (W : Store Row D T) (n : Str) (ps : List Datum) (ds : List T) : Option T :=
  if ∃ op ∈ [Arith.plus, .minus, .times, .divide], n = op.name then
    match ps, ds with
    | [], d :: e :: ds => some ((e :: ds).foldl (fun x y => W.call n [] [x, y]) d)
    | _, _ => none
  else some (W.call n ps ds)

mutual
/-- What a query asks for, if the filter `f` and the tags `g` apply to all of it. -/
def Store.denote {Row D T : Type} (W : Store Row D T) (f : Row → Tri) (g : List Str) : MVal → Option T
  | .val v =>
    match datumOf v with
    | some (.number x) => some (W.number x)
    | _ => none
  | .ts t => do
    let m ← nameOf t.metric
    let a ← textOf t.aggregate
    let ps ← dataOf t.aggregateParams
    let own ← W.rows t.filters
    let tags ← tagsOf t.groupby
    some (W.series m a ps (fun r => (f r).and (own r)) (g ++ tags))
  | .formula n xs a fs gs => do
    let n ← textOf n
    let ps ← dataOf a
    let own ← W.rows fs
    let tags ← tagsOf gs
    let ds ← W.operands (fun r => (f r).and (own r)) (g ++ tags) xs
    W.apply n ps ds
  | _ => none

/-- The operands of a formula. -/
def Store.operands {Row D T : Type} (W : Store Row D T) (f : Row → Tri) (g : List Str) : MVal → Option (List T)
  | .list xs | .tuple xs => W.denotes f g xs
  | _ => none

/-- The same for several. -/
def Store.denotes {Row D T : Type} (W : Store Row D T) (f : Row → Tri) (g : List Str) : List MVal → Option (List T)
  | [] => some []
  | x :: xs => (W.denote f g x).bind fun d => (W.denotes f g xs).map (d :: ·)
end

/-- What a query asks for. -/
def Store.asks {Row D T : Type} (W : Store Row D T) (x : MVal) : Option T := W.denote (fun _ => .yes) [] x

end Verif.Spec
