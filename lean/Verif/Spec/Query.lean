import Verif.Spec.Columns

/-!
# Specifications about queries
-/

namespace Verif.Spec

/-- The clauses of a query. -/
inductive Field
  | select | groupby | arrayJoin | where_ | having | orderby | limitby | limit | offset | granularity | totals
  deriving DecidableEq

/-- The value of a clause. -/
def Field.get : Field → Body → Val
  | .select, b => b.select
  | .groupby, b => b.groupby
  | .arrayJoin, b => b.arrayJoin
  | .where_, b => b.where_
  | .having, b => b.having
  | .orderby, b => b.orderby
  | .limitby, b => b.limitby
  | .limit, b => b.limit
  | .offset, b => b.offset
  | .granularity, b => b.granularity
  | .totals, b => b.totals

/-- The match of a query: a value or a query. -/
def matchOf : Query → Val ⊕ Query
  | .base m _ => .inl m
  | .nested q _ => .inr q

/-- What a clause holds after being set to `v`: the value itself, or for the numeric clauses the
wrapped int or bool. -/
def Holds : Field → Val → Val → Prop
  | .limit, v, x => ∃ n, IntLike v n ∧ x = .limit n
  | .offset, v, x => ∃ n, IntLike v n ∧ x = .offset n
  | .granularity, v, x => ∃ n, IntLike v n ∧ x = .granularity n
  | .totals, v, x => ∃ b, v = .bool b ∧ x = .totals b
  | _, v, x => x = v

/-- The clauses of a query and of its subqueries, outermost first. -/
def levels : Query → List Body
  | .base _ b => [b]
  | .nested q b => b :: levels q

/-- `i` is a subquery of `q` at some depth. -/
inductive Inside (i : Query) : Query → Prop
  | here (b) : Inside i (.nested i b)
  | deeper (q b) : Inside i q → Inside i (.nested q b)

/-- `x` is an item of one of the list clauses, or the value of one of the other clauses. -/
def HasItem (b : Body) (x : Val) : Prop :=
  (∃ v ∈ [b.select, b.groupby, b.arrayJoin, b.where_, b.having, b.orderby], ∃ k xs, SeqOf v k xs ∧ x ∈ xs) ∨
  x ∈ [b.limitby, b.limit, b.offset, b.granularity, b.totals]

/-- A non-empty list or tuple. -/
def NonEmptySeq (v : Val) : Prop := ∃ k xs, SeqOf v k xs ∧ xs ≠ []

/-- The cross-clause conditions: select is present; totals are absent or a `Totals` object, and true totals
come with a groupby. -/
def Complete (b : Body) : Prop :=
  NonEmptySeq b.select ∧
  (b.totals = .none ∨ ∃ t, b.totals = .totals t ∧ (t = true → NonEmptySeq b.groupby))

/-- A column, a function (curried or not), or a column with an alias. -/
inductive Selectable : Val → Prop
  | aliased (c : ColumnObj) (a : Option Str) : Selectable (.aliased c a)
  | column (c : ColumnObj) : Selectable (.column c)
  | function (f n ik is pk ps a) : Selectable (.curried f n ik is pk ps a)

/-- An ordering. -/
inductive Ordering : Val → Prop
  | mk (x : Val) (d : Direction) : Ordering (.orderby x d)

/-- What the setter of a clause takes, and what it then stores. The list clauses take lists only, no tuples. -/
inductive Accepts : Field → Val → Val → Prop
  | select (xs : List Val) : xs ≠ [] → (∀ x ∈ xs, Selectable x) → Accepts .select (.list xs) (.list xs)
  | groupby (xs : List Val) : (∀ x ∈ xs, Selectable x) → Accepts .groupby (.list xs) (.list xs)
  | arrayJoin (cs : List ColumnObj) : cs ≠ [] → Accepts .arrayJoin (.list (cs.map .column)) (.list (cs.map .column))
  | where_ (xs : List Val) : (∀ x ∈ xs, Cond x) → Accepts .where_ (.list xs) (.list xs)
  | having (xs : List Val) : (∀ x ∈ xs, Cond x) → Accepts .having (.list xs) (.list xs)
  | orderby (xs : List Val) : (∀ x ∈ xs, Ordering x) → Accepts .orderby (.list xs) (.list xs)
  | limitby (k : SeqKind) (cs : List ColumnObj) (n : PyInt) : Accepts .limitby (.limitby k cs n) (.limitby k cs n)
  | limit (v : Val) (n : PyInt) : IntLike v n → 1 ≤ n.toInt → n.toInt ≤ 10000 → Accepts .limit v (.limit n)
  | offset (v : Val) (n : PyInt) : IntLike v n → 0 ≤ n.toInt → Accepts .offset v (.offset n)
  | granularity (v : Val) (n : PyInt) : IntLike v n → 1 ≤ n.toInt → Accepts .granularity v (.granularity n)
  | totals (b : Bool) : Accepts .totals (.bool b) (.totals b)

/-- A query that differs from another one in one clause only, which has the given value. -/
def Updated (f : Field) (q : Query) (x : Val) (q' : Query) : Prop :=
  matchOf q' = matchOf q ∧ f.get q'.body = x ∧ ∀ g, g ≠ f → g.get q'.body = g.get q.body

/-- The query with another where clause. -/
def putWhere (w : Val) : Query → Query
  | .base m b => .base m { b with where_ := w }
  | .nested q b => .nested q { b with where_ := w }

end Verif.Spec
