import Verif.Model.Val

/-!
# Specifications of what constructors accept
-/

namespace Verif.Spec

/-- `v` is the Python int-like object `n`: an int, or a bool (bool is a subclass of int). -/
inductive IntLike : Val → PyInt → Prop
  | int (i : Int) : IntLike (.int i) (.int i)
  | bool (b : Bool) : IntLike (.bool b) (.bool b)

/-- Literal values: None, bool, str, bytes, float, int, date, datetime. -/
inductive Literal : Val → Prop
  | none : Literal .none
  | bool (b : Bool) : Literal (.bool b)
  | int (i : Int) : Literal (.int i)
  | float (f : PyFloat) : Literal (.float f)
  | str (s : Str) : Literal (.str s)
  | bytes (bs : List UInt8) : Literal (.bytes bs)
  | date (d : Date) : Literal (.date d)
  | datetime (d : Datetime) : Literal (.datetime d)

/-- SDK expression objects. -/
inductive Expr : Val → Prop
  | column (c) : Expr (.column c)
  | curried (f n ik is pk ps a) : Expr (.curried f n ik is pk ps a)
  | ident (n) : Expr (.ident n)
  | lam (k is b) : Expr (.lam k is b)
  | aliased (c a) : Expr (.aliased c a)
  | cond (l o r) : Expr (.cond l o r)
  | boolCond (c o k cs) : Expr (.boolCond c o k cs)
  | orderby (e d) : Expr (.orderby e d)
  | limitby (k cs n) : Expr (.limitby k cs n)
  | limit (n) : Expr (.limit n)
  | offset (n) : Expr (.offset n)
  | granularity (n) : Expr (.granularity n)
  | totals (b) : Expr (.totals b)
  | extrapolate (b) : Expr (.extrapolate b)
  | entity (e) : Expr (.entity e)
  | storage (s) : Expr (.storage s)
  | rel (r) : Expr (.rel r)
  | join (k rs) : Expr (.join k rs)

/-- A value that may be an element of a list or tuple: a literal, an expression, or a
list or tuple of such values. -/
inductive Element : Val → Prop
  | literal (v) : Literal v → Element v
  | expr (v) : Expr v → Element v
  | list (xs) : (∀ x ∈ xs, Element x) → Element (.list xs)
  | tuple (xs) : (∀ x ∈ xs, Element x) → Element (.tuple xs)

/-- A list or tuple all of whose elements, at every depth, are allowed. -/
inductive GoodSeq : Val → Prop
  | list (xs) : (∀ x ∈ xs, Element x) → GoodSeq (.list xs)
  | tuple (xs) : (∀ x ∈ xs, Element x) → GoodSeq (.tuple xs)

/-- A value is a list or a tuple. -/
inductive IsSeq : Val → Prop
  | list (xs) : IsSeq (.list xs)
  | tuple (xs) : IsSeq (.tuple xs)

/-- A Column, CurriedFunction or Function. -/
inductive ColOrFn : Val → Prop
  | column (c) : ColOrFn (.column c)
  | curried (f n ik is pk ps a) : ColOrFn (.curried f n ik is pk ps a)

/-- Expressions allowed as function parameters: columns, functions, identifiers and lambdas. -/
inductive Param : Val → Prop
  | column (c) : Param (.column c)
  | curried (f n ik is pk ps a) : Param (.curried f n ik is pk ps a)
  | ident (n) : Param (.ident n)
  | lam (k is b) : Param (.lam k is b)

/-- A Condition or BooleanCondition. -/
inductive Cond : Val → Prop
  | cond (l o r) : Cond (.cond l o r)
  | boolCond (c o k cs) : Cond (.boolCond c o k cs)

/-- Scalars: literals and good sequences. -/
def Scalar (v : Val) : Prop := Literal v ∨ GoodSeq v

/-- `v` is a list or tuple (kind `k`) with items `xs`. -/
inductive SeqOf : Val → SeqKind → List Val → Prop
  | list (xs) : SeqOf (.list xs) .list xs
  | tuple (xs) : SeqOf (.tuple xs) .tuple xs

/-- The alias/name pairs used in a list of relationships. -/
def Uses (rels : List RelObj) (a n : Str) : Prop :=
  ∃ r ∈ rels, (r.lhs.alias = some a ∧ r.lhs.name = n) ∨ (r.rhs.alias = some a ∧ r.rhs.name = n)

end Verif.Spec
