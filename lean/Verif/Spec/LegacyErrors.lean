import Verif.Spec.Legacy

/-!
# Specification: legacy bodies of the right shape

The shape of a body says which of its values are texts, lists, operators, dates and numbers. It says nothing about names, about the ranges of
numbers, or about what may be an argument of what; these are the concern of the SDK's own checks.
-/

namespace Verif.Spec

variable [U : PyUnicode] [D : PyDecimal]

omit U D in
/-- The exceptions that the docstring of `json_to_snql` announces (snuba_sdk/legacy.py:226): `InvalidExpressionError` with its subclasses,
`InvalidQueryError` and `InvalidRequestError`. -/
def Announced (e : Err) : Prop :=
  e ∈ [.invalidExpression, .invalidColumn, .invalidFunction, .invalidLambda, .invalidCondition, .invalidFormula, .invalidQuery, .invalidRequest]

omit U D in
/-- What may follow the arguments of a function: nothing, a text, or something that counts as false. -/
inductive AliasShape : List Val → Prop
  | none : AliasShape []
  | falsy {a : Val} {rest : List Val} : Falsy a → AliasShape (a :: rest)
  | text {s : Str} {rest : List Val} : AliasShape (.str s :: rest)

mutual
/-- A legacy expression of the right shape: a text or another value that is no list; a condition, whose operator is in capitals and not `!`;
or a function's name, its arguments and perhaps an alias. -/
inductive ExpShape : Val → Prop
  | text {s : Str} : ExpShape (.str s)
  | scalar {v : Val} : (∀ s, v ≠ .str s) → (∀ xs, v ≠ .list xs) → ExpShape v
  | condition {a c : Val} {o : Op} : ConditionShape [a, .str o.value, c] → o ≠ .not → ExpShape a → ExpShape (.list [a, .str o.value, c])
  | call {f : Str} {args : Val} {rest : List Val} : ¬ ConditionShape (.str f :: args :: rest) → AliasShape rest → ArgsShape args →
      ExpShape (.list (.str f :: args :: rest))

/-- Arguments: nothing, a list, or a single one. -/
inductive ArgsShape : Val → Prop
  | none {v : Val} : Falsy v → ArgsShape v
  | list {xs : List Val} : (∀ x ∈ xs, ExpShape x) → ArgsShape (.list xs)
  | one {v : Val} : ExpShape v → (∀ xs, v ≠ .list xs) → ArgsShape v
end

/-- The items of a condition: a left-hand side, an operator, and a right-hand side unless the operator is a test for null. -/
inductive ConditionItems : List Val → Prop
  | mk {a op : Val} {o : Op} {rest : List Val} : ExpShape a → OpFor op o →
      op = .str Op.isNull.value ∨ op = .str Op.isNotNull.value ∨ rest ≠ [] → ConditionItems (a :: op :: rest)

/-- An entry of the conditions: a condition, or a sequence of conditions. -/
inductive EntryShape : Val → Prop
  | condition {v : Val} {xs : List Val} : ItemsOf v xs → ConditionShape xs → ConditionItems xs → EntryShape v
  | group {v : Val} {xs : List Val} : ItemsOf v xs → ¬ ConditionShape xs → (∀ x ∈ xs, ∃ ys, ItemsOf x ys ∧ ConditionItems ys) → EntryShape v

/-- The value under `groupby`: a list of expressions, one expression, or an empty sequence. -/
inductive GroupbyShape : Val → Prop
  | list {gs : List Val} : (∀ g ∈ gs, ∃ w, AsList g w ∧ ExpShape w) → GroupbyShape (.list gs)
  | single {v w : Val} : (∀ gs, v ≠ .list gs) → ¬ Falsy v → AsList v w → ExpShape w → GroupbyShape v
  | empty {v : Val} : ItemsOf v [] → GroupbyShape v

/-- An item of the ordering: a text, or a list that is an expression when dashes before the name are left out. -/
inductive OrderShape : Val → Prop
  | text {s : Str} : OrderShape (.str s)
  | list {xs : List Val} : ¬ DashedList (.list xs) → ExpShape (.list xs) → OrderShape (.list xs)
  | dashed {s t : Str} {rest : List Val} : Dashed s t → ExpShape (.list (.str t :: rest)) → OrderShape (.list (.str s :: rest))

/-- The value under `orderby`: nothing, a text, or a list of items; an item after the first may also be neither a text nor a list. -/
inductive OrderingShape : Val → Prop
  | absent {v : Val} : Falsy v → OrderingShape v
  | text {s : Str} : OrderingShape (.str s)
  | list {v : Val} {vs : List Val} : OrderShape v → (∀ w ∈ vs, OrderShape w ∨ ((∀ s, w ≠ .str s) ∧ ∀ xs, w ≠ .list xs)) →
      OrderingShape (.list (v :: vs))

/-- A legacy body of the right shape, for an entity. -/
structure BodyShape [N : PyNumberText] (b : LegacyBody) (entity : Str) : Prop where
  /-- the sample is a number -/
  sample : ∃ v, ValueAt b c!"sample" v ∧ (v = .none ∨ ∃ f, FloatOf v f)
  aggregations : ∃ xs, ItemsAt b c!"aggregations" xs ∧ ∀ x ∈ xs, ∃ ys, ItemsOf x ys ∧ ExpShape (.list ys)
  selected : ∃ xs, ItemsAt b c!"selected_columns" xs ∧ ∀ x ∈ xs, ∃ w, AsList x w ∧ ExpShape w
  groupby : ∀ v, Has b c!"groupby" v → GroupbyShape v
  /-- the bounds are dates, for entities with a time column -/
  dates : ∀ c, TimeColumn entity c → ∀ key ∈ [c!"from_date", c!"to_date"], ∃ v, ValueAt b key v ∧ (Falsy v ∨ ∃ s t, v = .str s ∧ LegacyDate s t)
  conditions : ∃ xs, ItemsAt b c!"conditions" xs ∧ ∀ x ∈ xs, EntryShape x
  having : ∃ xs, ItemsAt b c!"having" xs ∧ ∀ x ∈ xs, EntryShape x
  orderby : ∃ v, ValueAt b c!"orderby" v ∧ OrderingShape v
  /-- the limit comes with a name, and is a number -/
  limitby : ∃ v, ValueAt b c!"limitby" v ∧ (Falsy v ∨ ∃ limit name n, ItemsOf v [limit, name] ∧ IntOf limit n)

end Verif.Spec
