import Verif.Spec.Metrics

/-!
# Specification: formula trees
-/

namespace Verif.Spec

/-- `v` is a list or tuple of the metrics layer with the elements `xs`. -/
inductive MSeq : MVal → List MVal → Prop
  | list (xs) : MSeq (.list xs) xs
  | tuple (xs) : MSeq (.tuple xs) xs

/-- `y` is `x`, or a parameter of a formula found in `x`, at any depth. -/
inductive InFormula (x : MVal) : MVal → Prop
  | self : InFormula x x
  | param {n ps a f g xs p} : InFormula x (.formula n ps a f g) → MSeq ps xs → p ∈ xs → InFormula x p

/-- `x` is a formula or a timeseries that is grouped by the list `g`. -/
inductive Groups : MVal → List Val → Prop
  | formula (n ps a f g) : Groups (.formula n ps a f (.list g)) g
  | ts (t g) : t.groupby = .list g → Groups (.ts t) g

/-- The sample of the entity of a column is not NaN (NaN differs from itself in Python). -/
def NoNan (c : ColumnObj) : Prop := ∀ e, c.entity = some e → e.sample ≠ some .nan

/-- A column or an aliased column, without NaN. -/
inductive PlainGroupItem : Val → Prop
  | column (c) : NoNan c → PlainGroupItem (.column c)
  | aliased (c a) : NoNan c → PlainGroupItem (.aliased c a)

/-- The fields have the types that the annotations in the code ask for, as far as grouping is concerned: groupby lists
hold columns, and parameters are absent or a list or tuple. Nothing is asked of objects of other classes. -/
inductive Typed : MVal → Prop
  | formula (n ps a f g) : (ps = .val .none ∨ ∃ xs, MSeq ps xs) → OptList PlainGroupItem g → Typed (.formula n ps a f g)
  | ts (t) : OptList PlainGroupItem t.groupby → Typed (.ts t)
  | other (x) : (∀ n ps a f g, x ≠ .formula n ps a f g) → (∀ t, x ≠ .ts t) → Typed x

/-- A number, a timeseries or a formula. -/
inductive FormulaParam : MVal → Prop
  | formula (n ps a f g) : FormulaParam (.formula n ps a f g)
  | ts (t) : FormulaParam (.ts t)
  | int (v n) : IntLike v n → FormulaParam (.val v)
  | float (f) : FormulaParam (.val (.float f))

/-- The value is `None` or a list of numbers, timeseries and formulas. -/
inductive OptParams : MVal → Prop
  | none : OptParams (.val .none)
  | list (xs) : (∀ x ∈ xs, FormulaParam x) → OptParams (.list xs)
  | values (xs) : (∀ x ∈ xs, FormulaParam (.val x)) → OptParams (.val (.list xs))

end Verif.Spec
