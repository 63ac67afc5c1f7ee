import Verif.Spec.Formula

/-!
# Specification: which exceptions the constructors raise
-/

namespace Verif.Spec

/-- A list or tuple with an item, at some depth, that is neither a literal nor an expression nor a list or tuple. -/
def BadSeq (v : Val) : Prop := IsSeq v ∧ ¬ GoodSeq v

/-- A value that Python cannot hash: a list, a data model, or a value that holds one of these. -/
inductive Unhashable : Val → Prop
  | list (xs) : Unhashable (.list xs)
  | dataModel (d) : Unhashable (.dataModel d)
  | tuple (xs) (x : Val) : x ∈ xs → Unhashable x → Unhashable (.tuple xs)
  | initializerList (f n is pk ps a) : Unhashable (.curried f n .list is pk ps a)
  | parameterList (f n ik is ps a) : Unhashable (.curried f n ik is .list ps a)
  | initializer (f n ik is pk ps a) (x : Val) : x ∈ is → Unhashable x → Unhashable (.curried f n ik is pk ps a)
  | parameter (f n ik is pk ps a) (x : Val) : x ∈ ps → Unhashable x → Unhashable (.curried f n ik is pk ps a)
  | identifierList (is b) : Unhashable (.lam .list is b)
  | lambdaBody (k is b) : Unhashable b → Unhashable (.lam k is b)
  | left (l o r) : Unhashable l → Unhashable (.cond l o r)
  | right (l o r) : Unhashable r → Unhashable (.cond l o r)
  | conditionList (c o cs) : Unhashable (.boolCond c o .list cs)
  | condition (c o k cs) (x : Val) : x ∈ cs → Unhashable x → Unhashable (.boolCond c o k cs)
  | ordered (x d) : Unhashable x → Unhashable (.orderby x d)
  | columnList (cs n) : Unhashable (.limitby .list cs n)
  | relationshipList (rs) : Unhashable (.join .list rs)

/-- A groupby that can be read as a tuple and put into a set: absent, a text, or a list or tuple of hashable values. -/
inductive Groupable : Val → Prop
  | none : Groupable .none
  | str (s) : Groupable (.str s)
  | bytes (bs) : Groupable (.bytes bs)
  | items (v k xs) : SeqOf v k xs → (∀ x ∈ xs, ¬ Unhashable x) → Groupable v

/-- Parameters of a formula that can be walked through: a list, a tuple, a text, or a value that counts as false. -/
inductive Walkable : MVal → Prop
  | items (ps xs) : MSeq ps xs → Walkable ps
  | values (v k xs) : SeqOf v k xs → Walkable (.val v)
  | none : Walkable (.val .none)
  | str (s) : Walkable (.val (.str s))
  | bytes (bs) : Walkable (.val (.bytes bs))
  | zero (v) : NumIs v 0 → Walkable (.val v)

/-- A formula or timeseries whose groupby or parameters stop the walk through a formula. -/
inductive Stops : MVal → Prop
  | groupby (n ps a f g) : ¬ Groupable g → Stops (.formula n ps a f g)
  | params (n ps a f g) : ¬ Walkable ps → Stops (.formula n ps a f g)
  | ts (t) : ¬ Groupable t.groupby → Stops (.ts t)

/-- The value has a length in Python. -/
inductive Sized : Data → Prop
  | str (s) : Sized (.val (.str s))
  | bytes (bs) : Sized (.val (.bytes bs))
  | vals (v k xs) : SeqOf v k xs → Sized (.val v)
  | list (xs) : Sized (.list xs)
  | dict (kvs) : Sized (.dict kvs)

end Verif.Spec
