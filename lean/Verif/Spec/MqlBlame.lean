import Verif.Spec.Blame
import Verif.Spec.MqlResult

/-!
# Specification: why a metrics query has no MQL text
-/

namespace Verif.Spec

/-- A function or a curried function. -/
inductive IsFunction : Val → Prop
  | mk (f n ik is pk ps a) : IsFunction (.curried f n ik is pk ps a)

/-- The exception that a filter causes: MQL cannot compare with a function; otherwise a part of one of its sides has no text, or
one of the joined filters is to blame. -/
inductive FilterBlame : Err → Val → Prop
  | function (l o r) : IsFunction r → FilterBlame .invalidExpression (.cond l o r)
  | left (l o r x e) : ¬ IsFunction r → Part x l → Blames e x → FilterBlame e (.cond l o r)
  | right (l o r x e) : ¬ IsFunction r → Part x r → Blames e x → FilterBlame e (.cond l o r)
  | item (c o k cs x e) : x ∈ cs → FilterBlame e x → FilterBlame e (.boolCond c o k cs)

/-- The exception that one part of a query causes: a filter, or a parameter of the aggregate of a timeseries, or a formula whose
parameters are absent. -/
inductive QueryBlame : Err → MVal → Prop
  | param (t xs x e) : t.aggregateParams = .list xs → x ∈ xs → Blames e x → QueryBlame e (.ts t)
  | filter (t xs x e) : t.filters = .list xs → x ∈ xs → FilterBlame e x → QueryBlame e (.ts t)
  | formulaFilter (n p a xs g x e) : x ∈ xs → FilterBlame e x → QueryBlame e (.formula n p a (.list xs) g)
  | absent (n a f g) : QueryBlame .assertion (.formula n (.val .none) a f g)

/-- A timeseries or a formula. -/
inductive QueryObject : MVal → Prop
  | ts (t) : QueryObject (.ts t)
  | formula (n p a f g) : QueryObject (.formula n p a f g)

variable [U : PyUnicode]

/-- One part of a query has the types that the annotations in the code ask for: timeseries are valid, formulas have a name, no
parameters or a sequence of them, and lists of filters and of columns. Nothing is asked of objects of other classes. -/
inductive Annotated : MVal → Prop
  | ts (t) : TimeseriesOk t → OptList MadeCond t.filters → Annotated (.ts t)
  | formula (s p a f g) : (p = .val .none ∨ ∃ xs, MSeq p xs) → OptList (fun _ => True) a → OptList MadeCond f →
      OptList GroupItem g → Annotated (.formula (.str s) p a f g)
  | other (x) : (∀ n ps a f g, x ≠ .formula n ps a f g) → (∀ t, x ≠ .ts t) → Annotated x

end Verif.Spec
