import Verif.Model.AnyFinder
import Verif.Spec.Errors

/-!
# Specification: what is found in an expression
-/

namespace Verif.Spec

/-- The objects of a class. -/
inductive InClass : FindClass → Val → Prop
  | column (c) : InClass .column (.column c)
  | aliased (c a) : InClass .aliased (.aliased c a)
  | curried (f n ik is pk ps a) : InClass .curried (.curried f n ik is pk ps a)
  | function (n ik is pk ps a) : InClass .function (.curried true n ik is pk ps a)
  | identifier (n) : InClass .identifier (.ident n)
  | lambda (k is b) : InClass .lambda (.lam k is b)
  | entity (e) : InClass .entity (.entity e)
  | storage (s) : InClass .storage (.storage s)
  | relationship (r) : InClass .relationship (.rel r)
  | join (k rs) : InClass .join (.join k rs)
  | condition (l o r) : InClass .condition (.cond l o r)
  | boolean (c o k cs) : InClass .boolean (.boolCond c o k cs)
  | orderby (e d) : InClass .orderby (.orderby e d)
  | limitby (k cs n) : InClass .limitby (.limitby k cs n)
  | expression {v} : v.isExpression = true → InClass .expression v

/-- Objects that are never taken themselves, although they may be of the class: conditions and the numbers of a query. -/
inductive Transparent : Val → Prop
  | cond (l o r) : Transparent (.cond l o r)
  | boolCond (c o k cs) : Transparent (.boolCond c o k cs)
  | limit (n) : Transparent (.limit n)
  | offset (n) : Transparent (.offset n)
  | granularity (n) : Transparent (.granularity n)
  | totals (b) : Transparent (.totals b)
  | extrapolate (b) : Transparent (.extrapolate b)

/-- The outermost objects of a class in an expression. Below an object that is taken nothing is looked for. The parameters of a lambda count as
identifiers, and then its body is not looked at. -/
inductive Outermost (t : FindClass) : Val → Val → Prop
  | self {v} : InClass t v → ¬ Transparent v → Outermost t v v
  | aliased {c a} : ¬ InClass t (.aliased c a) → InClass t (.column c) → Outermost t (.aliased c a) (.column c)
  | item {f n ik is pk ps a x y} : ¬ InClass t (.curried f n ik is pk ps a) → x ∈ is ++ ps → x.isExpression = true → Outermost t x y →
      Outermost t (.curried f n ik is pk ps a) y
  | parameter {k ids b i} : t = .identifier → i ∈ ids → Outermost t (.lam k ids b) (.ident i)
  | body {k ids b y} : t ≠ .identifier → ¬ InClass t (.lam k ids b) → Outermost t b y → Outermost t (.lam k ids b) y
  | end_ {r e} : t = .entity → e = r.lhs ∨ e = r.rhs → Outermost t (.rel r) (.entity e)
  | relationship {k rs r} : t = .relationship → r ∈ rs → Outermost t (.join k rs) (.rel r)
  | left {l o r y} : Outermost t l y → Outermost t (.cond l o r) y
  | right {l o r y} : o ≠ .isNull → o ≠ .isNotNull → r.isExpression = true → Outermost t r y → Outermost t (.cond l o r) y
  | member {c o k cs x y} : x ∈ cs → Outermost t x y → Outermost t (.boolCond c o k cs) y
  | ordered {e d y} : ¬ InClass t (.orderby e d) → Outermost t e y → Outermost t (.orderby e d) y
  | counted {k cs n c} : t = .column → c ∈ cs → Outermost t (.limitby k cs n) (.column c)

end Verif.Spec
