import Verif.Model.BuildMessages

/-!
# Specification: the text of the class of a value

What Python prints for `type(v)`, one line for each class.
-/

namespace Verif.Spec

/-- Python prints this for the class of the value. Of foreign objects nothing is said. -/
inductive ClassShown : Val → Str → Prop
  | none : ClassShown .none c!"<class 'NoneType'>"
  | bool (b) : ClassShown (.bool b) c!"<class 'bool'>"
  | int (i) : ClassShown (.int i) c!"<class 'int'>"
  | float (f) : ClassShown (.float f) c!"<class 'float'>"
  | str (s) : ClassShown (.str s) c!"<class 'str'>"
  | bytes (bs) : ClassShown (.bytes bs) c!"<class 'bytes'>"
  | date (d) : ClassShown (.date d) c!"<class 'datetime.date'>"
  | datetime (d) : ClassShown (.datetime d) c!"<class 'datetime.datetime'>"
  | list (xs) : ClassShown (.list xs) c!"<class 'list'>"
  | tuple (xs) : ClassShown (.tuple xs) c!"<class 'tuple'>"
  | column (c) : ClassShown (.column c) c!"<class 'snuba_sdk.column.Column'>"
  | function (n ik is pk ps a) : ClassShown (.curried true n ik is pk ps a) c!"<class 'snuba_sdk.function.Function'>"
  | curried (n ik is pk ps a) : ClassShown (.curried false n ik is pk ps a) c!"<class 'snuba_sdk.function.CurriedFunction'>"
  | ident (n) : ClassShown (.ident n) c!"<class 'snuba_sdk.function.Identifier'>"
  | lam (k is b) : ClassShown (.lam k is b) c!"<class 'snuba_sdk.function.Lambda'>"
  | aliased (e a) : ClassShown (.aliased e a) c!"<class 'snuba_sdk.aliased_expression.AliasedExpression'>"
  | cond (l o r) : ClassShown (.cond l o r) c!"<class 'snuba_sdk.conditions.Condition'>"
  | boolean (o k cs) : ClassShown (.boolCond .base o k cs) c!"<class 'snuba_sdk.conditions.BooleanCondition'>"
  | conjunction (o k cs) : ClassShown (.boolCond .and o k cs) c!"<class 'snuba_sdk.conditions.And'>"
  | disjunction (o k cs) : ClassShown (.boolCond .or o k cs) c!"<class 'snuba_sdk.conditions.Or'>"
  | orderby (e d) : ClassShown (.orderby e d) c!"<class 'snuba_sdk.orderby.OrderBy'>"
  | limitby (k cs n) : ClassShown (.limitby k cs n) c!"<class 'snuba_sdk.orderby.LimitBy'>"
  | limit (n) : ClassShown (.limit n) c!"<class 'snuba_sdk.expressions.Limit'>"
  | offset (n) : ClassShown (.offset n) c!"<class 'snuba_sdk.expressions.Offset'>"
  | granularity (n) : ClassShown (.granularity n) c!"<class 'snuba_sdk.expressions.Granularity'>"
  | totals (b) : ClassShown (.totals b) c!"<class 'snuba_sdk.expressions.Totals'>"
  | extrapolate (b) : ClassShown (.extrapolate b) c!"<class 'snuba_sdk.expressions.Extrapolate'>"
  | entity (e) : ClassShown (.entity e) c!"<class 'snuba_sdk.entity.Entity'>"
  | storage (s) : ClassShown (.storage s) c!"<class 'snuba_sdk.storage.Storage'>"
  | rel (r) : ClassShown (.rel r) c!"<class 'snuba_sdk.relationships.Relationship'>"
  | join (k rs) : ClassShown (.join k rs) c!"<class 'snuba_sdk.relationships.Join'>"
  | op (o) : ClassShown (.op o) c!"<enum 'Op'>"
  | boolOp (o) : ClassShown (.boolOp o) c!"<enum 'BooleanOp'>"
  | direction (d) : ClassShown (.direction d) c!"<enum 'Direction'>"
  | dataModel (d) : ClassShown (.dataModel d) c!"<class 'snuba_sdk.schema.DataModel'>"

end Verif.Spec
