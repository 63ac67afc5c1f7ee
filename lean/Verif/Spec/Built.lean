import Verif.Spec.Construct
import Verif.Model.Query

/-!
# Values a program can make with the SDK
-/

namespace Verif.Spec

variable [U : PyUnicode]

/-- Values obtained from plain Python values by the constructors of the SDK (arguments of a
constructor are themselves such values). -/
inductive Built : Val → Prop
  | literal (v : Val) : Literal v → Built v
  | list (xs : List Val) : (∀ x ∈ xs, Built x) → Built (.list xs)
  | tuple (xs : List Val) : (∀ x ∈ xs, Built x) → Built (.tuple xs)
  | op (o : Op) : Built (.op o)
  | boolOp (o : BooleanOp) : Built (.boolOp o)
  | direction (d : Direction) : Built (.direction d)
  | dataModel (d : DataModel) : Built (.dataModel d)
  | other (n : Nat) : Built (.other n)
  | limit (v x : Val) : Built v → mkLimit v = .ok x → Built x
  | offset (v x : Val) : Built v → mkOffset v = .ok x → Built x
  | granularity (v x : Val) : Built v → mkGranularity v = .ok x → Built x
  | totals (v x : Val) : Built v → mkTotals v = .ok x → Built x
  | extrapolate (v x : Val) : Built v → mkExtrapolate v = .ok x → Built x
  | column (n e x : Val) : Built n → Built e → mkColumn n e = .ok x → Built x
  | aliased (c a x : Val) : Built c → Built a → mkAliased c a = .ok x → Built x
  | curried (f i p a x : Val) : Built f → Built i → Built p → Built a → mkCurried f i p a = .ok x → Built x
  | function (f p a x : Val) : Built f → Built p → Built a → mkFunction f p a = .ok x → Built x
  | identifier (n x : Val) : Built n → mkIdentifier n = .ok x → Built x
  | lambda (is b x : Val) : Built is → Built b → mkLambda is b = .ok x → Built x
  | condition (l o r x : Val) : Built l → Built o → Built r → mkCondition l o r = .ok x → Built x
  | boolean (o cs x : Val) : Built o → Built cs → mkBooleanCondition o cs = .ok x → Built x
  | and (cs x : Val) : Built cs → mkAnd cs = .ok x → Built x
  | or (cs x : Val) : Built cs → mkOr cs = .ok x → Built x
  | orderby (e d x : Val) : Built e → Built d → mkOrderBy e d = .ok x → Built x
  | limitby (cs n x : Val) : Built cs → Built n → mkLimitBy cs n = .ok x → Built x
  | entity (n a s d x : Val) : Built n → Built a → Built s → Built d → mkEntity n a s d = .ok x → Built x
  | storage (n s d x : Val) : Built n → Built s → Built d → mkStorage n s d = .ok x → Built x
  | relationship (l n r x : Val) : Built l → Built n → Built r → mkRelationship l n r = .ok x → Built x
  | join (rs x : Val) : Built rs → mkJoin rs = .ok x → Built x

end Verif.Spec
