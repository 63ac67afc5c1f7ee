import Verif.Spec.LegacyMessages

/-!
# Specification: which constructor the conversion of a legacy expression comes to
-/

namespace Verif.Spec

variable [U : PyUnicode] [D : PyDecimal]

/-- A call of a constructor that the conversion of an expression comes to, everything before it being converted: the column of a text that is
not quoted, the function of a comparison, the function of a call, or a call inside the left-hand side or one of the arguments. -/
inductive ComesTo : Val → BuildCall → Prop
  | column {s : Str} : s ≠ [] → (∀ t, ¬ Between '\'' s t) → ComesTo (.str s) (.column (.str s) .none)
  | left {a op r : Val} {c : BuildCall} : ConditionShape [a, op, r] → ComesTo a c → ComesTo (.list [a, op, r]) c
  | comparison {a op c l r : Val} {o : Op} {f : Str} : ConditionShape [a, op, c] → Converts a l → OpFor op o → RhsFor l op [c] r →
      Compares o f → ComesTo (.list [a, op, c]) (.function (.str f) (.tuple [l, r]) .none)
  | argument {f : Str} {v al : Val} {pre post zs rest : List Val} {c : BuildCall} :
      ¬ ConditionShape (.str f :: .list (pre ++ v :: post) :: rest) → AliasItem rest al → ConvertsAll pre zs → ComesTo v c →
      ComesTo (.list (.str f :: .list (pre ++ v :: post) :: rest)) c
  | call {f : Str} {al : Val} {ys zs rest : List Val} : ¬ ConditionShape (.str f :: .list ys :: rest) → AliasItem rest al → ys ≠ [] →
      ConvertsAll ys zs → ComesTo (.list (.str f :: .list ys :: rest)) (.function (.str f) (.list zs) al)
  | emptyCall {f name : Str} {args al : Val} {rest : List Val} : ¬ ConditionShape (.str f :: args :: rest) → AliasItem rest al →
      Falsy args → EndsWith f ['(', ')'] → Bare f name → ComesTo (.list (.str f :: args :: rest)) (.function (.str name) (.list []) al)
  | noCall {f : Str} {args al : Val} {rest : List Val} : ¬ ConditionShape (.str f :: args :: rest) → AliasItem rest al →
      Falsy args → ¬ EndsWith f [')'] → ComesTo (.list (.str f :: args :: rest)) (.function (.str f) (.list []) al)

/-- The same for a list of expressions, of which a tuple counts as a list. -/
inductive ListComesTo : Val → BuildCall → Prop
  | mk {pre post zs : List Val} {v w : Val} {c : BuildCall} : ConvertsItems pre zs → AsList v w → ComesTo w c →
      ListComesTo (.list (pre ++ v :: post)) c

/-- The same for a condition: its left-hand side, or the condition itself. -/
inductive ConditionComesTo : Val → BuildCall → Prop
  | left {a op r : Val} {c : BuildCall} : ConditionShape [a, op, r] → ComesTo a c → ConditionComesTo (.list [a, op, r]) c
  | condition {a op c l r : Val} {o : Op} : ConditionShape [a, op, c] → Converts a l → OpFor op o → RhsFor l op [c] r →
      ConditionComesTo (.list [a, op, c]) (.condition l (.op o) r)

/-- The clauses that are lists of expressions or conditions, and a call that the conversion of the clause comes to. -/
inductive ClauseComesTo : Str → Val → BuildCall → Prop
  | selected {v : Val} {c : BuildCall} : ListComesTo v c → ClauseComesTo c!"selected_columns" v c
  | groupby {v : Val} {c : BuildCall} : ListComesTo v c → ClauseComesTo c!"groupby" v c
  | conditions {pre post cs : List Val} {v : Val} {c : BuildCall} : WhereEntries pre cs → ConditionComesTo v c →
      ClauseComesTo c!"conditions" (.list (pre ++ v :: post)) c
  | having {pre post cs : List Val} {v : Val} {c : BuildCall} : HavingEntries pre cs → ConditionComesTo v c →
      ClauseComesTo c!"having" (.list (pre ++ v :: post)) c

/-- The keys of a body that decide about a query, in the order in which they are looked at. -/
def readOrder : List Str :=
  [c!"sample", c!"aggregations", c!"selected_columns", c!"arrayjoin", c!"groupby", c!"organization", c!"from_date", c!"to_date", c!"project",
    c!"conditions", c!"having", c!"orderby", c!"limitby", c!"limit", c!"offset", c!"granularity", c!"totals"]

/-- Two bodies are the same in what is looked at before a key. -/
def SameBefore (key : Str) (b b' : LegacyBody) : Prop := ∀ k ∈ readOrder.takeWhile (· ≠ key), ∀ v, Has b k v ↔ Has b' k v

/-- What an extra has to be, which may be missing. -/
def extraDemand [PyShow] [PyText] (f : Field) (v : Val) (ds : List Demand) : Prop := (v = .none ∧ ds = []) ∨ (v ≠ .none ∧ ds = fieldDemands f v)

end Verif.Spec
