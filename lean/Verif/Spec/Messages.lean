import Verif.Spec.SetOrder
import Verif.Spec.Semantics
import Verif.Spec.Columns
import Verif.Spec.Construct
import Verif.Spec.Request
import Verif.Model.Messages

/-!
# Specification: what a message may say
-/

namespace Verif.Spec

/-- The class of the exception alone. -/
def dropMessage {α : Type} : Except Raised α → Except Err α
  | .ok x => .ok x
  | .error e => .error e.1

/-- Orders in which, moreover, required columns and operators are seen once. -/
structure TrueSets (σ : SetOrders) : Prop extends PossibleOrders σ where
  requiredOnce : ∀ xs, (σ.required xs).Nodup
  opsOnce : ∀ xs, (σ.ops xs).Nodup

/-- The first string comes before the second by code points. -/
def Before (a b : Str) : Prop := a.map Char.toNat < b.map Char.toNat

/-- Each string comes before all later ones. -/
def Alphabetical (xs : List Str) : Prop := xs.Pairwise Before

/-- The name under which a column is looked up in a data model: the part before the bracket, if there is one. -/
def SoughtAs (c : ColumnObj) (n : Str) : Prop :=
  (c.subscriptable = some n ∧ n ≠ []) ∨ ((c.subscriptable = none ∨ c.subscriptable = some []) ∧ n = c.name)

/-- The data model has no such column. -/
def Unsupported (dm : Option DataModel) (c : ColumnObj) : Prop :=
  ∃ d n, dm = some d ∧ SoughtAs c n ∧ ¬ ∃ x ∈ d.columns, x.name = n

/-- The column is at fault in the query, and the text says so. -/
inductive Culprit : Query → ColumnObj → Err → Str → Prop
  | notInSubquery {q b c} :
      (¬ ∃ k xs x, SeqOf q.body.select k xs ∧ x ∈ xs ∧
        ((∃ d, x = .column d ∧ d.name = c.name) ∨ ∃ f n ik is pk ps, x = .curried f n ik is pk ps (some c.name))) →
      Culprit (.nested q b) c .invalidMatch
        (c!"outer query is referencing column '" ++ c.name ++ c!"' that does not exist in subquery")
  | unqualified {k rels b c} : c.entity = none →
      Culprit (.base (.join k rels) b) c .invalidMatch (c!"column '" ++ c.name ++ c!"' must have a qualifying entity")
  | noAlias {k rels b c e} : c.entity = some e → e.alias = none →
      Culprit (.base (.join k rels) b) c .invalidMatch (c!"column '" ++ c.name ++ c!"' has unknown entity alias None")
  | unknownAlias {k rels b c e a} : c.entity = some e → e.alias = some a → (¬ ∃ n, Uses rels a n) →
      Culprit (.base (.join k rels) b) c .invalidMatch (c!"column '" ++ c.name ++ c!"' has unknown entity alias " ++ a)
  | otherEntity {k rels b c e a n} : c.entity = some e → e.alias = some a → Uses rels a n → n ≠ e.name →
      Culprit (.base (.join k rels) b) c .invalidMatch
        (c!"column '" ++ c.name ++ c!"' has incorrect alias for entity " ++ e.repr ++ c!": '" ++ a ++ c!"'")
  | entity {e b c} : Unsupported e.dataModel c →
      Culprit (.base (.entity e) b) c .invalidColumn (c!"'" ++ e.name ++ c!"' does not support the column '" ++ c.name ++ c!"'")
  | storage {s b c} : Unsupported s.dataModel c →
      Culprit (.base (.storage s) b) c .invalidColumn (c!"'" ++ s.name ++ c!"' does not support the column '" ++ c.name ++ c!"'")

/-- The name with the alias of its entity, if that has one, in quotes. -/
def quotedName (e : EntityObj) (n : Str) : Str :=
  match e.alias with
  | some (a :: as) => c!"'" ++ (a :: as) ++ c!"." ++ n ++ c!"'"
  | _ => c!"'" ++ n ++ c!"'"

/-- No condition that has to hold restricts the column by one of the operators. -/
def Unrestricted (xs : List Val) (e : EntityObj) (name : Str) (ops : List Op) : Prop :=
  ¬ ∃ c, TopLevel c xs ∧ Restricts c name e.alias ops

/-- What is said when the where clause `xs` does not restrict all that the data model `d` of the entity requires: that there are no
conditions; or the required columns without condition, all of them, in alphabetical order; or, if there is none, the operators that are
missing for the time column. One thing is in the singular, several are in the plural. -/
inductive RequiredText (e : EntityObj) (d : DataModel) (xs : List Val) : Str → Prop
  | noConditions : xs = [] → RequiredText e d xs c!"where clause is missing required columns"
  | column {n} :
      (∀ s, (∃ m ∈ d.columns, m.required = true ∧ Unrestricted xs e m.name [.eq, .in_] ∧ s = m.name) ↔ s = n) →
      RequiredText e d xs (c!"where clause is missing required condition on column " ++ quotedName e n)
  | columns {names} : 2 ≤ names.length → Alphabetical names →
      (∀ s, s ∈ names ↔ ∃ m ∈ d.columns, m.required = true ∧ Unrestricted xs e m.name [.eq, .in_] ∧ s = quotedName e m.name) →
      RequiredText e d xs (c!"where clause is missing required conditions on columns " ++ joinWith c!", " names)
  | time {o} : (∀ m ∈ d.columns, m.required = true → ¬ Unrestricted xs e m.name [.eq, .in_]) →
      (∀ p, p ∈ [Op.gte, Op.lt] → (Unrestricted xs e d.timeColumn.name [p] ↔ p = o)) → o ∈ [Op.gte, Op.lt] →
      RequiredText e d xs (c!"where clause is missing required " ++ o.value ++ c!" condition on column " ++ quotedName e d.timeColumn.name)
  | times {o p : Op} : (∀ m ∈ d.columns, m.required = true → ¬ Unrestricted xs e m.name [.eq, .in_]) →
      Unrestricted xs e d.timeColumn.name [.gte] → Unrestricted xs e d.timeColumn.name [.lt] →
      (o = .gte ∧ p = .lt ∨ o = .lt ∧ p = .gte) →
      RequiredText e d xs (c!"where clause is missing required " ++ o.value ++ c!", " ++ p.value ++ c!" conditions on column " ++
        quotedName e d.timeColumn.name)

end Verif.Spec
