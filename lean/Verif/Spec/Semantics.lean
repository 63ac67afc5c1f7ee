import Verif.Spec.Query

/-!
# Specification: the meaning of conditions on a row

Three-valued (Kleene/SQL) logic over an arbitrary interpretation of columns, functions, literals and
operators. `x IN (v1, …, vn)` means `x = v1 OR … OR x = vn` (the SQL standard).
-/

namespace Verif.Spec

/-- Truth values. -/
inductive Tri | no | unknown | yes
  deriving DecidableEq

/-- Kleene conjunction. -/
def Tri.and : Tri → Tri → Tri
  | .no, _ => .no
  | _, .no => .no
  | .yes, b => b
  | a, .yes => a
  | .unknown, .unknown => .unknown

/-- Kleene disjunction. -/
def Tri.or : Tri → Tri → Tri
  | .yes, _ => .yes
  | _, .yes => .yes
  | .no, b => b
  | a, .no => a
  | .unknown, .unknown => .unknown

/-- Disjunction of a list. -/
def Tri.any : List Tri → Tri
  | [] => .no
  | t :: ts => t.or (any ts)

/-- An interpretation at one row: the value of every expression, equality of values (three-valued, so that
it may be unknown for NULL), and the truth of conditions with the remaining operators. -/
structure Interp (D : Type) where
  val : Val → D
  eq : D → D → Tri
  other : Val → Op → Val → Tri

/-- Truth of a simple condition. -/
def Interp.atom {D : Type} (I : Interp D) (l : Val) (o : Op) (r : Val) : Tri :=
  match o, r with
  | .eq, r => I.eq (I.val l) (I.val r)
  | .in_, .list rs => Tri.any (rs.map fun r => I.eq (I.val l) (I.val r))
  | .in_, .tuple rs => Tri.any (rs.map fun r => I.eq (I.val l) (I.val r))
  | o, r => I.other l o r

mutual
/-- Truth of a condition. -/
def Interp.eval {D : Type} (I : Interp D) : Val → Tri
  | .cond l o r => I.atom l o r
  | .boolCond _ .and _ cs => I.evalAll cs
  | .boolCond _ .or _ cs => I.evalAny cs
  | _ => .unknown

/-- Truth of a conjunction; this is also the meaning of a WHERE list. -/
def Interp.evalAll {D : Type} (I : Interp D) : List Val → Tri
  | [] => .yes
  | c :: cs => (I.eval c).and (I.evalAll cs)

/-- Truth of a disjunction. -/
def Interp.evalAny {D : Type} (I : Interp D) : List Val → Tri
  | [] => .no
  | c :: cs => (I.eval c).or (I.evalAny cs)
end

/-! ### Required columns -/

/-- `c` is a condition of the list, or of an `And` in the list, at any depth of `And`s. -/
inductive TopLevel (c : Val) : List Val → Prop
  | here (xs) : c ∈ xs → (∀ o k cs, c ≠ .boolCond .and o k cs) → TopLevel c xs
  | inAnd (xs o k cs) : .boolCond .and o k cs ∈ xs → TopLevel c cs → TopLevel c xs

/-- `c` restricts the column called `name` of the entity with alias `alias` by one of the
operators. -/
def Restricts (c : Val) (name : Str) (alias : Option Str) (ops : List Op) : Prop :=
  ∃ col o r, c = .cond (.column col) o r ∧ col.name = name ∧ o ∈ ops ∧
    ∀ e, col.entity = some e → e.alias = alias

/-- The WHERE list restricts all required columns and the time column of an entity. -/
def EntityCovered (e : EntityObj) (xs : List Val) : Prop :=
  ∀ d, e.dataModel = some d →
    xs ≠ [] ∧
    (∀ m ∈ d.columns, m.required = true → ∃ c, TopLevel c xs ∧ Restricts c m.name e.alias [.eq, .in_]) ∧
    (∃ c, TopLevel c xs ∧ Restricts c d.timeColumn.name e.alias [.gte]) ∧
    (∃ c, TopLevel c xs ∧ Restricts c d.timeColumn.name e.alias [.lt])

/-! ### The OR optimisation -/

/-- The lists have the same length and corresponding items are related. -/
inductive Paired {α β : Type} (R : α → β → Prop) : List α → List β → Prop
  | nil : Paired R [] []
  | cons (a b as bs) : R a b → Paired R as bs → Paired R (a :: as) (b :: bs)

/-- `c` is an OR of `=` conditions whose left-hand sides equal (in Python's sense) the first one,
`l`; `rs` are the right-hand sides in order. -/
def Mergeable (c l : Val) (rs : List Val) : Prop :=
  ∃ cls k r₀ rest rs', c = Val.boolCond cls .or k (Val.cond l .eq r₀ :: rest) ∧ rs = r₀ :: rs' ∧
    Paired (fun x r => ∃ l', x = Val.cond l' .eq r ∧ pyEq l' l = true) rest rs'

/-- What one condition becomes: a mergeable group becomes one `IN` condition, anything else stays. -/
def Rewritten (c c' : Val) : Prop :=
  (∃ l rs, Mergeable c l rs ∧ c' = .cond l .in_ (.list rs)) ∨ ((¬ ∃ l rs, Mergeable c l rs) ∧ c' = c)

/-- In each OR, equal left-hand sides of `=` conditions denote the same value. -/
def EqualSidesAgree {D : Type} (I : Interp D) (group : List Val) : Prop :=
  ∀ cls k cs l r l' r', Val.boolCond cls .or k cs ∈ group → Val.cond l .eq r ∈ cs → Val.cond l' .eq r' ∈ cs →
    pyEq l' l = true → I.val l' = I.val l

end Verif.Spec
