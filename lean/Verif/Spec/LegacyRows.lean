import Verif.Spec.Legacy
import Verif.Spec.Semantics

/-!
# Specification: for which rows a legacy body asks

The conditions of a legacy body are a conjunction; an entry that is not itself a condition is the disjunction of its members, and an
empty one is no restriction. Organization, project and the two dates are further conjuncts.
-/

namespace Verif.Spec

variable [U : PyUnicode] [D : PyDecimal]

omit U D in
/-- Truth of the members of a group, given the truth of conditions by their items. -/
inductive MembersTruth (T : List Val → Tri) : List Val → List Tri → Prop
  | nil : MembersTruth T [] []
  | cons {v : Val} {xs vs : List Val} {ts : List Tri} : ItemsOf v xs → MembersTruth T vs ts → MembersTruth T (v :: vs) (T xs :: ts)

omit U D in
/-- Truth of one entry of the conditions. -/
inductive EntryTruth (T : List Val → Tri) : Val → Tri → Prop
  | condition {v : Val} {xs : List Val} : ItemsOf v xs → ConditionShape xs → EntryTruth T v (T xs)
  | group {v : Val} {xs : List Val} {ts : List Tri} : ItemsOf v xs → ¬ ConditionShape xs → xs ≠ [] → MembersTruth T xs ts →
      EntryTruth T v (Tri.any ts)
  | empty {v : Val} : ItemsOf v [] → EntryTruth T v .yes

omit U D in
/-- Truth of the entries together. -/
inductive EntriesTruth (T : List Val → Tri) : List Val → Tri → Prop
  | nil : EntriesTruth T [] .yes
  | cons {v : Val} {vs : List Val} {a b : Tri} : EntryTruth T v a → EntriesTruth T vs b → EntriesTruth T (v :: vs) (a.and b)

/-- Truth of the restriction of a column to a number or to the members of a sequence; other values are no restriction. -/
inductive MemberTruth {E : Type} (I : Interp E) (column : Str) : Val → Tri → Prop
  | absent {v : Val} : Falsy v → MemberTruth I column v .yes
  | one {v : Val} {n : PyInt} : ¬ Falsy v → IntLike v n → MemberTruth I column v (I.eq (I.val (plainColumn column)) (I.val v))
  | many {v : Val} {k : SeqKind} {xs ys : List Val} : ¬ Falsy v → SeqOf v k xs → ScalarsOf False xs ys →
      MemberTruth I column v (Tri.any (ys.map fun y => I.eq (I.val (plainColumn column)) (I.val y)))
  | other {v : Val} : ¬ Falsy v → (∀ n, ¬ IntLike v n) → ¬ IsSeq v → MemberTruth I column v .yes

/-- Truth of a bound on the time column. -/
inductive BoundTruth {E : Type} (I : Interp E) (column : Str) (o : Op) : Val → Tri → Prop
  | absent {v : Val} : Falsy v → BoundTruth I column o v .yes
  | date {s : Str} {t : Datetime} : LegacyDate s t → BoundTruth I column o (.str s) (I.other (plainColumn column) o (.datetime t))

/-- Truth of both bounds, for entities with a time column. -/
inductive BoundsTruth {E : Type} (I : Interp E) (b : LegacyBody) (entity : Str) : Tri → Prop
  | none : (∀ c, ¬ TimeColumn entity c) → BoundsTruth I b entity .yes
  | both {c : Str} {v w : Val} {x y : Tri} : TimeColumn entity c → ValueAt b c!"from_date" v → BoundTruth I c .gte v x →
      ValueAt b c!"to_date" w → BoundTruth I c .lt w y → BoundsTruth I b entity (x.and y)

/-- Truth of everything a body asks of a row. -/
inductive BodyTruth {E : Type} (T : List Val → Tri) (I : Interp E) (b : LegacyBody) (entity : Str) : Tri → Prop
  | mk {v w : Val} {entries : List Val} {org bounds proj conds : Tri} : ValueAt b c!"organization" v → MemberTruth I c!"org_id" v org →
      BoundsTruth I b entity bounds → ValueAt b c!"project" w → MemberTruth I c!"project_id" w proj →
      ItemsAt b c!"conditions" entries → EntriesTruth T entries conds → BodyTruth T I b entity ((org.and bounds).and (proj.and conds))

omit U D in
/-- Truth of what a body asks of a group of rows. -/
inductive HavingTruth (T : List Val → Tri) (b : LegacyBody) : Tri → Prop
  | mk {entries : List Val} {t : Tri} : ItemsAt b c!"having" entries → EntriesTruth T entries t → HavingTruth T b t

/-- The truth of legacy conditions is that of the conditions they are converted to. -/
def TruthAgrees {E : Type} (T : List Val → Tri) (I : Interp E) : Prop := ∀ xs c, ConditionOf xs c → T xs = I.eval c

end Verif.Spec
