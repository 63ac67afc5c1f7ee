import Verif.Model.LegacyShared
import Verif.Spec.Legacy

/-!
# Specification: which lists of a legacy body are shared
-/

namespace Verif.Spec

/-- The list at the address occurs in the value, at some depth. -/
inductive OccursIn (h : Heap) (a : Nat) : HVal → Prop
  | here : OccursIn h a (.ref a)
  | list (b : Nat) (y : HVal) : y ∈ h b → OccursIn h a y → OccursIn h a (.ref b)
  | tuple (xs : List HVal) (y : HVal) : y ∈ xs → OccursIn h a y → OccursIn h a (.tuple xs)

/-- The list at the address begins with a text that begins with a dash. -/
def DashedAt (h : Heap) (a : Nat) : Prop := ∃ s rest, h a = .val (.str ('-' :: s)) :: rest

/-- No list under `orderby` that begins with a dash occurs in a second place of the body. -/
def DashedOnce (h : Heap) (b : SharedBody) : Prop :=
  ∀ (l i a : Nat), (c!"orderby", HVal.ref l) ∈ b.entries → (h l)[i]? = some (HVal.ref a) → DashedAt h a →
    (∀ (j : Nat) (y : HVal), (h l)[j]? = some y → OccursIn h a y → j = i) ∧ ∀ k y, (k, y) ∈ b.entries → OccursIn h a y → k = c!"orderby"

/-- The list at the address begins with a dashed text before, with that text without its dashes afterwards, and goes on alike. -/
def DashesGone (h h' : Heap) (a : Nat) : Prop :=
  ∃ s t rest, h a = .val (.str s) :: rest ∧ Dashed s t ∧ h' a = .val (.str t) :: rest

/-- The list at the address is an item of the list under `orderby`. -/
def OrderedBy (h : Heap) (b : SharedBody) (a : Nat) : Prop := ∃ l : Nat, (c!"orderby", HVal.ref l) ∈ b.entries ∧ HVal.ref a ∈ h l

/-- The keys of a dictionary differ. -/
def KeysDiffer (b : SharedBody) : Prop := (b.entries.map (·.1)).Pairwise (· ≠ ·)

/-- The value is the list at the address. -/
def isListAt (a : Nat) : HVal → Bool
  | .ref b => b == a
  | _ => false

/-- The lists after the turns of the given items: each that is a list which begins with a text has lost the dashes before it. -/
def afterTurns (h : Heap) (done : List HVal) : Heap := fun a =>
  match h a with
  | .val (.str s) :: rest =>
    if done.any (isListAt a) then .val (.str (s.dropWhile (· == '-'))) :: rest else h a
  | xs => xs

/-- The items as they are when their turn comes, after those given first. -/
inductive SeenInTurn (h : Heap) (n : Nat) : List HVal → List HVal → List Val → Prop
  | nil {done : List HVal} : SeenInTurn h n done [] []
  | cons {done os : List HVal} {o : HVal} {v : Val} {vs : List Val} : o.read (afterTurns h done) n = some v →
      SeenInTurn h n (done ++ [o]) os vs → SeenInTurn h n done (o :: os) (v :: vs)

/-- The keys that are read before `orderby`. -/
def earlyKeys : List Str :=
  [c!"sample", c!"aggregations", c!"selected_columns", c!"arrayjoin", c!"groupby", c!"organization", c!"from_date", c!"to_date", c!"project",
    c!"conditions", c!"having"]

/-- The items whose turn comes. -/
def orderingItems (h : Heap) (b : SharedBody) : List HVal :=
  match b.entries.lookup c!"orderby" with
  | some (.ref l) => h l
  | _ => []

/-- The value under `orderby` as the conversion sees it. -/
inductive OrderSeen (h : Heap) (n : Nat) : Option HVal → Option Val → Prop
  | none : OrderSeen h n none none
  | list {l : Nat} {vs : List Val} : SeenInTurn h n [] (h l) vs → OrderSeen h n (some (.ref l)) (some (.list vs))
  | other {o : HVal} {v : Val} : (∀ l, o ≠ .ref l) → o.read h n = some v → OrderSeen h n (some o) (some v)

/-- The body as the conversion sees it: the items under `orderby` each in its turn, the keys that come before as they are at the
start, and those that come afterwards as they are after all turns. -/
structure BodySeen (h : Heap) (n : Nat) (b : SharedBody) (w : LegacyBody) : Prop where
  tenants : w.tenantIds = b.tenantIds
  early : ∀ key ∈ earlyKeys, w.entries.lookup key = (b.entries.lookup key).bind fun x => x.read h n
  order : OrderSeen h n (b.entries.lookup c!"orderby") (w.entries.lookup c!"orderby")
  late : ∀ key, key ∉ earlyKeys → key ≠ c!"orderby" →
    w.entries.lookup key = (b.entries.lookup key).bind fun x => x.read (afterTurns h (orderingItems h b)) n

end Verif.Spec
