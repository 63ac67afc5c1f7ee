import Verif.Spec.Built
import Verif.Spec.Query

/-!
# Lists that are changed after they were given to the SDK

The dataclasses of the SDK are frozen, but the lists that they hold are the caller's own objects and can be changed at any time.
-/

namespace Verif.Spec

variable [U : PyUnicode]

mutual
/-- `Edited v v'`: `v'` is what the object `v` looks like after lists inside it were given other contents. New contents are
objects made with the SDK, whose lists may have been changed as well. Tuples, texts and the other attributes keep what they hold,
apart from lists inside it. Every occurrence of a list may change on its own, which includes the case of one list in several
places. Simplifications: a list does not come to contain itself; the list of a `Lambda`, `LimitBy` or `Join` holds texts, columns
or relationships also after a change. -/
inductive Edited : Val → Val → Prop
  | same (v) : Edited v v
  | list (xs ys) : Contents .list xs ys → Edited (.list xs) (.list ys)
  | tuple (xs ys) : Contents .tuple xs ys → Edited (.tuple xs) (.tuple ys)
  | curried (f n ik is is' pk ps ps' a) : Contents ik is is' → Contents pk ps ps' →
      Edited (.curried f n ik is pk ps a) (.curried f n ik is' pk ps' a)
  | lam (k ids ids' b b') : (k = .list ∨ ids' = ids) → Edited b b' → Edited (.lam k ids b) (.lam k ids' b')
  | cond (l l' o r r') : Edited l l' → Edited r r' → Edited (.cond l o r) (.cond l' o r')
  | boolCond (c o k cs cs') : Contents k cs cs' → Edited (.boolCond c o k cs) (.boolCond c o k cs')
  | orderby (e e' d) : Edited e e' → Edited (.orderby e d) (.orderby e' d)
  | limitby (cs cs' n) : (∀ c ∈ cs', Built (.column c)) → Edited (.limitby .list cs n) (.limitby .list cs' n)
  | join (rs rs') : (∀ r ∈ rs', Built (.rel r)) → Edited (.join .list rs) (.join .list rs')

/-- What a sequence holds after changes: a list may have been given new contents, and the items that stayed may have changed. -/
inductive Contents : SeqKind → List Val → List Val → Prop
  | changed (xs ys) : Given ys → Contents .list xs ys
  | kept (k xs ys) : ItemsEdited xs ys → Contents k xs ys

/-- Objects made with the SDK, whose lists may have been changed. -/
inductive Given : List Val → Prop
  | nil : Given []
  | cons (v y ys) : Built v → Edited v y → Given ys → Given (y :: ys)

/-- The same items, whose lists may have been changed. -/
inductive ItemsEdited : List Val → List Val → Prop
  | nil : ItemsEdited [] []
  | cons (x y xs ys) : Edited x y → ItemsEdited xs ys → ItemsEdited (x :: xs) (y :: ys)
end

/-- The clauses of a query after lists inside them were changed. -/
def EditedBody (b b' : Body) : Prop := ∀ f : Field, Edited (f.get b) (f.get b')

/-- A query after lists inside it were changed. -/
inductive EditedQuery : Query → Query → Prop
  | base (m m' b b') : Edited m m' → EditedBody b b' → EditedQuery (.base m b) (.base m' b')
  | nested (q q' b b') : EditedQuery q q' → EditedBody b b' → EditedQuery (.nested q b) (.nested q' b')

/-- The match and the clauses of a query, at every level, are values a program can make with the SDK. -/
inductive QueryBuilt : Query → Prop
  | base (m b) : Built m → (∀ f : Field, Built (f.get b)) → QueryBuilt (.base m b)
  | nested (q b) : QueryBuilt q → (∀ f : Field, Built (f.get b)) → QueryBuilt (.nested q b)

/-- The entity, storage or join that a query or its innermost subquery is over. -/
def innermostMatch : Query → Val
  | .base m _ => m
  | .nested q _ => innermostMatch q

/-- `x` is what a constructor of the SDK returns for arguments that satisfy `P`. -/
inductive MadeFrom (P : Val → Prop) : Val → Prop
  | limit (v x : Val) : P v → mkLimit v = .ok x → MadeFrom P x
  | offset (v x : Val) : P v → mkOffset v = .ok x → MadeFrom P x
  | granularity (v x : Val) : P v → mkGranularity v = .ok x → MadeFrom P x
  | totals (v x : Val) : P v → mkTotals v = .ok x → MadeFrom P x
  | extrapolate (v x : Val) : P v → mkExtrapolate v = .ok x → MadeFrom P x
  | column (n e x : Val) : P n → P e → mkColumn n e = .ok x → MadeFrom P x
  | aliased (c a x : Val) : P c → P a → mkAliased c a = .ok x → MadeFrom P x
  | curried (f i p a x : Val) : P f → P i → P p → P a → mkCurried f i p a = .ok x → MadeFrom P x
  | function (f p a x : Val) : P f → P p → P a → mkFunction f p a = .ok x → MadeFrom P x
  | identifier (n x : Val) : P n → mkIdentifier n = .ok x → MadeFrom P x
  | lambda (is b x : Val) : P is → P b → mkLambda is b = .ok x → MadeFrom P x
  | condition (l o r x : Val) : P l → P o → P r → mkCondition l o r = .ok x → MadeFrom P x
  | boolean (o cs x : Val) : P o → P cs → mkBooleanCondition o cs = .ok x → MadeFrom P x
  | and (cs x : Val) : P cs → mkAnd cs = .ok x → MadeFrom P x
  | or (cs x : Val) : P cs → mkOr cs = .ok x → MadeFrom P x
  | orderby (e d x : Val) : P e → P d → mkOrderBy e d = .ok x → MadeFrom P x
  | limitby (cs n x : Val) : P cs → P n → mkLimitBy cs n = .ok x → MadeFrom P x
  | entity (n a s d x : Val) : P n → P a → P s → P d → mkEntity n a s d = .ok x → MadeFrom P x
  | storage (n s d x : Val) : P n → P s → P d → mkStorage n s d = .ok x → MadeFrom P x
  | relationship (l n r x : Val) : P l → P n → P r → mkRelationship l n r = .ok x → MadeFrom P x
  | join (rs x : Val) : P rs → mkJoin rs = .ok x → MadeFrom P x

/-- The constructor of its class would accept what the object holds now. -/
def Acceptable (x : Val) : Prop := MadeFrom (fun _ => True) x

omit U

mutual
/-- No list anywhere inside. -/
def Frozen : Val → Prop
  | .list _ => False
  | .tuple xs => FrozenAll xs
  | .curried _ _ ik is pk ps _ => ik ≠ .list ∧ pk ≠ .list ∧ FrozenAll is ∧ FrozenAll ps
  | .lam k _ b => k ≠ .list ∧ Frozen b
  | .cond l _ r => Frozen l ∧ Frozen r
  | .boolCond _ _ k cs => k ≠ .list ∧ FrozenAll cs
  | .orderby e _ => Frozen e
  | .limitby k _ _ => k ≠ .list
  | .join k _ => k ≠ .list
  | _ => True

/-- No list anywhere inside any of the values. -/
def FrozenAll : List Val → Prop
  | [] => True
  | x :: xs => Frozen x ∧ FrozenAll xs
end

mutual
/-- The value is frozen, or it is a list or tuple of such values. -/
def ListsOutside : Val → Prop
  | .list xs => ListsOutsideAll xs
  | .tuple xs => ListsOutsideAll xs
  | v => Frozen v

/-- `ListsOutside` for all values of a list. -/
def ListsOutsideAll : List Val → Prop
  | [] => True
  | x :: xs => ListsOutside x ∧ ListsOutsideAll xs
end

/-- The expressions inside the expression are frozen; its own sequences may be lists. -/
def OwnLists : Val → Prop
  | .curried _ _ _ is _ ps _ => ListsOutsideAll is ∧ ListsOutsideAll ps
  | .lam _ _ b => Frozen b
  | .cond l _ r => Frozen l ∧ ListsOutside r
  | .boolCond _ _ _ cs => ListsOutsideAll cs
  | .orderby e _ => Frozen e
  | _ => True

end Verif.Spec
