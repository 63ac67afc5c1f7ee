import Verif.Model.Legacy

/-!
# snuba_sdk/legacy.py:215-370 on bodies with shared lists

In Python a list is an object, and the same list may occur in several places of a body. `json_to_snql` assigns to items of
lists under `orderby` (snuba_sdk/legacy.py:326), which every place sees where the list occurs. Here lists have addresses. The
value under `tenant_ids` is not followed (no list is changed there by way of `orderby`: simplification).
-/

namespace Verif

/-- A value of a body: a value that is neither a list nor a tuple, a tuple, or the list at an address (Python built-ins). -/
inductive HVal where
  | val (v : Val)
  | tuple (xs : List HVal)
  | ref (a : Nat)

/-- The items of the lists (Python built-in `list`). -/
abbrev Heap := Nat → List HVal

/-- `xs[0] = x` for the list at an address (Python built-in). -/
def Heap.setFirst (h : Heap) (a : Nat) (x : HVal) : Heap := fun b => if b = a then x :: (h a).drop 1 else h b

/-- The value as it is at present, with lists followed to the given depth (modelling aid): `none` if it is deeper, or if it
is a list or tuple given as a plain value. -/
def HVal.read (h : Heap) : Nat → HVal → Option Val
  | 0, _ => none
  | n + 1, x =>
    match x with
    | .val (.list _) => none
    | .val (.tuple _) => none
    | .val v => some v
    | .tuple xs => (xs.mapM (HVal.read h n)).map .tuple
    | .ref a => ((h a).mapM (HVal.read h n)).map .list

/-- The legacy body (snuba_sdk/legacy.py:215) with lists by address. -/
structure SharedBody where
  entries : List (Str × HVal)
  tenantIds : Data := .val .none

/-- One entry as it is at present (modelling aid). -/
def readEntry (h : Heap) (n : Nat) (p : Str × HVal) : Option (Str × Val) := (p.2.read h n).map fun v => (p.1, v)

/-- The body as it is at present (modelling aid). -/
def SharedBody.read (h : Heap) (n : Nat) (b : SharedBody) : Option LegacyBody :=
  (b.entries.mapM (readEntry h n)).map fun es => { entries := es, tenantIds := b.tenantIds }

/-- `o[0] = first.lstrip("-")`, if `o` is a list whose first item is a text with a dash (snuba_sdk/legacy.py:323-326). -/
def stripFirst (h : Heap) : HVal → Heap
  | .ref a =>
    match h a with
    | .val (.str s) :: _ => if startsWith s c!"-" then h.setFirst a (.val (.str (lstripP (· == '-') s))) else h
    | _ => h
  | _ => h

section
variable [U : PyUnicode] [D : PyDecimal]

/-- The loop over `order_by` (snuba_sdk/legacy.py:320-336): each item is read when its turn comes. `none` if it is deeper than
the given depth. -/
def sharedLoop (n : Nat) (h : Heap) (part : Option Val) : List HVal → Option (Except Err (List Val) × Heap)
  | [] => some (.ok [], h)
  | o :: os => do
    let v ← o.read h n
    match (orderStep part v).1 with
    | .error e => some (.error e, stripFirst h o)
    | .ok (p, d) =>
      match mkOrderBy p (.direction d) with
      | .error e => some (.error e, stripFirst h o)
      | .ok x => do
        let (r, h') ← sharedLoop n (stripFirst h o) (some p) os
        some (r.map (x :: ·), h')

/-- The items of `order_by` (snuba_sdk/legacy.py:317-318). -/
def orderItems (h : Heap) : HVal → List HVal
  | .ref a => h a
  | o => [o]

/-- `json_to_snql` (snuba_sdk/legacy.py:215-370) on a body with shared lists: the request, and the lists afterwards. What
follows the `orderby` reads the body as it is then. `none` if the body is deeper than the given depth. Simplification: the
list under `orderby` does not contain itself. -/
def sharedToSnql [N : PyNumberText] (n : Nat) (h : Heap) (body : SharedBody) (entity : Str) : Option (Except Err RequestObj × Heap) := do
  let b ← body.read h n
  match legacyStart b entity with
  | .error e => some (.error e, h)
  | .ok q =>
    if (b.get c!"orderby").truthy then do
      let o ← body.entries.lookup c!"orderby"
      let (r, h') ← sharedLoop n h none (orderItems h o)
      let b' ← body.read h' n
      some (r.bind fun obs => (q.setOrderby (.list obs)).bind fun q => legacyFinish b' entity q, h')
    else some (legacyFinish b entity q, h)

end

end Verif
