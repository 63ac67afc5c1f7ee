import Verif.Model.PyEq
import Verif.Py.Err

/-!
# Python `hash`

The number that `hash` returns is a function of the tree that is built here; the function itself (and so whether two
different trees have the same number) is not modelled.
-/

namespace Verif

/-- What `hash(v)` depends on. Numbers of all classes are hashed by their value, frozen dataclasses as the tuple of their
fields, aware datetimes as instants (Python built-ins). Simplification: Python hashes a NaN by its identity. -/
inductive HashTree
  | none
  | num (i : Int)
  | frac (neg : Bool) (m : Nat) (e : Int)
  | inf (neg : Bool)
  | nan
  | text (s : Str)
  | bytes (bs : List UInt8)
  | date (d : Date)
  | naive (micros : Int)
  | instant (micros : Int)
  | seq (k : SeqKind) (xs : List HashTree)
  | op (o : Op)
  | boolOp (o : BooleanOp)
  | direction (d : Direction)
  | other (n : Nat)

/-- The hash of a tuple of hashed values; a frozen dataclass is hashed as the tuple of its fields (Python built-in
`dataclasses._hash_fn`, used by every `@dataclass(frozen=True)`, e.g. snuba_sdk/column.py:17). -/
def HashTree.fields (xs : List HashTree) : HashTree := .seq .tuple xs

/-- `hash` of a float (Python built-in). -/
def PyFloat.hashTree : PyFloat → HashTree
  | .fin d => match d.toInt? with
    | some i => .num i
    | none => .frac d.neg d.m d.e
  | .inf neg => .inf neg
  | .nan => .nan

/-- `hash` of an attribute that may be `None`. -/
def optHash {α : Type} (f : α → HashTree) : Option α → HashTree
  | none => .none
  | some a => f a

/-- `Entity.__hash__` (dataclass-generated, snuba_sdk/entity.py:15-20; the data model is left out by `hash=False`). -/
def EntityObj.hashTree (e : EntityObj) : HashTree := .fields [.text e.name, optHash .text e.alias, optHash PyFloat.hashTree e.sample]

/-- `Storage.__hash__` (dataclass-generated, snuba_sdk/storage.py:15-19; the data model is left out by `hash=False`). -/
def StorageObj.hashTree (s : StorageObj) : HashTree := .fields [.text s.name, optHash PyFloat.hashTree s.sample]

/-- `Column.__hash__` (dataclass-generated, snuba_sdk/column.py:17-39). -/
def ColumnObj.hashTree (c : ColumnObj) : HashTree :=
  .fields [.text c.name, optHash EntityObj.hashTree c.entity, optHash .text c.subscriptable, optHash .text c.key]

/-- `Relationship.__hash__` (dataclass-generated, snuba_sdk/relationships.py:10-32). -/
def RelObj.hashTree (r : RelObj) : HashTree := .fields [r.lhs.hashTree, .text r.name, r.rhs.hashTree]

/-- `datetime.__hash__` (Python built-in). -/
def Datetime.hashTree (t : Datetime) : HashTree :=
  match t.tz.bind id with
  | none => .naive t.localMicros
  | some o => .instant (t.localMicros - o)

/-- `hash` of a sequence attribute whose items have been hashed: a list has no hash (Python built-in). -/
def seqHash (k : SeqKind) (xs : List HashTree) : Except Err HashTree :=
  if k = .list then .error .typeError else .ok (.seq k xs)

mutual
/-- `hash(v)` (Python built-in; dataclass-generated for the SDK classes). `CurriedFunction` keeps the generated `__hash__`
beside its own `__eq__` (snuba_sdk/function.py:31, 99-108), so its alias is hashed; `Function` and `CurriedFunction` have the
same fields (function.py:44-47, 113-115). A `DataModel` holds a set, which has no hash (schema.py:33-37). -/
def hashTree : Val → Except Err HashTree
  | .none => .ok .none
  | .bool b => .ok (.num (if b then 1 else 0))
  | .int i => .ok (.num i)
  | .float f => .ok f.hashTree
  | .str s => .ok (.text s)
  | .bytes bs => .ok (.bytes bs)
  | .date d => .ok (.date d)
  | .datetime t => .ok t.hashTree
  | .list _ => .error .typeError
  | .tuple xs => do
    let hs ← hashTrees xs
    .ok (.seq .tuple hs)
  | .column c => .ok c.hashTree
  | .curried _ n ik is pk ps a => do
    let hi ← hashTrees is
    let i ← seqHash ik hi
    let hp ← hashTrees ps
    let p ← seqHash pk hp
    .ok (.fields [.text n, i, p, optHash .text a])
  | .ident n => .ok (.fields [.text n])
  | .lam k ids b => do
    let i ← seqHash k (ids.map .text)
    let h ← hashTree b
    .ok (.fields [i, h])
  | .aliased c a => .ok (.fields [c.hashTree, optHash .text a])
  | .cond l o r => do
    let hl ← hashTree l
    let hr ← hashTree r
    .ok (.fields [hl, .op o, hr])
  | .boolCond _ o k cs => do
    let hs ← hashTrees cs
    let h ← seqHash k hs
    .ok (.fields [.boolOp o, h])
  | .orderby e d => do
    let h ← hashTree e
    .ok (.fields [h, .direction d])
  | .limitby k cs n => do
    let h ← seqHash k (cs.map ColumnObj.hashTree)
    .ok (.fields [h, .num n.toInt])
  | .limit n => .ok (.fields [.num n.toInt])
  | .offset n => .ok (.fields [.num n.toInt])
  | .granularity n => .ok (.fields [.num n.toInt])
  | .totals b => .ok (.fields [.num (if b then 1 else 0)])
  | .extrapolate b => .ok (.fields [.num (if b then 1 else 0)])
  | .entity e => .ok e.hashTree
  | .storage s => .ok s.hashTree
  | .rel r => .ok r.hashTree
  | .join k rs => do
    let h ← seqHash k (rs.map RelObj.hashTree)
    .ok (.fields [h])
  | .op o => .ok (.op o)
  | .boolOp o => .ok (.boolOp o)
  | .direction d => .ok (.direction d)
  | .dataModel _ => .error .typeError
  | .other n => .ok (.other n)

/-- `hash` of the items of a sequence, in order. -/
def hashTrees : List Val → Except Err (List HashTree)
  | [] => .ok []
  | v :: vs => do
    let h ← hashTree v
    let hs ← hashTrees vs
    .ok (h :: hs)
end

end Verif
