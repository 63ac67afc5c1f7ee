import Verif.Model.Printer
import Verif.Model.Hash

/-!
# `==` and `hash` of queries
-/

namespace Verif

/-- `==` of the clauses other than the match (dataclass-generated, snuba_sdk/query.py:55, 67-77): the fields one by one. -/
def Body.pyEq (a b : Body) : Bool :=
  Verif.pyEq a.select b.select && Verif.pyEq a.groupby b.groupby && Verif.pyEq a.arrayJoin b.arrayJoin &&
  Verif.pyEq a.where_ b.where_ && Verif.pyEq a.having b.having && Verif.pyEq a.orderby b.orderby &&
  Verif.pyEq a.limitby b.limitby && Verif.pyEq a.limit b.limit && Verif.pyEq a.offset b.offset &&
  Verif.pyEq a.granularity b.granularity && Verif.pyEq a.totals b.totals

/-- `Query.__eq__` (dataclass-generated, snuba_sdk/query.py:55-77): the tuples of the fields are compared. A query is not
equal to an entity, a storage or a join. Simplification: Python takes identical fields for equal, which only matters for NaN. -/
def Query.pyEq : Query → Query → Bool
  | .base m b, .base m' b' => Verif.pyEq m m' && b.pyEq b'
  | .nested q b, .nested q' b' => q.pyEq q' && b.pyEq b'
  | _, _ => false

/-- `hash` of the clauses other than the match, in the order of the fields (dataclass-generated, snuba_sdk/query.py:55, 67-77). -/
def Body.hashTrees (b : Body) : Except Err (List HashTree) :=
  Verif.hashTrees [b.select, b.groupby, b.arrayJoin, b.where_, b.having, b.orderby, b.limitby, b.limit, b.offset, b.granularity, b.totals]

/-- `Query.__hash__` (dataclass-generated because of `frozen=True`, snuba_sdk/query.py:55-77): the hash of the tuple of the fields. -/
def Query.hashTree : Query → Except Err HashTree
  | .base m b => do
    let h ← Verif.hashTree m
    let hs ← b.hashTrees
    .ok (.fields (h :: hs))
  | .nested q b => do
    let h ← q.hashTree
    let hs ← b.hashTrees
    .ok (.fields (h :: hs))

end Verif
