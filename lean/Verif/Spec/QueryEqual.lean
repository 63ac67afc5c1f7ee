import Verif.Model.Query
import Verif.Spec.Equal

/-!
# Specification: what matters for the equality of queries
-/

namespace Verif.Spec

/-- The values that a query consists of: the entity, storage or join, and the clauses of all its levels. -/
inductive MadeOf : Query → Val → Prop
  | match_ (m b) : MadeOf (.base m b) m
  | own (q v) : v ∈ [q.body.select, q.body.groupby, q.body.arrayJoin, q.body.where_, q.body.having, q.body.orderby, q.body.limitby,
      q.body.limit, q.body.offset, q.body.granularity, q.body.totals] → MadeOf q v
  | inner (q b v) : MadeOf q v → MadeOf (.nested q b) v

/-- A property of all values that a query consists of. -/
def Throughout (P : Val → Prop) (q : Query) : Prop := ∀ v, MadeOf q v → P v

end Verif.Spec
