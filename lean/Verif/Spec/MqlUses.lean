import Verif.Spec.MqlMeaning

/-!
# Specification: the names and strings in a query

Written without reference to the parser.
-/

namespace Verif

namespace Spec

/-- The names of the columns in a condition, and the strings in it that contain no quotes. -/
inductive ValUses : Val → Str → Prop
  | string {s : Str} (h : '"' ∉ s) : ValUses (.str s) s
  | list {xs : List Val} {x : Val} {s : Str} (hx : x ∈ xs) (h : ValUses x s) : ValUses (.list xs) s
  | column {c : ColumnObj} : ValUses (.column c) c.name
  | lhs {l r : Val} {o : Op} {s : Str} (h : ValUses l s) : ValUses (.cond l o r) s
  | rhs {l r : Val} {o : Op} {s : Str} (h : ValUses r s) : ValUses (.cond l o r) s
  | member {c : BoolCls} {o : BooleanOp} {k : SeqKind} {xs : List Val} {x : Val} {s : Str} (hx : x ∈ xs) (h : ValUses x s) :
      ValUses (.boolCond c o k xs) s

/-- The names of the functions that operators denote. -/
def operatorNames : List Str := [c!"plus", c!"minus", c!"multiply", c!"divide", c!"negate"]

/-- The names and strings in a query: metrics, aggregates, functions other than those that operators denote, columns, parameters,
and the strings in filters. -/
inductive QueryUses : MVal → Str → Prop
  | publicName {t : TimeseriesObj} {s : Str} (h : t.metric.publicName = .str s) : QueryUses (.ts t) s
  | mri {t : TimeseriesObj} {s : Str} (h : t.metric.mri = .str s) : QueryUses (.ts t) s
  | aggregate {t : TimeseriesObj} {s : Str} (h : t.aggregate = .str s) (hp : s ≠ c!"AGGREGATE_PLACEHOLDER") : QueryUses (.ts t) s
  | params {t : TimeseriesObj} {s : Str} (h : ValUses t.aggregateParams s) : QueryUses (.ts t) s
  | filters {t : TimeseriesObj} {s : Str} (h : ValUses t.filters s) : QueryUses (.ts t) s
  | groupby {t : TimeseriesObj} {s : Str} (h : ValUses t.groupby s) : QueryUses (.ts t) s
  | function {s : Str} {ps : MVal} {a f g : Val} (h : s ∉ operatorNames) : QueryUses (.formula (.str s) ps a f g) s
  | operand {n : Val} {xs : List MVal} {a f g : Val} {x : MVal} {s : Str} (hx : x ∈ xs) (h : QueryUses x s) : QueryUses (.formula n (.list xs) a f g) s
  | formulaParams {n : Val} {ps : MVal} {a f g : Val} {s : Str} (h : ValUses a s) : QueryUses (.formula n ps a f g) s
  | formulaFilters {n : Val} {ps : MVal} {a f g : Val} {s : Str} (h : ValUses f s) : QueryUses (.formula n ps a f g) s
  | formulaGroupby {n : Val} {ps : MVal} {a f g : Val} {s : Str} (h : ValUses g s) : QueryUses (.formula n ps a f g) s
  | value {v : Val} {s : Str} (h : ValUses v s) : QueryUses (.val v) s

end Spec

end Verif
