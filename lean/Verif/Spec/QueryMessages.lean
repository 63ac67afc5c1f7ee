import Verif.Model.QueryMessages
import Verif.Spec.Messages
import Verif.Spec.MetricsMessages

/-!
# Specification: what the exceptions of queries say
-/

namespace Verif.Spec

/-- Something is wrong with the query itself (not with a query inside it), and the text says what. -/
inductive OwnFault [PyUnicode] : Query → Err → Str → Prop
  | emptyJoin {k b} : OwnFault (.base (.join k []) b) .invalidExpression c!"Join must have at least one Relationship"
  | joinAlias {k rels b a n m} : Uses rels a n → Uses rels a m → Before n m →
      OwnFault (.base (.join k rels) b) .invalidExpression
        (c!"alias '" ++ a ++ c!"' is duplicated for entities " ++ n ++ c!", " ++ m)
  | columnName {q c} : HasItem q.body (.column c) → ¬ OptNewline ColName c.name →
      OwnFault q .invalidColumn (c!"column '" ++ c.name ++ c!"' is empty or contains invalid characters")
  | columnAlias {q c e} : HasItem q.body (.column c) → c.entity = some e → (e.alias = none ∨ e.alias = some []) →
      OwnFault q .invalidColumn (c!"column '" ++ c.name ++ c!"' expects an Entity with an alias")
  | columnUnknown {q c e} : HasItem q.body (.column c) → c.entity = some e → Unsupported e.dataModel c →
      OwnFault q .invalidColumn (c!"'" ++ e.name ++ c!"' does not support the column '" ++ c.name ++ c!"'")
  | column {q c x t} : OccursInBody c q.body → Culprit q c x t → OwnFault q x t
  | noSelect {q} : ¬ NonEmptySeq q.body.select → OwnFault q .invalidQuery c!"query must have at least one expression in select"
  | noGroupby {q} : NonEmptySeq q.body.select → q.body.totals = .totals true → ¬ NonEmptySeq q.body.groupby →
      OwnFault q .invalidQuery c!"totals is only valid with a groupby"

/-- What stands in a list clause. -/
def listItems : Val → List Val
  | .list xs => xs
  | .tuple xs => xs
  | _ => []

/-- What stands in the list clauses, in the order of the clauses. -/
def itemsOf (b : Body) : List Val :=
  listItems b.select ++ listItems b.groupby ++ listItems b.arrayJoin ++ listItems b.where_ ++ listItems b.having ++ listItems b.orderby

/-- A column of an entity whose data model does not have it. -/
def OffModel (v : Val) : Prop := ∃ c e, v = .column c ∧ c.entity = some e ∧ Unsupported e.dataModel c

/-- No column of the query is at fault with respect to its match. -/
def NoCulprit (q : Query) : Prop := ∀ c x t, OccursInBody c q.body → ¬ Culprit q c x t

/-- The first thing that is wrong with a query made of objects of the SDK: columns in the clauses that their own entities do not have,
of which the first is named; then columns that do not fit the match; then the select list; then totals. -/
inductive FirstFault : Query → Err → Str → Prop
  | item {q pre c post e} : itemsOf q.body = pre ++ .column c :: post → (∀ v ∈ pre, ¬ OffModel v) → c.entity = some e →
      Unsupported e.dataModel c → FirstFault q .invalidColumn (c!"'" ++ e.name ++ c!"' does not support the column '" ++ c.name ++ c!"'")
  | column {q c x t} : (∀ v ∈ itemsOf q.body, ¬ OffModel v) → OccursInBody c q.body → Culprit q c x t → FirstFault q x t
  | noSelect {q} : (∀ v ∈ itemsOf q.body, ¬ OffModel v) → NoCulprit q → ¬ NonEmptySeq q.body.select →
      FirstFault q .invalidQuery c!"query must have at least one expression in select"
  | noGroupby {q} : (∀ v ∈ itemsOf q.body, ¬ OffModel v) → NoCulprit q → NonEmptySeq q.body.select → q.body.totals = .totals true →
      ¬ NonEmptySeq q.body.groupby → FirstFault q .invalidQuery c!"totals is only valid with a groupby"

section
variable [PyUnicode] [PyShow] [PyText]

/-- The setter of a clause, with messages. -/
def setFieldMsg (σ : SetOrders) : Field → Query → Val → Except Raised Query
  | .select => Query.setSelectMsg σ
  | .groupby => Query.setGroupbyMsg σ
  | .arrayJoin => Query.setArrayJoinMsg σ
  | .where_ => Query.setWhereMsg σ
  | .having => Query.setHavingMsg σ
  | .orderby => Query.setOrderbyMsg σ
  | .limitby => Query.setLimitbyMsg σ
  | .limit => Query.setLimitMsg σ
  | .offset => Query.setOffsetMsg σ
  | .granularity => Query.setGranularityMsg σ
  | .totals => Query.setTotalsMsg σ

omit [PyUnicode] in
/-- What the setter of a clause asks of its argument. -/
def fieldDemands : Field → Val → List Demand
  | .select, v => [setDemand (∃ xs, v = .list xs ∧ xs ≠ [] ∧ ∀ x ∈ xs, Selectable x)
      c!"select clause must be a non-empty list of SelectableExpression"]
  | .groupby, v => [setDemand (∃ xs, v = .list xs ∧ ∀ x ∈ xs, Selectable x) c!"groupby clause must be a list of SelectableExpression"]
  | .arrayJoin, v => [setDemand (∃ cs : List ColumnObj, v = .list (cs.map .column) ∧ cs ≠ [])
      c!"array join must be a non-empty list of Column"]
  | .where_, v => [setDemand (∃ xs, v = .list xs ∧ ∀ x ∈ xs, Cond x) c!"where clause must be a list of conditions"]
  | .having, v => [setDemand (∃ xs, v = .list xs ∧ ∀ x ∈ xs, Cond x) c!"having clause must be a list of conditions"]
  | .orderby, v => [setDemand (∃ xs, v = .list xs ∧ ∀ x ∈ xs, Ordering x) c!"orderby clause must be a list of OrderBy"]
  | .limitby, v => [setDemand (∃ k cs n, v = .limitby k cs n) c!"limitby clause must be a LimitBy"]
  | .limit, v =>
      [exprDemand (IsWhole v) (c!"limit '" ++ v.text ++ c!"' must be an integer"),
       exprDemand (∀ i, IntLike v i → 1 ≤ i.toInt) (c!"limit '" ++ v.text ++ c!"' must be at least 1"),
       exprDemand (∀ i, IntLike v i → i.toInt ≤ 10000) (c!"limit '" ++ v.text ++ c!"' is capped at 10,000")]
  | .offset, v =>
      [exprDemand (IsWhole v) (c!"offset '" ++ v.text ++ c!"' must be an integer"),
       exprDemand (∀ i, IntLike v i → 0 ≤ i.toInt) (c!"offset '" ++ v.text ++ c!"' must be at least 0")]
  | .granularity, v =>
      [exprDemand (IsWhole v) (c!"granularity '" ++ v.text ++ c!"' must be an integer"),
       exprDemand (∀ i, IntLike v i → 1 ≤ i.toInt) (c!"granularity '" ++ v.text ++ c!"' must be at least 1")]
  | .totals, v => [exprDemand (∃ b, v = .bool b) c!"totals must be a boolean"]

end

end Verif.Spec
