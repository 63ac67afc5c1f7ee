import Verif.Model.MetricsMessages
import Verif.Spec.MetricsQuery

/-!
# Specification: what the exceptions of the metrics layer say

Each operation has a list of demands, in the order in which they are looked at, and each demand has an exception. An operation is
refused with the exception of the first demand that is not met.
-/

namespace Verif.Spec

/-- Something that has to hold, and the exception that is raised if it does not. -/
structure Demand where
  holds : Prop
  raises : Raised

/-- `r` belongs to the first demand that is not met. -/
def FirstUnmet (ds : List Demand) (r : Raised) : Prop :=
  ∃ before d after, ds = before ++ d :: after ∧ (∀ b ∈ before, b.holds) ∧ ¬ d.holds ∧ d.raises = r

/-- The operation is refused exactly with the exception of the first demand that is not met. -/
def RefusedBy {α : Type} (x : Except Raised α) (ds : List Demand) : Prop := ∀ r, x = .error r ↔ FirstUnmet ds r

/-- A demand on a timeseries or metric. -/
def tsDemand (p : Prop) (t : Str) : Demand := ⟨p, .invalidTimeseries, some t⟩

/-- A demand on a value. -/
def exprDemand (p : Prop) (t : Str) : Demand := ⟨p, .invalidExpression, some t⟩

/-- A demand on a formula. -/
def formulaDemand (p : Prop) (t : Str) : Demand := ⟨p, .invalidFormula, some t⟩

/-- A demand of a setter of metrics queries. -/
def setDemand (p : Prop) (t : Str) : Demand := ⟨p, .invalidQuery, some t⟩

/-- A demand on a metrics query. -/
def queryDemand (p : Prop) (t : Str) : Demand := ⟨p, .invalidMetricsQuery, some t⟩

/-- The value is a string. -/
def IsText (v : Val) : Prop := ∃ s, v = .str s

/-- The value is a number without a fraction. -/
def IsWhole (v : Val) : Prop := ∃ n, IntLike v n

/-- The value is `None` or a list. -/
def OptAnyList (v : Val) : Prop := v = .none ∨ ∃ xs, v = .list xs

/-- What is asked of a metric. -/
def metricDemands (m : MetricObj) : List Demand :=
  [tsDemand (OptStr m.publicName) c!"public_name must be a string",
   tsDemand (OptStr m.mri) c!"mri must be a string",
   tsDemand (OptInt m.id) c!"id must be an integer",
   tsDemand (m.publicName ≠ .none ∨ m.mri ≠ .none) c!"Metric must have at least one of public_name or mri"]

/-- What is asked of a timeseries. -/
def timeseriesDemands (t : TimeseriesObj) : List Demand :=
  metricDemands t.metric ++
  [tsDemand (IsText t.aggregate) c!"aggregate must be a string",
   tsDemand (OptAnyList t.aggregateParams) c!"aggregate_params must be a list",
   tsDemand (OptList Literal t.aggregateParams) c!"aggregate_params can only be literal types",
   tsDemand (OptAnyList t.filters) c!"filters must be a list",
   tsDemand (OptList Cond t.filters) c!"filters must be a list of Conditions",
   tsDemand (OptAnyList t.groupby) c!"groupby must be a list",
   tsDemand (OptList GroupItem t.groupby) c!"groupby must be a list of Columns or AliasedExpression"]

/-- What is asked of a scope. -/
def scopeDemands (s : ScopeObj) : List Demand :=
  [exprDemand (IntList s.orgIds) c!"org_ids must be a list of integers",
   exprDemand (IntList s.projectIds) c!"project_ids must be a list of integers",
   exprDemand (OptStr s.useCaseId) c!"use_case_id must be an str"]

section
variable [PyShow] [PyText]

/-- What is asked of a rollup. The comparison of the interval with a granularity that is no number is refused by Python, in words that
are not specified. -/
def rollupDemands (r : RollupObj) : List Demand :=
  [exprDemand (r.granularity = .none ∨ Empty r.granularity ∨ ∃ n, n ∈ [0, 10, 60, 3600, 86400] ∧ NumIs r.granularity n)
     c!"granularity must be an integer and one of (10, 60, 3600, 86400)",
   exprDemand (r.interval = .none ∨ IsWhole r.interval) (c!"interval '" ++ r.interval.text ++ c!"' must be an integer"),
   exprDemand (∀ i, IntLike r.interval i → 10 ≤ i.toInt) (c!"interval '" ++ r.interval.text ++ c!"' must be at least 10"),
   ⟨r.interval = .none ∨ r.granularity = .none ∨ ∃ n, NumIs r.granularity n, .typeError, none⟩,
   exprDemand (∀ i n, IntLike r.interval i → NumIs r.granularity n → n ≤ i.toInt)
     c!"interval must be greater than or equal to granularity",
   exprDemand (r.totals = .none ∨ ∃ b, r.totals = .bool b) c!"totals must be a boolean",
   exprDemand (r.interval ≠ .none ∨ r.totals ≠ .none) c!"Rollup must have at least one of interval or totals",
   exprDemand (r.orderby = .none ∨ ∃ d, r.orderby = .direction d) c!"orderby must be a Direction object",
   exprDemand (r.interval = .none ∨ r.orderby = .none) c!"Timeseries queries can't be ordered when using interval"]

variable [PyRepr]

/-- What Python finds when it goes through a value as a sequence; `none` if it is no sequence. -/
def sequenceOf : MVal → Option (List MVal)
  | .list xs => some xs
  | .tuple xs => some xs
  | .val (.list xs) => some (xs.map .val)
  | .val (.tuple xs) => some (xs.map .val)
  | .val (.str s) => some (s.map fun c => .val (.str [c]))
  | .val (.bytes bs) => some (bs.map fun b => .val (.int b.toNat))
  | _ => none

/-- What is asked of the fields of a formula. -/
def formulaFieldDemands (name : Val) (params : MVal) : List Demand :=
  [formulaDemand (IsText name) (c!"formula '" ++ name.text ++ c!"' must be a str"),
   formulaDemand (params ≠ .val .none) c!"Formula must have parameters",
   formulaDemand (∃ xs, sequenceOf params = some xs) (c!"parameters of formula " ++ name.text ++ c!" must be a Sequence")] ++
  ((sequenceOf params).getD []).map fun p =>
    formulaDemand (FormulaParam p) (c!"parameter '" ++ p.text ++ c!"' of formula " ++ name.text ++ c!" is an invalid type")

/-- What is asked of a formula: of its fields, and of all timeseries and formulas inside it. -/
def formulaDemands (name : Val) (params : MVal) (aggregateParams filters groupby : Val) : List Demand :=
  let whole := MVal.formula name params aggregateParams filters groupby
  formulaFieldDemands name params ++
  [formulaDemand (∃ t, InFormula whole (.ts t)) c!"Formulas must operate on at least one Timeseries",
   formulaDemand (∀ y z g h, InFormula whole y → InFormula whole z → Groups y g → Groups z h → pyEqList g h = true)
     c!"Formula parameters must group by the same columns"]

/-- What is asked of a timeseries or formula. -/
def objectDemands : MVal → List Demand
  | .ts t => timeseriesDemands t
  | .formula n p a f g => formulaDemands n p a f g
  | _ => []

variable [U : PyUnicode] [S : RegexSpace]

omit [PyRepr] in
/-- What the parser says about a string that is no MQL (see `C93`); nothing when an `assert` fails. -/
def parserWords (s : Str) : Str :=
  match parseMqlMsg s with
  | .error (_, some words) => words
  | _ => []

/-- What is asked of the field `query`. The message for a string that is no MQL ends with the words of the parser. -/
def queryFieldDemands (x : MVal) : List Demand :=
  [queryDemand (x ≠ .val .none) c!"query is required for a metrics query",
   queryDemand ((∃ t, x = .ts t) ∨ (∃ n p a f g, x = .formula n p a f g) ∨ ∃ s, x = .val (.str s))
     c!"query must be a Timeseries or Formula or MQL string"] ++
  match x with
  | .val (.str s) =>
    queryDemand (∃ y, parseMql s = .ok y) (c!"invalid MQL: " ++ parserWords s) ::
    match parseMql s with
    | .ok y => objectDemands y
    | .error _ => []
  | x => objectDemands x

omit [PyShow] [PyText] [PyRepr] U S in
/-- What is asked of the fields `start` and `end`. -/
def momentDemands (which : Str) (x : MVal) : List Demand :=
  [queryDemand (x ≠ .val .none) (which ++ c!" is required for a metrics query"),
   queryDemand (∃ t, x = .val (.datetime t)) (which ++ c!" must be a datetime")]

omit [PyRepr] U S in
/-- What is asked of the field `rollup`. -/
def rollupFieldDemands (x : MVal) : List Demand :=
  [queryDemand (x ≠ .val .none) c!"rollup is required for a metrics query",
   queryDemand (∃ r, x = .rollup r) c!"rollup must be a Rollup object"] ++
  match x with
  | .rollup r => queryDemand (r.granularity ≠ .none) c!"granularity must be set on the rollup" :: rollupDemands r
  | _ => []

omit [PyShow] [PyText] [PyRepr] U S in
/-- What is asked of the field `scope`. -/
def scopeFieldDemands (x : MVal) : List Demand :=
  [queryDemand (x ≠ .val .none) c!"scope is required for a metrics query",
   queryDemand (∃ s, x = .scope s) c!"scope must be a MetricsScope object"] ++
  match x with
  | .scope s => scopeDemands s
  | _ => []

omit [PyRepr] U S in
/-- What is asked of the fields `limit`, `offset`, `extrapolate` and `indexer_mappings`. -/
def optionDemands (q : MetricsQueryObj) : List Demand :=
  [queryDemand (q.limit = .val .none ∨ ∃ n, q.limit = .val (.limit n)) c!"limit must be a Limit object"] ++
  (match q.limit with
   | .val (.limit n) =>
     [exprDemand (1 ≤ n.toInt) (c!"limit '" ++ n.val.text ++ c!"' must be at least 1"),
      exprDemand (n.toInt ≤ 10000) (c!"limit '" ++ n.val.text ++ c!"' is capped at 10,000")]
   | _ => []) ++
  [queryDemand (q.offset = .val .none ∨ ∃ n, q.offset = .val (.offset n)) c!"offset must be a Offset object"] ++
  (match q.offset with
   | .val (.offset n) => [exprDemand (0 ≤ n.toInt) (c!"offset '" ++ n.val.text ++ c!"' must be at least 0")]
   | _ => []) ++
  [queryDemand (q.extrapolate = .val .none ∨ ∃ b, q.extrapolate = .val (.extrapolate b)) c!"extrapolate must be a Extrapolate object",
   queryDemand (q.indexerMappings = .val .none ∨ ∃ kvs, q.indexerMappings = .data (.dict kvs)) c!"indexer_mappings must be a dictionary"]

/-- What is asked of a metrics query before it is sent. -/
def metricsQueryDemands (q : MetricsQueryObj) : List Demand :=
  queryFieldDemands q.query ++ momentDemands c!"start" q.start ++ momentDemands c!"end" q.end_ ++ rollupFieldDemands q.rollup ++
  scopeFieldDemands q.scope ++ optionDemands q

end

end Verif.Spec
