import Verif.Model.MetricsQuery

/-!
# snuba_sdk/metrics_query.py:86-111 in several threads

`serialize` reads and assigns the field `query` of a `MetricsQuery`, and the object may be shared by threads. A call is
cut into steps wherever the field is read or assigned; between two steps other threads may run. Everything else that a
call touches is its own: `Validator()` and `OrOptimizer()` are made for each call, `MQL_PRINTER` has no state, and the
queries themselves are never changed, only replaced. Simplification: one read or assignment of an attribute is
indivisible, as it is in CPython, and the other fields are not assigned by anybody while calls run (the methods `set_*`
make new objects).
-/

namespace Verif

/-- The calls that look at a metrics query: `validate`, `__str__`, `print` and `serialize`
(snuba_sdk/metrics_query.py:86-102). -/
inductive LookCall where
  | validate
  | str
  | print
  | serialize
  deriving DecidableEq

/-- How far a call has come: what it does next, with the values it has in hand
(snuba_sdk/metrics_query.py:86-111). -/
inductive Stage where
  /-- `Validator().visit(self)` (snuba_sdk/metrics_query.py:86-87) -/
  | validating
  /-- `isinstance(self.query, (Formula, Timeseries))` (snuba_sdk/metrics_query.py:106) -/
  | testing
  /-- `self.query.filters is not None` (snuba_sdk/metrics_query.py:107) -/
  | asking
  /-- `new_filters = OrOptimizer().optimize(self.query.filters)` (snuba_sdk/metrics_query.py:109) -/
  | merging
  /-- `replace(self.query, filters=new_filters)` (snuba_sdk/metrics_query.py:111) -/
  | replacing (filters : Val)
  /-- the assignment to `self.query` (snuba_sdk/metrics_query.py:111) -/
  | assigning (query : MVal)
  /-- `MQL_PRINTER.visit(self)` (snuba_sdk/metrics_query.py:90, 95, 101) -/
  | printing
  /-- the call has returned, or has raised an exception -/
  | finished (result : Except Err Data)

/-- The attribute `filters` of a query, which only timeseries and formulas have (snuba_sdk/timeseries.py:81,
snuba_sdk/formula.py:44). -/
def filtersOf : MVal → Except Err Val
  | .ts t => .ok t.filters
  | .formula _ _ _ f _ => .ok f
  | _ => .error .attributeError

/-- `replace(query, filters=new_filters)` of `dataclasses` (snuba_sdk/metrics_query.py:111); the constructor of a
timeseries checks its arguments. `replace` raises a `TypeError` for other values. -/
def replaceWith (f : Val) : MVal → Except Err MVal
  | .ts t => do
    let t ← mkTimeseries (.metric t.metric) t.aggregate t.aggregateParams f t.groupby
    .ok (.ts t)
  | .formula n p a _ g => .ok (.formula n p a f g)
  | _ => .error .typeError

section
variable [U : PyUnicode] [S : RegexSpace] [R : PyRepr]

/-- Where a call begins (snuba_sdk/metrics_query.py:87, 90, 94, 99). -/
def LookCall.first : LookCall → Stage
  | .str => .printing
  | _ => .validating

/-- What follows the validation (snuba_sdk/metrics_query.py:86-100). -/
def LookCall.validated : LookCall → Stage
  | .validate => .finished (.ok (.val .none))
  | .str => .printing
  | .print => .printing
  | .serialize => .testing

/-- A step of a call on the object (snuba_sdk/metrics_query.py:86-111). The visitors read each field once, the query first
(snuba_sdk/metrics_query_visitors.py:23-30, snuba_sdk/mql_visitor.py:25-31), so that a visit is one step. The conversion of
the result to JSON in `__str__` and `print` is left out. -/
def Stage.step (q : MetricsQueryObj) (c : LookCall) : Stage → MetricsQueryObj × Stage
  | .validating =>
    match q.validate with
    | .error e => (q, .finished (.error e))
    | .ok _ => (q, c.validated)
  | .testing =>
    match q.query with
    | .ts _ => (q, .asking)
    | .formula .. => (q, .asking)
    | _ => (q, .printing)
  | .asking =>
    match filtersOf q.query with
    | .error e => (q, .finished (.error e))
    | .ok f => (q, if f.given then .merging else .printing)
  | .merging =>
    match filtersOf q.query with
    | .error e => (q, .finished (.error e))
    | .ok f =>
      match (do let xs ← iterItems f; optimize xs : Except Err (Option (List Val))) with
      | .error e => (q, .finished (.error e))
      | .ok none => (q, .printing)
      | .ok (some new) => (q, .replacing (.list new))
  | .replacing f =>
    match replaceWith f q.query with
    | .error e => (q, .finished (.error e))
    | .ok v => (q, .assigning v)
  | .assigning v => ({ q with query := v }, .printing)
  | .printing => (q, .finished q.print)
  | .finished r => (q, .finished r)

/-- The object and the calls that were begun on it, each with how far it has come (snuba_sdk/metrics_query.py:86-111). -/
structure SharedQuery where
  object : MetricsQueryObj
  calls : List (LookCall × Stage) := []

/-- What happens next: a thread begins a call, or the call with the given number makes a step
(snuba_sdk/metrics_query.py:86-111). -/
inductive ThreadEvent where
  | begins (c : LookCall)
  | steps (i : Nat)
  deriving DecidableEq

/-- The object and the calls after an event (snuba_sdk/metrics_query.py:86-111); numbers that no
call has are passed over. -/
def SharedQuery.next (w : SharedQuery) : ThreadEvent → SharedQuery
  | .begins c => { w with calls := w.calls ++ [(c, c.first)] }
  | .steps i =>
    match w.calls[i]? with
    | none => w
    | some (c, s) => ⟨(s.step w.object c).1, w.calls.set i (c, (s.step w.object c).2)⟩

/-- The object and the calls after some events (snuba_sdk/metrics_query.py:86-111). -/
def SharedQuery.run : SharedQuery → List ThreadEvent → SharedQuery
  | w, [] => w
  | w, e :: es => (w.next e).run es

end

end Verif
