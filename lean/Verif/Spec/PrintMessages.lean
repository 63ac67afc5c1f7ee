import Verif.Model.PrintMessages
import Verif.Spec.MqlBlame

/-!
# Specification: what the exceptions of the printer of metrics queries say
-/

namespace Verif.Spec

/-- A comparison with a function on its right side, alone or joined with others. -/
inductive ComparesFunction : Val → Prop
  | here (l o r) : IsFunction r → ComparesFunction (.cond l o r)
  | item (c o k cs x) : x ∈ cs → ComparesFunction x → ComparesFunction (.boolCond c o k cs)

/-- A timeseries or formula has a filter among its filters. -/
inductive HasFilter : MVal → Val → Prop
  | ts (t xs f) : t.filters = .list xs ∨ t.filters = .tuple xs → f ∈ xs → HasFilter (.ts t) f
  | formula (n p a fs g xs f) : fs = .list xs ∨ fs = .tuple xs → f ∈ xs → HasFilter (.formula n p a fs g) f

/-- A part of the query has a filter that compares with a function. -/
def FunctionInFilters (x : MVal) : Prop := ∃ y f, InFormula x y ∧ HasFilter y f ∧ ComparesFunction f

/-- What is said about a comparison with a function. -/
def functionFault : Raised := (.invalidExpression, some c!"CurriedFunction and Function are not supported in conditions in MQL")

/-- What is said about a metrics query without mappings. -/
def mappingsFault : Raised := (.invalidMetricsQuery, some c!"MetricQuery.indexer_mappings must not be None")

/-- Every timeseries in the query has a metric with a name. -/
def MetricsNamed (x : MVal) : Prop := ∀ t, InFormula x (.ts t) → MetricOk t.metric

end Verif.Spec
