import Verif.Model.SendMessages
import Verif.Spec.PrintMessages
import Verif.Spec.RequestMessages

/-!
# Specification: what is said when a request cannot be sent
-/

namespace Verif.Spec

/-- What is asked of a metrics query when it is sent, and not before. -/
def mappingsDemand (q : MetricsQueryObj) : Demand :=
  ⟨q.indexerMappings ≠ .val .none, .invalidMetricsQuery, some c!"MetricQuery.indexer_mappings must not be None"⟩

end Verif.Spec
