import Verif.Model.MetricsQuery
import Verif.Py.Json

/-!
# The texts of snuba_sdk/metrics_query.py

`MetricsQuery.__str__` and `MetricsQuery.print` turn the dictionary of `MQLPrinter` into JSON.
-/

namespace Verif

/-- `json.dumps(obj, indent=4)` (snuba_sdk/metrics_query.py:91, 96); the entries of dictionaries keep their order. -/
def jsonDumpsIndented (d : Data) : Except Err Str := do
  let j ← d.toJson
  .ok (encodeJson true 0 j)

section
variable [U : PyUnicode] [S : RegexSpace] [R : PyRepr]

/-- `MetricsQuery.__str__` (snuba_sdk/metrics_query.py:89-91). -/
def MetricsQueryObj.str (q : MetricsQueryObj) : Except Err Str := do
  let d ← MetricsQueryObj.print q
  jsonDumpsIndented d

/-- `MetricsQuery.print` (snuba_sdk/metrics_query.py:93-96). -/
def MetricsQueryObj.printText (q : MetricsQueryObj) : Except Err Str := do
  q.validate
  let d ← MetricsQueryObj.print q
  jsonDumpsIndented d

end

end Verif
