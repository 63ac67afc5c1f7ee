import Verif.Py.Str

/-!
# Exceptions as values

One constructor per exception class that the SDK (or the Python runtime underneath it) raises.
Messages are not modelled.
-/

namespace Verif

/-- Exception classes. SDK classes with the place of definition, then Python built-ins. -/
inductive Err
  | invalidExpression     -- snuba_sdk/expressions.py:10
  | invalidColumn         -- snuba_sdk/column.py:10   (subclass of InvalidExpressionError)
  | invalidFunction       -- snuba_sdk/function.py:19 (subclass of InvalidExpressionError)
  | invalidLambda         -- snuba_sdk/function.py:121 (subclass of InvalidExpressionError)
  | invalidCondition      -- snuba_sdk/conditions.py:17 (subclass of InvalidExpressionError)
  | invalidEntity         -- snuba_sdk/entity.py:11
  | invalidStorage        -- snuba_sdk/storage.py:11
  | invalidQuery          -- snuba_sdk/query_visitors.py:22
  | invalidMatch          -- snuba_sdk/query_validation.py:24
  | requiredColumn        -- snuba_sdk/query_validation.py:126
  | invalidTimeseries     -- snuba_sdk/timeseries.py:18
  | invalidFormula        -- snuba_sdk/formula.py:18 (subclass of InvalidExpressionError)
  | invalidMetricsQuery   -- snuba_sdk/metrics_query_visitors.py:16
  | invalidMQL            -- snuba_sdk/mql/mql.py:21
  | invalidMQLContext     -- snuba_sdk/mql_context.py:6
  | invalidRequest        -- snuba_sdk/request.py:13
  | invalidFlag           -- snuba_sdk/request.py:17
  | invalidDelete         -- snuba_sdk/delete_query.py:7
  | assertion             -- AssertionError
  | attributeError
  | typeError
  | valueError
  | keyError
  | indexError
  | overflowError
  | unicodeDecodeError
  | unboundLocalError
  deriving DecidableEq, Repr, Inhabited

/-- `isinstance(e, InvalidExpressionError)`: the class and its subclasses
(expressions.py:10, column.py:10, function.py:19,121, conditions.py:17, formula.py:18). -/
def Err.isInvalidExpression : Err → Bool
  | .invalidExpression | .invalidColumn | .invalidFunction | .invalidLambda
  | .invalidCondition | .invalidFormula => true
  | _ => false

/-- `raise` unless the test holds (modelling aid for the `if not …: raise …` idiom). -/
def ensure (b : Bool) (e : Err) : Except Err Unit := if b then .ok () else .error e

deriving instance DecidableEq for Except

end Verif
