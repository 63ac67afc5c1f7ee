import Verif.Py.Regex
import Verif.Model.PyEq

/-!
# snuba_sdk/snuba.py and the aggregate helpers of snuba_sdk/query_visitors.py
-/

namespace Verif

/-- `_AGGREGATION_FUNCTIONS_BASE` (snuba_sdk/snuba.py:15-88). -/
def aggregationBase : List Str :=
  [c!"count", c!"min", c!"max", c!"sum", c!"avg", c!"any", c!"stddevPop", c!"stddevSamp", c!"varPop",
   c!"varSamp", c!"covarPop", c!"covarSamp", c!"anyHeavy", c!"anyLast", c!"argMin", c!"argMax",
   c!"avgWeighted", c!"topK", c!"topKWeighted", c!"groupArray", c!"groupUniqArray", c!"groupArrayInsertAt",
   c!"groupArrayMovingAvg", c!"groupArrayMovingSum", c!"groupBitAnd", c!"groupBitOr", c!"groupBitXor",
   c!"groupBitmap", c!"groupBitmapAnd", c!"groupBitmapOr", c!"groupBitmapXor", c!"sumWithOverflow",
   c!"sumMap", c!"minMap", c!"maxMap", c!"skewSamp", c!"skewPop", c!"kurtSamp", c!"kurtPop", c!"uniq",
   c!"uniqExact", c!"uniqCombined", c!"uniqCombined64", c!"uniqHLL12", c!"quantile", c!"quantiles",
   c!"quantileExact", c!"quantileExactLow", c!"quantileExactHigh", c!"quantileExactWeighted",
   c!"quantileTiming", c!"quantileTimingWeighted", c!"quantileDeterministic", c!"quantileTDigest",
   c!"quantileTDigestWeighted", c!"simpleLinearRegression", c!"stochasticLinearRegression",
   c!"stochasticLogisticRegression", c!"categoricalInformationValue", c!"histogram", c!"sequenceMatch",
   c!"sequenceCount", c!"windowFunnel", c!"retention", c!"uniqUpTo", c!"sumMapFiltered", c!"apdex",
   c!"failure_rate"]

/-- `_AGGREGATION_SUFFIXES` (snuba_sdk/snuba.py:90-102). -/
def aggregationSuffixes : List Str :=
  [c!"", c!"If", c!"Array", c!"SampleState", c!"State", c!"Merge", c!"MergeState", c!"ForEach", c!"OrDefault",
   c!"OrNull", c!"Resample"]

/-- `AGGREGATION_FUNCTIONS` (snuba_sdk/snuba.py:104-108), a set. -/
def aggregationFunctions : List Str :=
  aggregationBase.flatMap fun f => aggregationSuffixes.map fun s => f ++ s

/-- `FUNCTION_NAME` (snuba_sdk/snuba.py:110): `([a-zA-Z_]+)\(`. -/
def functionCallRe : Regex :=
  .seq (.plus (.cls fun c => isAlpha c || c == '_')) (.chr '(')

/-- `FUNCTION_NAME.findall(s)` (snuba_sdk/snuba.py:116; Python built-in `re`): scan for leftmost matches that do not
overlap; the result of each is its group 1, which is the matched text without the bracket that ends it. The
fuel bounds the number of steps (the length of the text suffices). -/
def findCalls : Nat → Str → List Str
  | 0, _ => []
  | f + 1, s =>
    match functionCallRe.run s with
    | t :: _ => (s.take (s.length - t.length)).dropLast :: findCalls f t
    | [] => findCalls f (s.drop 1)

/-- `is_aggregation_function` (snuba_sdk/snuba.py:113-123); `none` is no set of aliases. -/
def isAggregationFunction (name : Str) (aliases : Option (List Str)) : Bool :=
  if name.contains '(' &&
      ((findCalls (name.length + 1) name).any (fun w => aggregationFunctions.contains w) ||
        (match aliases with
          | none => false
          | some al => al.any fun a => isInfix a name)) then true
  else aggregationFunctions.contains name

mutual
/-- `is_aggregate` (snuba_sdk/query_visitors.py:29-49). Called on functions only; other values give `False`
here (simplification: the code would raise `AttributeError`). -/
def isAggregate (aliases : Option (List Str)) : Val → Bool
  | .curried _ name _ _ _ params _ => isAggregationFunction name aliases || anyAggregate aliases params
  | _ => false

/-- The loop over the parameters in `is_aggregate` (snuba_sdk/query_visitors.py:37-47). -/
def anyAggregate (aliases : Option (List Str)) : List Val → Bool
  | [] => false
  | .column c :: ps => (aliases.getD []).contains c.name || anyAggregate aliases ps
  | p :: ps => isAggregate aliases p || anyAggregate aliases ps
end

mutual
/-- `find_column_in_function` (snuba_sdk/query_visitors.py:52-64). Called on functions only; other values give
`False` here (simplification: the code would raise `AttributeError`). -/
def findColumnInFunction (col : ColumnObj) : Val → Bool
  | .curried _ _ _ _ _ params _ => anyColumnInFunction col params
  | _ => false

/-- The loop over the parameters in `find_column_in_function` (snuba_sdk/query_visitors.py:55-62). -/
def anyColumnInFunction (col : ColumnObj) : List Val → Bool
  | [] => false
  | p :: ps => pyEq p (.column col) || findColumnInFunction col p || anyColumnInFunction col ps
end

end Verif
