import Verif.Model.Conditions

/-!
# snuba_sdk/orderby.py
-/

namespace Verif

/-- `OrderBy(exp, direction)` (snuba_sdk/orderby.py:15-26). -/
def mkOrderBy (exp direction : Val) : Except Err Val := do
  ensure exp.isColOrFn .invalidExpression
  match direction with
  | .direction d => .ok (.orderby exp d)
  | _ => .error .invalidExpression

/-- The element loop of `validate_sequence_of_type(…, Column, …)` (snuba_sdk/orderby.py:38-42). -/
def allColumns : List Val → Except Err (List ColumnObj)
  | [] => .ok []
  | v :: vs => match v with
    | .column c => do
      let cs ← allColumns vs
      .ok (c :: cs)
    | _ => .error .invalidExpression

/-- `LimitBy(columns, count)` (snuba_sdk/orderby.py:45-55) with `validate_sequence_of_type`
(lines 29-42). -/
def mkLimitBy (columns count : Val) : Except Err Val :=
  match columns.seq? with
  | none => .error .invalidExpression
  | some (k, xs) => do
    ensure (decide (1 ≤ xs.length)) .invalidExpression
    let cs ← allColumns xs
    match count.asInt? with
    | none => .error .invalidExpression
    | some i => do
      ensure (!(decide (i.toInt ≤ 0) || decide (i.toInt > 10000))) .invalidExpression
      .ok (.limitby k cs i)

end Verif
