import Verif.Model.Val
import Verif.Py.Regex

/-!
# snuba_sdk/expressions.py
-/

namespace Verif

/-- `isinstance(v, str)` or raise (used by the name checks, e.g. snuba_sdk/entity.py:24,
column.py:42, function.py:50). -/
def asStr (v : Val) (e : Err) : Except Err Str :=
  match v with
  | .str s => .ok s
  | _ => .error e

/-- The class `[a-zA-Z0-9_\.\+\*\/:\-\[\]\(\)\@]` (snuba_sdk/expressions.py:23). -/
def aliasChar (c : Char) : Bool :=
  isAlpha c || isDigit c || c == '_' || c == '.' || c == '+' || c == '*' || c == '/' || c == ':' ||
  c == '-' || c == '[' || c == ']' || c == '(' || c == ')' || c == '@'

/-- `ALIAS_RE` (snuba_sdk/expressions.py:23). -/
def ALIAS_RE : Regex := .seq (.star (.cls aliasChar)) .eol

/-- `is_literal` (snuba_sdk/expressions.py:61-65): an instance of a type in `Scalar` (lines 32-41). -/
def isLiteral : Val → Bool
  | .none | .bool _ | .str _ | .bytes _ | .float _ | .int _ | .date _ | .datetime _ => true
  | _ => false

mutual
/-- `is_scalar` (snuba_sdk/expressions.py:68-76). -/
def isScalar : Val → Except Err Bool
  | .list xs => allScalar xs
  | .tuple xs => allScalar xs
  | v => .ok (isLiteral v)

/-- `all(is_scalar(v) or isinstance(v, Expression) for v in value)` and the raise after it
(snuba_sdk/expressions.py:72-74); returns `True` or raises. -/
def allScalar : List Val → Except Err Bool
  | [] => .ok true
  | v :: vs => do
    let b ← isScalar v
    if b || v.isExpression then allScalar vs else .error .invalidExpression
end

/-- `_validate_int_literal` (snuba_sdk/expressions.py:79-87). -/
def validateIntLiteral (v : Val) (minn maxn : Option Int) : Except Err PyInt :=
  match v.asInt? with
  | none => .error .invalidExpression
  | some i =>
    if (match minn with | some m => decide (i.toInt < m) | none => false) then
      .error .invalidExpression
    else if (match maxn with | some m => decide (i.toInt > m) | none => false) then
      .error .invalidExpression
    else .ok i

/-- `Limit(v)` (snuba_sdk/expressions.py:90-95). -/
def mkLimit (v : Val) : Except Err Val := do
  let i ← validateIntLiteral v (some 1) (some 10000)
  .ok (.limit i)

/-- `Offset(v)` (snuba_sdk/expressions.py:98-103). -/
def mkOffset (v : Val) : Except Err Val := do
  let i ← validateIntLiteral v (some 0) none
  .ok (.offset i)

/-- `Granularity(v)` (snuba_sdk/expressions.py:106-111). -/
def mkGranularity (v : Val) : Except Err Val := do
  let i ← validateIntLiteral v (some 1) none
  .ok (.granularity i)

/-- `Totals(v)` (snuba_sdk/expressions.py:114-120). -/
def mkTotals (v : Val) : Except Err Val :=
  match v with
  | .bool b => .ok (.totals b)
  | _ => .error .invalidExpression

/-- `Extrapolate(v)` (snuba_sdk/expressions.py:123-129). -/
def mkExtrapolate (v : Val) : Except Err Val :=
  match v with
  | .bool b => .ok (.extrapolate b)
  | _ => .error .invalidExpression

end Verif
