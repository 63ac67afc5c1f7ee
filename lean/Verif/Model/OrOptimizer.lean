import Verif.Model.PyEq
import Verif.Model.Conditions

/-!
# snuba_sdk/query_optimizers/or_optimizer.py
-/

namespace Verif

/-- The loop at snuba_sdk/query_optimizers/or_optimizer.py:56-65: the remaining right-hand sides, or
`none` if some condition is not an `=` on the shared left-hand side. (`shared_lhs and …` at line 61:
an expression is always truthy.) -/
def collectRhs (shared : Val) : List Val → Option (List Val)
  | [] => some []
  | .cond l o r :: rest =>
    if o ≠ .eq || (shared.truthy && !pyEq l shared) then none
    else (collectRhs shared rest).map (r :: ·)
  | _ :: _ => none

/-- `OrOptimizer._optimize_condition` (snuba_sdk/query_optimizers/or_optimizer.py:38-66). -/
def optimizeCondition (c : Val) : Except Err (Option Val) :=
  match c with
  | .boolCond _ .or _ cs =>
    match cs with
    | .cond l .eq r :: rest =>
      match collectRhs l rest with
      | none => .ok none
      | some rs => do
        let new ← mkCondition l (.op .in_) (.list (r :: rs))
        .ok (some new)
    | _ => .ok none
  | _ => .ok none

/-- The loop of `OrOptimizer.optimize` (snuba_sdk/query_optimizers/or_optimizer.py:23-32): the new
filters and whether anything was optimised. -/
def optimizeLoop : List Val → Except Err (List Val × Bool)
  | [] => .ok ([], false)
  | c :: cs => do
    let res ← optimizeCondition c
    let (rest, opt) ← optimizeLoop cs
    match res with
    | some n => .ok (n :: rest, true)
    | none => .ok (c :: rest, opt)

/-- `OrOptimizer.optimize` (snuba_sdk/query_optimizers/or_optimizer.py:13-36). -/
def optimize (group : List Val) : Except Err (Option (List Val)) := do
  let (new, opt) ← optimizeLoop group
  .ok (if opt then some new else none)

end Verif
