import Verif.Model.MetricsThreads

/-!
# What a call returns that shares a metrics query with other threads
-/

namespace Verif.Spec
variable [U : PyUnicode] [S : RegexSpace] [R : PyRepr]

/-- The results a call may have, in terms of the object as it was before anybody called: what the same call returns with
nobody else around. The two calls that make texts for people may show the filters as they were given or as they are sent. -/
inductive MayReturn (q : MetricsQueryObj) : LookCall → Except Err Data → Prop
  | valid : q.validate = .ok () → MayReturn q .validate (.ok (.val .none))
  | invalid (e) : q.validate = .error e → MayReturn q .validate (.error e)
  | serialize : MayReturn q .serialize q.serialize.1
  | printBefore : MayReturn q .print q.printed
  | printAfter : MayReturn q .print q.serialize.2.printed
  | strBefore : MayReturn q .str q.print
  | strAfter : MayReturn q .str q.serialize.2.print

/-- The result of a call that runs alone. -/
inductive Returns (q : MetricsQueryObj) : LookCall → Except Err Data → Prop
  | valid : q.validate = .ok () → Returns q .validate (.ok (.val .none))
  | invalid (e) : q.validate = .error e → Returns q .validate (.error e)
  | serialize : Returns q .serialize q.serialize.1
  | print : Returns q .print q.printed
  | str : Returns q .str q.print

/-- The object after a call that runs alone: only `serialize` changes it. -/
def objectAfter (q : MetricsQueryObj) : LookCall → MetricsQueryObj
  | .serialize => q.serialize.2
  | _ => q

end Verif.Spec
