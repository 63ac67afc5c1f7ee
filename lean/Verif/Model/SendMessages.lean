import Verif.Model.PrintMessages
import Verif.Model.RequestMessages

/-!
# Sending a request, with the messages of its exceptions

The functions below follow the functions of the same names in `Model/Request.lean`, `Model/Delete.lean` and `Model/Printer.lean`, and also give
the message of the exception. The request afterwards is left out: `Model/Request.lean` has it. Simplification: a query is validated twice, once
for the request and once for itself, and both times with the same orders of sets; whether it passes does not depend on them (C82).
-/

namespace Verif

/-- `Flags.to_dict` (snuba_sdk/request.py:37-40). -/
def FlagsObj.toDictMsg (f : FlagsObj) : Except Raised (List (Str × Data)) := do
  f.validateMsg
  .ok (setFlags f.fields)

/-- `self.flags.to_dict() if self.flags is not None else {}` (snuba_sdk/request.py:78). -/
def flagsDictMsg : Option FlagsObj → Except Raised (List (Str × Data))
  | none => .ok []
  | some f => f.toDictMsg

/-- `DeleteQuery.serialize` (snuba_sdk/delete_query.py:42-45). -/
def DeleteObj.serializeMsg (d : DeleteObj) : Except Raised Data := do
  d.validateMsg
  .ok (.dict [(c!"columns", d.columnConditions)])

variable [PyShow] [PyText] [U : PyUnicode] [S : RegexSpace] [R : PyRepr]

omit S in
/-- `Query.serialize` (snuba_sdk/query.py:170-176). The messages of exceptions raised by the optimiser and the printer are left out. -/
def Query.serializeMsg (σ : SetOrders) (q : Query) : Except Raised Str := do
  q.validateMsg σ
  let o ← elsewhere q.optimize
  elsewhere (printQuery c!" " o)

/-- `Request.to_dict` after the validation and the flags (snuba_sdk/request.py:80-111). -/
def RequestObj.buildMsg (σ : SetOrders) (r : RequestObj) (flags : List (Str × Data)) : Except Raised Data :=
  match r.query with
  | .metrics q => do
    let d ← q.serializeMsg
    elsewhere (r.metricsDict flags d)
  | .delete q => do
    let d ← q.serializeMsg
    .ok (.dict (r.deletion flags d))
  | .snql q => do
    let t ← q.serializeMsg σ
    .ok (.dict (r.dict flags t))

/-- `Request.to_dict` (snuba_sdk/request.py:76-111). -/
def RequestObj.toDictMsg (σ : SetOrders) (r : RequestObj) : Except Raised Data := do
  r.validateMsg σ
  let flags ← flagsDictMsg r.flags
  r.buildMsg σ flags

/-- `Request.serialize`, `serialize_mql` and `__str__` (snuba_sdk/request.py:113-122). -/
def RequestObj.serializeMsg (σ : SetOrders) (r : RequestObj) : Except Raised Str := do
  let d ← r.toDictMsg σ
  elsewhere (jsonDumps d)

/-- `Request.print` (snuba_sdk/request.py:124-127). -/
def RequestObj.printMsg (σ : SetOrders) (r : RequestObj) : Except Raised Str := do
  r.validateMsg σ
  let d ← r.toDictMsg σ
  elsewhere (jsonDumpsPretty d)

end Verif
