import Verif.Model.MetricsMessages
import Verif.Model.QueryMessages
import Verif.Model.Request

/-!
# Requests with the messages of their exceptions

The functions below follow the functions of the same names in `Model/Request.lean`, and also give the message of the exception. The flags and
deletions are in `Model/Messages.lean`, metrics queries in `Model/MetricsMessages.lean`, queries in `Model/QueryMessages.lean`.
-/

namespace Verif

section
variable [PyShow] [PyText]

/-- `f"{x}"` (Python built-in, used at snuba_sdk/request.py:67): a string is itself. -/
def Data.text : Data → Str
  | .val v => v.text
  | d => d.repr

omit [PyShow] [PyText] in
/-- The checks of `dataset` and `app_id`, which differ in the name of the field (snuba_sdk/request.py:56-59, 61-64). -/
def checkNameMsg (field : Str) : Data → Except Raised Unit
  | .val (.str s) =>
    if s.isEmpty then raise .invalidRequest (c!"Request must have a valid " ++ field)
    else demand (FLAG_RE.matches s) .invalidRequest (c!"'" ++ s ++ c!"' is not a valid " ++ field)
  | _ => raise .invalidRequest (c!"Request must have a valid " ++ field)

/-- The check of `parent_api` (snuba_sdk/request.py:66-67). -/
def checkParentMsg : Data → Except Raised Unit
  | .val (.str s) => if s.isEmpty then raise .invalidRequest (c!"`" ++ s ++ c!"` is not a valid parent_api") else .ok ()
  | d => raise .invalidRequest (c!"`" ++ d.text ++ c!"` is not a valid parent_api")

omit [PyShow] [PyText] in
/-- The check of `tenant_ids` (snuba_sdk/request.py:69-70). -/
def checkTenantsMsg : Data → Except Raised Unit
  | .dict _ => .ok ()
  | _ => raise .invalidRequest c!"Request must have a `tenant_ids` dictionary"

omit [PyShow] [PyText] in
/-- `if self.flags is not None: self.flags.validate()` (snuba_sdk/request.py:73-74). -/
def validateFlagsMsg : Option FlagsObj → Except Raised Unit
  | none => .ok ()
  | some f => f.validateMsg

variable [U : PyUnicode] [S : RegexSpace] [R : PyRepr]

/-- `self.query.validate()` (snuba_sdk/request.py:72; query.py:167-168, metrics_query.py:86-87, delete_query.py:32-40). -/
def AnyQuery.validateMsg (σ : SetOrders) : AnyQuery → Except Raised Unit
  | .snql q => q.validateMsg σ
  | .metrics q => q.validateMsg
  | .delete q => q.validateMsg

/-- `Request.validate` (snuba_sdk/request.py:55-74). -/
def RequestObj.validateMsg (σ : SetOrders) (r : RequestObj) : Except Raised Unit := do
  checkNameMsg c!"dataset" r.dataset
  checkNameMsg c!"app_id" r.appId
  checkParentMsg r.parentApi
  checkTenantsMsg r.tenantIds
  r.query.validateMsg σ
  validateFlagsMsg r.flags

end

end Verif
