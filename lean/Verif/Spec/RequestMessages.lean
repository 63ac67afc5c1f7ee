import Verif.Model.RequestMessages
import Verif.Spec.QueryMessages
import Verif.Spec.Request
import Verif.Spec.Errors

/-!
# Specification: what the exceptions of requests say
-/

namespace Verif.Spec

/-- A demand on a request. -/
def requestDemand (p : Prop) (t : Str) : Demand := ⟨p, .invalidRequest, some t⟩

/-- What is asked of a dataset or app id: first that it is a string that is not empty, then that it has no characters but those allowed. -/
def nameDemands (field : Str) (d : Data) : List Demand :=
  requestDemand (∃ s, d = .val (.str s) ∧ s ≠ []) (c!"Request must have a valid " ++ field) ::
  (match d with
   | .val (.str s) =>
     [requestDemand (OptNewline (fun b => ∀ c ∈ b, RequestChar c) s) (c!"'" ++ s ++ c!"' is not a valid " ++ field)]
   | _ => [])

/-- What is asked of a request apart from its query and its flags. -/
def headDemands [PyShow] [PyText] (r : RequestObj) : List Demand :=
  nameDemands c!"dataset" r.dataset ++ nameDemands c!"app_id" r.appId ++
  [requestDemand (∃ s, r.parentApi = .val (.str s) ∧ s ≠ []) (c!"`" ++ r.parentApi.text ++ c!"` is not a valid parent_api"),
   requestDemand (∃ kvs, r.tenantIds = .dict kvs) c!"Request must have a `tenant_ids` dictionary"]

/-- What is asked of one flag. -/
def flagDemand (name : Str) (v : Val) : Demand :=
  ⟨v = .none ∨ ∃ b, v = .bool b, .invalidFlag, some (name ++ c!" must be a boolean")⟩

/-- What is asked of flags, if there are any. -/
def flagDemands : Option FlagsObj → List Demand
  | none => []
  | some f =>
    [flagDemand c!"totals" f.totals, flagDemand c!"consistent" f.consistent, flagDemand c!"turbo" f.turbo, flagDemand c!"debug" f.debug,
     flagDemand c!"dry_run" f.dryRun, flagDemand c!"legacy" f.legacy]

/-- What is asked of the values of one column of a deletion: that they have a length (otherwise Python has the say), and that there are some. -/
def columnDemands (p : Str × Data) : List Demand :=
  [⟨Sized p.2, .typeError, none⟩,
   ⟨SomeValues p.2, .invalidDelete, some (c!"column condition '" ++ p.1 ++ c!"' cannot be empty")⟩]

/-- What is asked of a deletion: conditions, and for each column values. -/
def deleteDemands (d : DeleteObj) : List Demand :=
  ⟨∃ kvs, d.columnConditions = .dict kvs, .attributeError, none⟩ ::
  (match d.columnConditions with
   | .dict kvs => ⟨kvs ≠ [], .invalidDelete, some c!"column conditions cannot be empty"⟩ :: kvs.flatMap columnDemands
   | _ => [])

end Verif.Spec
