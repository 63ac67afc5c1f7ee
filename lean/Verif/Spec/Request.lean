import Verif.Model.Request
import Verif.Spec.Names

/-!
# Specification: requests
-/

namespace Verif.Spec

/-- The flags of a request by name. -/
inductive FlagOf (f : FlagsObj) : Str → Val → Prop
  | totals : FlagOf f c!"totals" f.totals
  | consistent : FlagOf f c!"consistent" f.consistent
  | turbo : FlagOf f c!"turbo" f.turbo
  | debug : FlagOf f c!"debug" f.debug
  | dryRun : FlagOf f c!"dry_run" f.dryRun
  | legacy : FlagOf f c!"legacy" f.legacy

/-- Every flag is absent or a bool. -/
def FlagsOk (f : FlagsObj) : Prop := ∀ k v, FlagOf f k v → v = .none ∨ ∃ b, v = .bool b

/-- The flag is on or off, not absent. -/
def FlagSet (f : FlagsObj) (k : Str) (b : Bool) : Prop := FlagOf f k (.bool b)

/-- A letter, a digit or one of `_.+*/:-[]`. -/
def RequestChar (c : Char) : Prop :=
  ('a' ≤ c ∧ c ≤ 'z') ∨ ('A' ≤ c ∧ c ≤ 'Z') ∨ ('0' ≤ c ∧ c ≤ '9') ∨ c ∈ c!"_.+*/:-[]"

/-- A dataset or an app id: a string of such characters that is not empty. Python's `$` also lets a newline at the end through. -/
def RequestName (d : Data) : Prop := ∃ s, d = .val (.str s) ∧ s ≠ [] ∧ OptNewline (fun b => ∀ c ∈ b, RequestChar c) s

/-- The values of a column condition: a sequence, string or dictionary that is not empty. -/
inductive SomeValues : Data → Prop
  | list (x xs) : SomeValues (.val (.list (x :: xs)))
  | tuple (x xs) : SomeValues (.val (.tuple (x :: xs)))
  | str (x xs) : SomeValues (.val (.str (x :: xs)))
  | bytes (x xs) : SomeValues (.val (.bytes (x :: xs)))
  | data (x xs) : SomeValues (.list (x :: xs))
  | dict (x xs) : SomeValues (.dict (x :: xs))

/-- A deletion with at least one condition, each with at least one value. -/
def DeleteOk (d : DeleteObj) : Prop :=
  ∃ kvs, d.columnConditions = .dict kvs ∧ kvs ≠ [] ∧ ∀ p ∈ kvs, SomeValues p.2

section
variable [U : PyUnicode] [S : RegexSpace]

/-- A valid request. -/
structure RequestOk (r : RequestObj) : Prop where
  dataset : RequestName r.dataset
  appId : RequestName r.appId
  parentApi : ∃ s, r.parentApi = .val (.str s) ∧ s ≠ []
  tenantIds : ∃ kvs, r.tenantIds = .dict kvs
  query : r.query.validate = .ok ()
  flags : ∀ f, r.flags = some f → FlagsOk f

variable [R : PyRepr]

/-- What the serialised query contributes under `query`. -/
inductive QueryEntry : AnyQuery → Data → Prop
  | snql (q t) : q.serialize = .ok t → QueryEntry (.snql q) (.val (.str t))
  | metrics (q kvs x) : q.serialize.1 = .ok (.dict kvs) → (c!"mql", x) ∈ kvs → QueryEntry (.metrics q) x
  | delete (q x) : q.serialize = .ok x → QueryEntry (.delete q) x

/-- The entries of the payload of a request. -/
inductive Entry (r : RequestObj) : Str → Data → Prop
  | query (x) : QueryEntry r.query x → Entry r c!"query" x
  | dataset : (∀ q, r.query ≠ .delete q) → Entry r c!"dataset" r.dataset
  | appId : Entry r c!"app_id" r.appId
  | tenantIds : Entry r c!"tenant_ids" r.tenantIds
  | parentApi : Entry r c!"parent_api" r.parentApi
  | context (q kvs x) : r.query = .metrics q → q.serialize.1 = .ok (.dict kvs) → (c!"mql_context", x) ∈ kvs → Entry r c!"mql_context" x
  | flag (f k b) : r.flags = some f → FlagSet f k b → Entry r k (.val (.bool b))

/-- The dictionary has exactly the entries of the request, and no key twice. -/
structure Payload (r : RequestObj) (kvs : List (Str × Data)) : Prop where
  entries : ∀ k x, (k, x) ∈ kvs ↔ Entry r k x
  nodup : (kvs.map (·.1)).Nodup

end

end Verif.Spec
