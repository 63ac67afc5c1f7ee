import Verif.Model.Delete
import Verif.Model.MetricsQuery
import Verif.Model.Printer
import Verif.Py.Json

/-!
# snuba_sdk/request.py

A request holds its fields as they were given. `to_dict` serialises the query, which may change a metrics query, so
it returns the request afterwards beside its result.
-/

namespace Verif

/-- `Flags` (snuba_sdk/request.py:21-28). -/
structure FlagsObj where
  totals : Val := .none
  consistent : Val := .none
  turbo : Val := .none
  debug : Val := .none
  dryRun : Val := .none
  legacy : Val := .none
  deriving Inhabited

/-- `fields(self)` with their values, in the order of their declaration (snuba_sdk/request.py:23-28, 31, 39). -/
def FlagsObj.fields (f : FlagsObj) : List (Str × Val) :=
  [(c!"totals", f.totals), (c!"consistent", f.consistent), (c!"turbo", f.turbo), (c!"debug", f.debug), (c!"dry_run", f.dryRun),
    (c!"legacy", f.legacy)]

/-- `flag is not None and not isinstance(flag, bool)` raises (snuba_sdk/request.py:34-35). -/
def checkFlag : Val → Except Err Unit
  | .none => .ok ()
  | .bool _ => .ok ()
  | _ => .error .invalidFlag

/-- The loop over the flags (snuba_sdk/request.py:32-35). -/
def checkFlags : List (Str × Val) → Except Err Unit
  | [] => .ok ()
  | (_, v) :: fs => do
    checkFlag v
    checkFlags fs

/-- `Flags.validate` (snuba_sdk/request.py:30-35). -/
def FlagsObj.validate (f : FlagsObj) : Except Err Unit := checkFlags f.fields

/-- `{f: v for f, v in values.items() if v is not None}` (snuba_sdk/request.py:40). -/
def setFlags : List (Str × Val) → List (Str × Data)
  | [] => []
  | (k, v) :: fs => if v.given then (k, .val v) :: setFlags fs else setFlags fs

/-- `Flags.to_dict` (snuba_sdk/request.py:37-40). -/
def FlagsObj.toDict (f : FlagsObj) : Except Err (List (Str × Data)) := do
  f.validate
  .ok (setFlags f.fields)

/-- The class `[a-zA-Z0-9_\.\+\*\/:\-\[\]]` (snuba_sdk/request.py:43). -/
def flagChar (c : Char) : Bool :=
  isAlpha c || isDigit c || c == '_' || c == '.' || c == '+' || c == '*' || c == '/' || c == ':' || c == '-' || c == '[' || c == ']'

/-- `FLAG_RE` (snuba_sdk/request.py:43). -/
def FLAG_RE : Regex := .seq (.star (.cls flagChar)) .eol

/-- The queries of the SDK, subclasses of `BaseQuery` (snuba_sdk/query.py:32, 56, metrics_query.py:19, delete_query.py:12). -/
inductive AnyQuery where
  | snql (q : Query)
  | metrics (q : MetricsQueryObj)
  | delete (q : DeleteObj)

/-- `Request` (snuba_sdk/request.py:46-53). Simplification: `query` is a query of the SDK and `flags` is `None` or a
`Flags` object; values without a `validate` method fail with `AttributeError` in `validate`. -/
structure RequestObj where
  dataset : Data
  appId : Data
  query : AnyQuery
  flags : Option FlagsObj := some {}
  parentApi : Data := .val (.str c!"<unknown>")
  tenantIds : Data := .dict []

/-- `not x or not isinstance(x, str)` raises, and so does a mismatch with `FLAG_RE` (snuba_sdk/request.py:56-59, 61-64). -/
def checkName : Data → Except Err Unit
  | .val (.str s) => if s.isEmpty then .error .invalidRequest else ensure (FLAG_RE.matches s) .invalidRequest
  | _ => .error .invalidRequest

/-- The check of `parent_api` (snuba_sdk/request.py:66-67). -/
def checkParent : Data → Except Err Unit
  | .val (.str s) => if s.isEmpty then .error .invalidRequest else .ok ()
  | _ => .error .invalidRequest

/-- The check of `tenant_ids` (snuba_sdk/request.py:69-70). -/
def checkTenants : Data → Except Err Unit
  | .dict _ => .ok ()
  | _ => .error .invalidRequest

section
variable [U : PyUnicode] [S : RegexSpace]

/-- `self.query.validate()` (snuba_sdk/request.py:72; query.py:167-168, metrics_query.py:86-87, delete_query.py:32-40). -/
def AnyQuery.validate : AnyQuery → Except Err Unit
  | .snql q => q.validate
  | .metrics q => q.validate
  | .delete q => q.validate

omit U S in
/-- `if self.flags is not None: self.flags.validate()` (snuba_sdk/request.py:73-74). -/
def validateFlags : Option FlagsObj → Except Err Unit
  | none => .ok ()
  | some f => f.validate

/-- `Request.validate` (snuba_sdk/request.py:55-74). -/
def RequestObj.validate (r : RequestObj) : Except Err Unit := do
  checkName r.dataset
  checkName r.appId
  checkParent r.parentApi
  checkTenants r.tenantIds
  r.query.validate
  validateFlags r.flags

omit U S in
/-- `self.flags.to_dict() if self.flags is not None else {}` (snuba_sdk/request.py:78). -/
def flagsDict : Option FlagsObj → Except Err (List (Str × Data))
  | none => .ok []
  | some f => f.toDict

omit U S in
/-- `d[k] = v`, also one entry of a dictionary display: a key that is there keeps its place and gets the new value (Python
built-in; snuba_sdk/request.py:91-97, 101-110). -/
def dictSet (k : Str) (v : Data) : List (Str × Data) → List (Str × Data)
  | [] => [(k, v)]
  | (k', v') :: kvs => if k' = k then (k, v) :: kvs else (k', v') :: dictSet k v kvs

omit U S in
/-- The entries of a dictionary display after `**flags`, one after the other (Python built-in; snuba_sdk/request.py:91-97,
101-108). -/
def dictSetAll (kvs : List (Str × Data)) : List (Str × Data) → List (Str × Data)
  | [] => kvs
  | (k, v) :: more => dictSetAll (dictSet k v kvs) more

omit U S in
/-- The dictionary of a request that is not a deletion (snuba_sdk/request.py:101-108). -/
def RequestObj.dict (r : RequestObj) (flags : List (Str × Data)) (text : Str) : List (Str × Data) :=
  dictSetAll flags [(c!"query", .val (.str text)), (c!"dataset", r.dataset), (c!"app_id", r.appId), (c!"tenant_ids", r.tenantIds),
    (c!"parent_api", r.parentApi)]

omit U S in
/-- The dictionary of a deletion (snuba_sdk/request.py:91-97). -/
def RequestObj.deletion (r : RequestObj) (flags : List (Str × Data)) (body : Data) : List (Str × Data) :=
  dictSetAll flags [(c!"query", body), (c!"app_id", r.appId), (c!"tenant_ids", r.tenantIds), (c!"parent_api", r.parentApi)]

variable [R : PyRepr]

omit U S R in
/-- `d[k]` (Python built-in; snuba_sdk/request.py:84-85). -/
def getItem (k : Str) (kvs : List (Str × Data)) : Except Err Data :=
  match kvs.lookup k with
  | some d => .ok d
  | none => .error .keyError

omit U S in
/-- `str(x)` (Python built-in; snuba_sdk/request.py:85, 99): a string is itself. -/
def Data.str : Data → Str
  | .val v => pyStr (.val v)
  | d => pyStr (.data d)

omit U S in
/-- The context and the text of a serialised metrics query (snuba_sdk/request.py:83-85). -/
def splitMql : Data → Except Err (Data × Str)
  | .dict kvs => do
    let c ← getItem c!"mql_context" kvs
    let t ← getItem c!"mql" kvs
    .ok (c, t.str)
  | _ => .error .assertion

omit U S R in
/-- `if mql_context is not None: ret["mql_context"] = mql_context` (snuba_sdk/request.py:109-110). -/
def addContext (c : Data) (kvs : List (Str × Data)) : List (Str × Data) :=
  match c with
  | .val .none => kvs
  | c => dictSet c!"mql_context" c kvs

omit U S in
/-- The end of `Request.to_dict` for metrics queries (snuba_sdk/request.py:83-85, 101-111). -/
def RequestObj.metricsDict (r : RequestObj) (flags : List (Str × Data)) (d : Data) : Except Err Data := do
  let p ← splitMql d
  .ok (.dict (addContext p.1 (r.dict flags p.2)))

/-- `Request.to_dict` after the validation and the flags (snuba_sdk/request.py:80-111): the result, and the request
afterwards. -/
def RequestObj.build (r : RequestObj) (flags : List (Str × Data)) : Except Err Data × RequestObj :=
  match r.query with
  | .metrics q =>
    match q.serialize with
    | (.error e, q') => (.error e, { r with query := .metrics q' })
    | (.ok d, q') => (r.metricsDict flags d, { r with query := .metrics q' })
  | .delete q =>
    match q.serialize with
    | .error e => (.error e, r)
    | .ok d => (.ok (.dict (r.deletion flags d)), r)
  | .snql q =>
    match q.serialize with
    | .error e => (.error e, r)
    | .ok t => (.ok (.dict (r.dict flags t)), r)

/-- `Request.to_dict` (snuba_sdk/request.py:76-111): the result, and the request afterwards. -/
def RequestObj.toDict (r : RequestObj) : Except Err Data × RequestObj :=
  match r.validate with
  | .error e => (.error e, r)
  | .ok _ =>
    match flagsDict r.flags with
    | .error e => (.error e, r)
    | .ok flags => r.build flags

/-- `Request.serialize`, `serialize_mql` and `__str__` (snuba_sdk/request.py:113-122). -/
def RequestObj.serialize (r : RequestObj) : Except Err Str := r.toDict.1 >>= jsonDumps

/-- `Request.print` (snuba_sdk/request.py:124-127). -/
def RequestObj.print (r : RequestObj) : Except Err Str := do
  r.validate
  let d ← r.toDict.1
  jsonDumpsPretty d

end

end Verif
