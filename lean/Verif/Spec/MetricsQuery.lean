import Verif.Model.MetricsQuery
import Verif.Spec.Formula
import Verif.Spec.Date
import Verif.Spec.Semantics

/-!
# Specification: metrics queries

What a metrics query may hold, and an independent reader of the context that is sent beside the MQL text.
-/

namespace Verif.Spec

/-- A consistent formula: its name is a string, its parameters are numbers, timeseries or formulas, some timeseries
occurs in the tree, and all groupby lists of the tree are equal. -/
structure FormulaOk (name : Val) (params : MVal) (aggregateParams filters groupby : Val) : Prop where
  named : ∃ s, name = .str s
  parameters : ∃ xs, MSeq params xs ∧ ∀ p ∈ xs, FormulaParam p
  timeseries : ∃ t, InFormula (.formula name params aggregateParams filters groupby) (.ts t)
  sameGroups : ∀ y z g h, InFormula (.formula name params aggregateParams filters groupby) y →
    InFormula (.formula name params aggregateParams filters groupby) z → Groups y g → Groups z h → pyEqList g h = true

/-- A valid timeseries or a consistent formula. -/
inductive ObjectOk : MVal → Prop
  | ts (t) : TimeseriesOk t → ObjectOk (.ts t)
  | formula (n p a f g) : FormulaOk n p a f g → ObjectOk (.formula n p a f g)

/-- The value is absent or satisfies `P`. -/
inductive Optional (P : MVal → Prop) : MVal → Prop
  | none : Optional P (.val .none)
  | some (x) : P x → Optional P x

section
variable [U : PyUnicode] [S : RegexSpace]

/-- A query: a valid object, or a string that the parser of the SDK turns into one. -/
inductive QueryOk : MVal → Prop
  | object (x) : ObjectOk x → QueryOk x
  | text (s x) : parseMql s = .ok x → ObjectOk x → QueryOk (.val (.str s))

/-- A complete and valid metrics query. -/
structure MetricsQueryOk (q : MetricsQueryObj) : Prop where
  query : QueryOk q.query
  start : ∃ t, q.start = .val (.datetime t)
  end_ : ∃ t, q.end_ = .val (.datetime t)
  rollup : ∃ r, q.rollup = .rollup r ∧ r.granularity ≠ .none ∧ RollupOk r
  scope : ∃ s, q.scope = .scope s ∧ ScopeOk s
  limit : Optional (fun x => ∃ n : PyInt, x = .val (.limit n) ∧ 1 ≤ n.toInt ∧ n.toInt ≤ 10000) q.limit
  offset : Optional (fun x => ∃ n : PyInt, x = .val (.offset n) ∧ 0 ≤ n.toInt) q.offset
  extrapolate : Optional (fun x => ∃ b, x = .val (.extrapolate b)) q.extrapolate
  mappings : Optional (fun x => ∃ kvs, x = .data (.dict kvs)) q.indexerMappings

end

/-! ### The reader of the context -/

/-- Date, time of day and offset from UTC in microseconds. -/
structure IsoMoment where
  date : Nat × Nat × Nat
  time : Nat × Nat × Nat × Nat
  offset : Option Int
  deriving DecidableEq, Repr

/-- The moment a datetime stands for; an offset that is not known is no offset. -/
def isoMomentOf (t : Datetime) : IsoMoment :=
  ⟨(t.date.y, t.date.m, t.date.d), (t.h, t.mi, t.s, t.us), t.tz.join⟩

/-- Read an optional fraction of six digits, to the end of the text: microseconds. -/
def readFraction : Str → Option Nat
  | [] => some 0
  | '.' :: s =>
    match readDigits 6 0 s with
    | some (us, []) => some us
    | _ => none
  | _ => none

/-- Read `:SS` and an optional fraction, or nothing: microseconds. -/
def readOffsetSeconds : Str → Option Nat
  | [] => some 0
  | ':' :: s => do
    let (sec, s) ← readDigits 2 0 s
    let us ← readFraction s
    some (sec * 1000000 + us)
  | _ => none

/-- Read `HH:MM` and optional seconds: microseconds. -/
def readOffsetBody (s : Str) : Option Nat := do
  let (h, s) ← readDigits 2 0 s
  let s ← readText c!":" s
  let (m, s) ← readDigits 2 0 s
  let r ← readOffsetSeconds s
  some ((h * 60 + m) * 60000000 + r)

/-- Read an offset from UTC, if there is one. -/
def readOffset : Str → Option (Option Int)
  | [] => some none
  | '+' :: s => (readOffsetBody s).map fun (n : Nat) => some (n : Int)
  | '-' :: s => (readOffsetBody s).map fun (n : Nat) => some (-(n : Int))
  | _ => none

/-- Read a moment in ISO 8601 format. -/
def readIsoMoment (s : Str) : Option IsoMoment := do
  let (date, s) ← readDate s
  let s ← readText c!"T" s
  let (time, s) ← readTime s
  let offset ← readOffset s
  some ⟨date, time, offset⟩

/-- What the context tells. -/
structure Context where
  start : IsoMoment
  end_ : IsoMoment
  ascending : Option Bool
  granularity : Val
  interval : Val
  totals : Option Bool
  orgIds : Val
  projectIds : Val
  useCaseId : Val
  limit : Val
  offset : Val
  extrapolate : Val
  mappings : Data

/-- The value under a key. -/
def field (k : Str) (kvs : List (Str × Data)) : Option Data := kvs.lookup k

/-- The entries of a dictionary. -/
def entries : Data → Option (List (Str × Data))
  | .dict kvs => some kvs
  | _ => none

/-- A plain value. -/
def plainVal : Data → Option Val
  | .val v => some v
  | _ => none

/-- A moment in text. -/
def momentField : Data → Option IsoMoment
  | .val (.str s) => readIsoMoment s
  | _ => none

/-- `None`, "ASC" or "DESC". -/
def directionField : Data → Option (Option Bool)
  | .val .none => some none
  | .val (.str s) => if s = c!"ASC" then some (some true) else if s = c!"DESC" then some (some false) else none
  | _ => none

/-- `None`, "True" or "False". -/
def totalsField : Data → Option (Option Bool)
  | .val .none => some none
  | .val (.str s) => if s = c!"True" then some (some true) else if s = c!"False" then some (some false) else none
  | _ => none

/-- Read a context, looking for each value under its key. -/
def readContext (d : Data) : Option Context := do
  let c ← entries d
  let start ← field c!"start" c >>= momentField
  let end_ ← field c!"end" c >>= momentField
  let rollup ← field c!"rollup" c >>= entries
  let scope ← field c!"scope" c >>= entries
  let ascending ← field c!"orderby" rollup >>= directionField
  let granularity ← field c!"granularity" rollup >>= plainVal
  let interval ← field c!"interval" rollup >>= plainVal
  let totals ← field c!"with_totals" rollup >>= totalsField
  let orgIds ← field c!"org_ids" scope >>= plainVal
  let projectIds ← field c!"project_ids" scope >>= plainVal
  let useCaseId ← field c!"use_case_id" scope >>= plainVal
  let limit ← field c!"limit" c >>= plainVal
  let offset ← field c!"offset" c >>= plainVal
  let extrapolate ← field c!"extrapolate" c >>= plainVal
  let mappings ← field c!"indexer_mappings" c
  some ⟨start, end_, ascending, granularity, interval, totals, orgIds, projectIds, useCaseId, limit, offset, extrapolate, mappings⟩

/-- `x` is absent and `v` is `None`, or `x` is a `w` object around the number `v`. -/
def Unwrapped (w : PyInt → Val) (x : MVal) (v : Val) : Prop :=
  (x = .val .none ∧ v = .none) ∨ ∃ n, x = .val (w n) ∧ IntLike v n

/-- `x` is absent and `v` is `None`, or `x` is an `Extrapolate` object around the bool `v`. -/
def UnwrappedBool (x : MVal) (v : Val) : Prop :=
  (x = .val .none ∧ v = .none) ∨ ∃ b, x = .val (.extrapolate b) ∧ v = .bool b

/-- The context tells the fields of the query. -/
structure Describes (c : Context) (q : MetricsQueryObj) : Prop where
  start : ∃ t, q.start = .val (.datetime t) ∧ c.start = isoMomentOf t
  end_ : ∃ t, q.end_ = .val (.datetime t) ∧ c.end_ = isoMomentOf t
  rollup : ∃ r, q.rollup = .rollup r ∧ c.granularity = r.granularity ∧ c.interval = r.interval ∧
    (r.totals = match c.totals with | none => .none | some b => .bool b) ∧
    (r.orderby = match c.ascending with | none => .none | some true => .direction .asc | some false => .direction .desc)
  scope : ∃ s, q.scope = .scope s ∧ c.orgIds = s.orgIds ∧ c.projectIds = s.projectIds ∧ c.useCaseId = s.useCaseId
  limit : Unwrapped .limit q.limit c.limit
  offset : Unwrapped .offset q.offset c.offset
  extrapolate : UnwrappedBool q.extrapolate c.extrapolate
  mappings : q.indexerMappings = .data c.mappings

end Verif.Spec
