import Verif.Spec.MetricsEqual
import Verif.Spec.QueryEqual
import Verif.Spec.Request

/-!
# Specification: equality of requests
-/

namespace Verif.Spec

/-- A property of all values that a query consists of. -/
def QueryAll (P : Val → Prop) : AnyQuery → Prop
  | .snql q => Throughout P q
  | .metrics q => Everywhere P q
  | .delete q => DataAll P q.storageName ∧ DataAll P q.columnConditions

/-- No dictionary in a query has a key twice (Python has no other dictionaries). -/
def QueryKeyed : AnyQuery → Prop
  | .snql _ => True
  | .metrics q => ∀ x ∈ fieldsOf q, Keyed x
  | .delete q => KeysOnce q.storageName ∧ KeysOnce q.columnConditions

/-- The values of flags. -/
def flagValues (f : FlagsObj) : List Val := [f.totals, f.consistent, f.turbo, f.debug, f.dryRun, f.legacy]

/-- The fields of a request that are neither the query nor the flags. -/
def otherFields (r : RequestObj) : List Data := [r.dataset, r.appId, r.parentApi, r.tenantIds]

/-- A property of all values that a request consists of. -/
structure RequestAll (P : Val → Prop) (r : RequestObj) : Prop where
  fields : ∀ d ∈ otherFields r, DataAll P d
  flags : ∀ f, r.flags = some f → ∀ v ∈ flagValues f, P v
  query : QueryAll P r.query

/-- No dictionary in a request has a key twice (Python has no other dictionaries). -/
structure RequestKeyed (r : RequestObj) : Prop where
  fields : ∀ d ∈ otherFields r, KeysOnce d
  query : QueryKeyed r.query

/-- Neither an int nor a float, which could be equal to a bool. -/
def NoNumber (v : Val) : Prop := (∀ i, v ≠ .int i) ∧ ∀ f, v ≠ .float f

/-- No flag is a number. -/
def FlagsApart (r : RequestObj) : Prop := ∀ f, r.flags = some f → ∀ v ∈ flagValues f, NoNumber v

/-- The provisos under which equality of queries tells everything: those of C70 and C73, and none for deletions. -/
def Comparable : AnyQuery → AnyQuery → Prop
  | .snql q, .snql r => Throughout Ordinary q ∧ Throughout Ordinary r ∧
    ((Throughout OnlyFunctions q ∧ Throughout OnlyFunctions r) ∨ (Throughout NoAliases q ∧ Throughout NoAliases r))
  | .metrics q, .metrics r => Ordinarily q ∧ Ordinarily r ∧
    ((Everywhere OnlyFunctions q ∧ Everywhere OnlyFunctions r) ∨ (Everywhere NoAliases q ∧ Everywhere NoAliases r))
  | _, _ => True

/-- Payloads that say the same: the same keys in the same order, equal values, and contexts that say the same. -/
structure SamePayload (kvs kvs' : List (Str × Data)) : Prop where
  keys : kvs.map (·.1) = kvs'.map (·.1)
  entries : ∀ k x y, k ≠ c!"mql_context" → kvs.lookup k = some x → kvs'.lookup k = some y → x.pyEq y = true
  context : ∀ x y, kvs.lookup c!"mql_context" = some x → kvs'.lookup c!"mql_context" = some y →
    ∃ c c', readContext x = some c ∧ readContext y = some c' ∧ SameContext c c'

end Verif.Spec
