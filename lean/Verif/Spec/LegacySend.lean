import Verif.Spec.Legacy
import Verif.Spec.Request
import Verif.Spec.Json
import Verif.Spec.Moment

/-!
# Specification: legacy bodies of plain data, and which of them make requests that can be sent
-/

namespace Verif.Spec

variable [D : PyDecimal]

/-- Plain data, as read from JSON: null, a bool, a number, a text, or an array (a list or a tuple) of plain data. A text that reads as
a date has a UTC equivalent in the years 1 to 9999. -/
inductive PlainData : Val → Prop
  | null : PlainData .none
  | bool (b : Bool) : PlainData (.bool b)
  | int (i : Int) : PlainData (.int i)
  | float (f : PyFloat) : PlainData (.float f)
  | text (s : Str) : (∀ t, LegacyDate s t → ∃ n, utcInstant t = some n ∧ Representable n) → PlainData (.str s)
  | list (xs : List Val) : (∀ x ∈ xs, PlainData x) → PlainData (.list xs)
  | tuple (xs : List Val) : (∀ x ∈ xs, PlainData x) → PlainData (.tuple xs)

/-- All values of the body are plain data. (The tenants are not among the entries.) -/
def PlainBody (b : LegacyBody) : Prop := ∀ key v, (key, v) ∈ b.entries → PlainData v

omit D in
/-- The dataset and the application, if named, are names of a request, and the tenants, if any, are a dictionary. -/
structure NamesOk (b : LegacyBody) : Prop where
  dataset : ∀ v, ValueAt b c!"dataset" v → Falsy v ∨ RequestName (.val v)
  appId : ∀ v, ValueAt b c!"app_id" v → Falsy v ∨ RequestName (.val v)
  tenants : EmptyData b.tenantIds ∨ ∃ kvs, b.tenantIds = .dict kvs

omit D in
/-- Totals come with something to group by. -/
def TotalsGrouped (b : LegacyBody) : Prop := ValueAt b c!"totals" (.bool true) → ∃ v, ValueAt b c!"groupby" v ∧ ¬ Falsy v

omit D in
/-- Flags that do not count as false are `true`. -/
def FlagsTrue (b : LegacyBody) : Prop :=
  ∀ k ∈ [c!"consistent", c!"turbo", c!"debug", c!"dry_run"], ∀ v, ValueAt b k v → Falsy v ∨ v = .bool true

omit D in
/-- The tenants, if any, stand for a JSON value. -/
def TenantsJson (b : LegacyBody) : Prop := EmptyData b.tenantIds ∨ ∃ j, StandsFor b.tenantIds j

end Verif.Spec
