import Verif.Model.Entity
import Verif.Py.Unicode

/-!
# snuba_sdk/column.py and snuba_sdk/aliased_expression.py
-/

namespace Verif

variable [U : PyUnicode]

/-- `column_name_re` (snuba_sdk/column.py:14):
`^[a-zA-Z_](\w|\.|:|\/|@)*(\[([^\[\]]*)\])?$`. -/
def columnNameRe : Regex :=
  .seq (.cls fun c => isAlpha c || c == '_')
  (.seq (.star (.alt (.cls U.isWord) (.alt (.chr '.') (.alt (.chr ':') (.alt (.chr '/') (.chr '@'))))))
  (.seq (.opt (.seq (.chr '[') (.seq (.star (.cls fun c => c != '[' && c != ']')) (.chr ']'))))
  .eol))

/-- `Column.validate_data_model` (snuba_sdk/column.py:67-75), given the match's data model. An empty
`subscriptable` is falsy. -/
def ColumnObj.validateDataModel (c : ColumnObj) (dm : Option DataModel) : Except Err Unit :=
  match dm with
  | none => .ok ()
  | some d =>
    let toCheck := match c.subscriptable with
      | some s => if s.isEmpty then c.name else s
      | none => c.name
    ensure (d.contains toCheck) .invalidColumn

/-- The part of `Column.validate` that sets `subscriptable` and `key`
(snuba_sdk/column.py:61-65). -/
def splitSubscript (name : Str) : Option (Str × Str) :=
  (splitOnce '[' name).map fun (a, b) => (a, stripP (· == ']') b)

/-- The entity part of `Column.validate` (snuba_sdk/column.py:49-57); the type of `entity` is checked in
`asEntity`. -/
def ColumnObj.checkEntity (c : ColumnObj) : Except Err Unit :=
  match c.entity with
  | none => .ok ()
  | some e => do
    ensure (match e.alias with | some a => !a.isEmpty | none => false) .invalidColumn
    c.validateDataModel e.dataModel

/-- The assignments at the end of `Column.validate` (snuba_sdk/column.py:61-65). -/
def ColumnObj.setSubscript (c : ColumnObj) : ColumnObj :=
  match splitSubscript c.name with
  | some (s, k) => { c with subscriptable := some s, key := some k }
  | none => c

/-- The type check of `entity` (snuba_sdk/column.py:49-51). -/
def asEntity (v : Val) : Except Err (Option EntityObj) :=
  match v with
  | .none => .ok none
  | .entity e => .ok (some e)
  | _ => .error .invalidColumn

/-- `Column.validate` on a column object (snuba_sdk/column.py:41-65). It runs at construction and again
in `Query.validate`; it returns the object because it (re)assigns `subscriptable` and `key`. -/
def ColumnObj.validate (c : ColumnObj) : Except Err ColumnObj := do
  ensure (columnNameRe.matches c.name) .invalidColumn
  c.checkEntity
  .ok c.setSubscript

/-- `Column(name, entity)` (snuba_sdk/column.py:17-65). At construction `subscriptable` and `key` are
still `None` when the data model is consulted. -/
def mkColumn (name entity : Val) : Except Err Val := do
  let n ← asStr name .invalidColumn
  ensure (columnNameRe.matches n) .invalidColumn
  let e ← asEntity entity
  let c ← (⟨n, e, none, none⟩ : ColumnObj).validate
  .ok (.column c)

/-- The alias check of `CurriedFunction.validate` (snuba_sdk/function.py:74-82) and
`AliasedExpression.validate` (aliased_expression.py:32-40). -/
def checkAlias (v : Val) (e : Err) : Except Err (Option Str) :=
  match v with
  | .none => .ok none
  | .str s => if s.isEmpty then .error e else if ALIAS_RE.matches s then .ok (some s) else .error e
  | _ => .error e

/-- The type check of `exp` (snuba_sdk/aliased_expression.py:27-30). -/
def asColumn (v : Val) : Except Err ColumnObj :=
  match v with
  | .column c => .ok c
  | _ => .error .invalidExpression

/-- `AliasedExpression(exp, alias)` (snuba_sdk/aliased_expression.py:8-40). -/
def mkAliased (exp alias : Val) : Except Err Val := do
  let c ← asColumn exp
  let a ← checkAlias alias .invalidExpression
  .ok (.aliased c a)

end Verif
