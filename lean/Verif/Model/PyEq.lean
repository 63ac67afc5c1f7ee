import Verif.Model.Val

/-!
# Python `==`

Simplification: object identity is not modelled; Python's containers treat identical objects as
equal, which only matters for NaN.
-/

namespace Verif

/-- `DataModel.__eq__` (dataclass-generated, snuba_sdk/schema.py:33-37): equality of the column set and of the
time column; the columns are a Python set. -/
def DataModel.pyEq (a b : DataModel) : Bool :=
  a.columns.all (fun c => b.columns.contains c) && b.columns.all (fun c => a.columns.contains c) &&
  a.timeColumn == b.timeColumn

/-- `==` of two optional values. -/
def optEq {α : Type} (f : α → α → Bool) : Option α → Option α → Bool
  | none, none => true
  | some a, some b => f a b
  | _, _ => false

/-- `Entity.__eq__` (dataclass-generated, snuba_sdk/entity.py:15-20). -/
def EntityObj.pyEq (a b : EntityObj) : Bool :=
  a.name == b.name && a.alias == b.alias && optEq PyFloat.eqF a.sample b.sample &&
  optEq DataModel.pyEq a.dataModel b.dataModel

/-- `Storage.__eq__` (dataclass-generated, snuba_sdk/storage.py:15-19). -/
def StorageObj.pyEq (a b : StorageObj) : Bool :=
  a.name == b.name && optEq PyFloat.eqF a.sample b.sample &&
  optEq DataModel.pyEq a.dataModel b.dataModel

/-- `Column.__eq__` (dataclass-generated, snuba_sdk/column.py:17-39). -/
def ColumnObj.pyEq (a b : ColumnObj) : Bool :=
  a.name == b.name && optEq EntityObj.pyEq a.entity b.entity && a.subscriptable == b.subscriptable &&
  a.key == b.key

/-- `Relationship.__eq__` (dataclass-generated, snuba_sdk/relationships.py:10-32). -/
def RelObj.pyEq (a b : RelObj) : Bool := a.lhs.pyEq b.lhs && a.name == b.name && a.rhs.pyEq b.rhs

/-- `==` of two lists with a given element comparison. -/
def listEq {α : Type} (f : α → α → Bool) : List α → List α → Bool
  | [], [] => true
  | a :: as, b :: bs => f a b && listEq f as bs
  | _, _ => false

/-- `datetime.__eq__` (Python built-in): aware values compare as instants, a naive and an aware value
are never equal. -/
def Datetime.pyEq (a b : Datetime) : Bool :=
  match a.tz.bind id, b.tz.bind id with
  | none, none => a.localMicros == b.localMicros
  | some x, some y => a.localMicros - x == b.localMicros - y
  | _, _ => false

mutual
/-- `a == b` in Python. Numbers compare by value across `int`, `bool` and `float`;
`CurriedFunction.__eq__` (snuba_sdk/function.py:99-108) ignores the alias, but
`Function` gets a dataclass-generated `__eq__` (function.py:111) that compares it; a `Function` and a
`CurriedFunction` compare with the former (the latter yields `NotImplemented`). All other SDK classes
have dataclass-generated `__eq__`: same class and equal fields. -/
def pyEq : Val → Val → Bool
  | .none, .none => true
  | .bool a, .bool b => a == b
  | .bool a, .int b => (if a then 1 else 0) == b
  | .bool a, .float b => b.eqInt (if a then 1 else 0)
  | .int a, .bool b => a == (if b then 1 else 0)
  | .int a, .int b => a == b
  | .int a, .float b => b.eqInt a
  | .float a, .bool b => a.eqInt (if b then 1 else 0)
  | .float a, .int b => a.eqInt b
  | .float a, .float b => a.eqF b
  | .str a, .str b => a == b
  | .bytes a, .bytes b => a == b
  | .date a, .date b => a == b
  | .datetime a, .datetime b => a.pyEq b
  | .list a, .list b => pyEqList a b
  | .tuple a, .tuple b => pyEqList a b
  | .column a, .column b => a.pyEq b
  | .curried fa na ika ia pka pa aa, .curried fb nb ikb ib pkb pb ab =>
    na == nb && (ika == ikb && pyEqList ia ib) && (pka == pkb && pyEqList pa pb) &&
    (!(fa && fb) || aa == ab)
  | .ident a, .ident b => a == b
  | .lam ka ia ba, .lam kb ib bb => ka == kb && ia == ib && pyEq ba bb
  | .aliased a x, .aliased b y => a.pyEq b && x == y
  | .cond l o r, .cond l' o' r' => pyEq l l' && o == o' && pyEq r r'
  | .boolCond c o k cs, .boolCond c' o' k' cs' => c == c' && o == o' && k == k' && pyEqList cs cs'
  | .orderby e d, .orderby e' d' => pyEq e e' && d == d'
  | .limitby k cs n, .limitby k' cs' n' => k == k' && listEq ColumnObj.pyEq cs cs' && n.toInt == n'.toInt
  | .limit a, .limit b => a.toInt == b.toInt
  | .offset a, .offset b => a.toInt == b.toInt
  | .granularity a, .granularity b => a.toInt == b.toInt
  | .totals a, .totals b => a == b
  | .extrapolate a, .extrapolate b => a == b
  | .entity a, .entity b => a.pyEq b
  | .storage a, .storage b => a.pyEq b
  | .rel a, .rel b => a.pyEq b
  | .join k a, .join k' b => k == k' && listEq RelObj.pyEq a b
  | .op a, .op b => a == b
  | .boolOp a, .boolOp b => a == b
  | .direction a, .direction b => a == b
  | .dataModel a, .dataModel b => a.pyEq b
  | .other a, .other b => a == b
  | _, _ => false

/-- `==` of two lists or tuples. -/
def pyEqList : List Val → List Val → Bool
  | [], [] => true
  | a :: as, b :: bs => pyEq a b && pyEqList as bs
  | _, _ => false
end

/-- `bool(v)` (Python built-in); objects without `__bool__`/`__len__` are true. -/
def Val.truthy : Val → Bool
  | .none => false
  | .bool b => b
  | .int i => i != 0
  | .float f => f.truthy
  | .str s => !s.isEmpty
  | .bytes bs => !bs.isEmpty
  | .list xs => !xs.isEmpty
  | .tuple xs => !xs.isEmpty
  | _ => true

end Verif
