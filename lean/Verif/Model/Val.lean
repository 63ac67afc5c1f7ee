import Verif.Py.Str
import Verif.Py.Err
import Verif.Py.Float
import Verif.Py.Date

/-!
# Python values handled by the SDK

`Val` is the type of Python objects that may be passed to the SDK.  The constructors of the SDK
classes hold what a successfully constructed object holds; the `mk…` functions in the other
model files perform the checks on arbitrary arguments.

Simplifications: sequences other than `list`, `tuple`, `str` and `bytes`, and objects of foreign
classes, are `other`; objects are immutable after construction (a list stored in an
expression is not changed later); no `Query`, `Timeseries` or `Formula` object occurs inside a `Val`
(they have their own types).
-/

namespace Verif

/-- `Op` (snuba_sdk/conditions.py:21-34). -/
inductive Op
  | gt | lt | gte | lte | eq | neq | in_ | notIn | like | notLike | isNull | isNotNull | not
  deriving DecidableEq, Repr, Inhabited

/-- `Op.value` (snuba_sdk/conditions.py:22-34). -/
def Op.value : Op → Str
  | .gt => c!">" | .lt => c!"<" | .gte => c!">=" | .lte => c!"<=" | .eq => c!"=" | .neq => c!"!="
  | .in_ => c!"IN" | .notIn => c!"NOT IN" | .like => c!"LIKE" | .notLike => c!"NOT LIKE"
  | .isNull => c!"IS NULL" | .isNotNull => c!"IS NOT NULL" | .not => c!"!"

/-- `is_unary` (snuba_sdk/conditions.py:68-69). -/
def isUnary : Op → Bool
  | .isNull | .isNotNull => true
  | _ => false

/-- `BooleanOp` (snuba_sdk/conditions.py:102-104). -/
inductive BooleanOp | and | or
  deriving DecidableEq, Repr, Inhabited

/-- `BooleanOp.value` (snuba_sdk/conditions.py:103-104). -/
def BooleanOp.value : BooleanOp → Str
  | .and => c!"AND" | .or => c!"OR"

/-- `Direction` (snuba_sdk/orderby.py:10-12). -/
inductive Direction | asc | desc
  deriving DecidableEq, Repr, Inhabited

/-- `Direction.value` (snuba_sdk/orderby.py:11-12). -/
def Direction.value : Direction → Str
  | .asc => c!"ASC" | .desc => c!"DESC"

/-- A Python object for which `isinstance(x, int)` holds: an int, or a bool (a subclass of int). -/
inductive PyInt
  | int (i : Int)
  | bool (b : Bool)
  deriving DecidableEq, Repr, Inhabited

/-- Numeric value of an int-like object (`True` is 1). -/
def PyInt.toInt : PyInt → Int
  | .int i => i
  | .bool b => if b then 1 else 0

/-- How a sequence attribute was given. For `str`/`bytes` the items are the characters/bytes;
`absent` is `None`. Kept because Python's `==` distinguishes lists from tuples. -/
inductive SeqKind | absent | list | tuple | str | bytes
  deriving DecidableEq, Repr, Inhabited

/-- `schema.Column` (snuba_sdk/schema.py:7-10). -/
structure ModelColumn where
  name : Str
  required : Bool
  deriving DecidableEq, Repr, Inhabited

/-- `schema.DataModel` (snuba_sdk/schema.py:33-49). The sets are lists; simplification: built
from well-typed columns. -/
structure DataModel where
  columns : List ModelColumn
  timeColumn : ModelColumn
  deriving DecidableEq, Repr, Inhabited

/-- `DataModel.contains` via `ColumnSet.contains` (snuba_sdk/schema.py:25-26, 48-49). -/
def DataModel.contains (d : DataModel) (n : Str) : Bool := d.columns.any fun c => c.name == n

/-- `DataModel.required_columns` (snuba_sdk/schema.py:46). -/
def DataModel.required (d : DataModel) : List ModelColumn := d.columns.filter fun c => c.required

/-- `Entity` (snuba_sdk/entity.py:15-20). -/
structure EntityObj where
  name : Str
  alias : Option Str
  sample : Option PyFloat
  dataModel : Option DataModel
  deriving DecidableEq

/-- `Storage` (snuba_sdk/storage.py:15-19). -/
structure StorageObj where
  name : Str
  sample : Option PyFloat
  dataModel : Option DataModel
  deriving DecidableEq

/-- `Column` (snuba_sdk/column.py:36-39). -/
structure ColumnObj where
  name : Str
  entity : Option EntityObj
  subscriptable : Option Str
  key : Option Str
  deriving DecidableEq

/-- `Relationship` (snuba_sdk/relationships.py:30-32). -/
structure RelObj where
  lhs : EntityObj
  name : Str
  rhs : EntityObj
  deriving DecidableEq

/-- The class of a boolean condition: `BooleanCondition`, `And` or `Or`
(snuba_sdk/conditions.py:107, 134, 140). -/
inductive BoolCls | base | and | or
  deriving DecidableEq, Repr, Inhabited

/-- Python objects. `curried true` is `Function`, `curried false` is `CurriedFunction`
(snuba_sdk/function.py:31-47, 111-115); `lam` is `Lambda` (function.py:134-137); `cond` is `Condition`
(conditions.py:72-76); the other SDK constructors are named after their class. -/
inductive Val where
  | none
  | bool (b : Bool)
  | int (i : Int)
  | float (f : PyFloat)
  | str (s : Str)
  | bytes (bs : List UInt8)
  | date (d : Date)
  | datetime (d : Datetime)
  | list (xs : List Val)
  | tuple (xs : List Val)
  | column (c : ColumnObj)
  | curried (isFn : Bool) (name : Str) (ik : SeqKind) (inits : List Val)
      (pk : SeqKind) (params : List Val) (alias : Option Str)
  | ident (name : Str)
  | lam (k : SeqKind) (ids : List Str) (body : Val)
  | aliased (exp : ColumnObj) (alias : Option Str)
  | cond (lhs : Val) (op : Op) (rhs : Val)
  | boolCond (cls : BoolCls) (op : BooleanOp) (k : SeqKind) (conds : List Val)
  | orderby (exp : Val) (dir : Direction)
  | limitby (k : SeqKind) (cols : List ColumnObj) (count : PyInt)
  | limit (n : PyInt)
  | offset (n : PyInt)
  | granularity (n : PyInt)
  | totals (b : Bool)
  | extrapolate (b : Bool)
  | entity (e : EntityObj)
  | storage (s : StorageObj)
  | rel (r : RelObj)
  | join (k : SeqKind) (rels : List RelObj)
  | op (o : Op)
  | boolOp (o : BooleanOp)
  | direction (d : Direction)
  | dataModel (d : DataModel)
  | other (n : Nat)
  deriving Inhabited

/-- `isinstance(v, Column)`. -/
def Val.isColumn : Val → Bool
  | .column _ => true
  | _ => false

/-- `isinstance(v, CurriedFunction)`, equivalently `isinstance(v, (CurriedFunction, Function))`
since `Function` is a subclass (snuba_sdk/function.py:112). -/
def Val.isCurried : Val → Bool
  | .curried .. => true
  | _ => false

/-- `isinstance(v, (Column, CurriedFunction, Function))`. -/
def Val.isColOrFn (v : Val) : Bool := v.isColumn || v.isCurried

/-- `isinstance(v, (Condition, BooleanCondition))`. -/
def Val.isCondition : Val → Bool
  | .cond .. | .boolCond .. => true
  | _ => false

/-- `isinstance(v, (Column, CurriedFunction, Function, Identifier, Lambda))`
(snuba_sdk/function.py:90-93, visitors.py:222-224). -/
def Val.isParamExpr : Val → Bool
  | .column _ | .curried .. | .ident _ | .lam .. => true
  | _ => false

/-- `isinstance(v, Expression)`: subclasses of `Expression` (snuba_sdk/expressions.py:14). -/
def Val.isExpression : Val → Bool
  | .column _ | .curried .. | .ident _ | .lam .. | .aliased .. | .cond .. | .boolCond .. | .orderby ..
  | .limitby .. | .limit _ | .offset _ | .granularity _ | .totals _ | .extrapolate _ | .entity _
  | .storage _ | .rel _ | .join .. => true
  | _ => false

/-- `isinstance(v, int)`: ints and bools. -/
def Val.asInt? : Val → Option PyInt
  | .int i => some (.int i)
  | .bool b => some (.bool b)
  | _ => Option.none

/-- Items of a value when `isinstance(v, collections.abc.Sequence)`, else `none`. Iterating a `str`
gives one-character strings, iterating `bytes` gives ints (Python built-in). -/
def Val.seq? : Val → Option (SeqKind × List Val)
  | .list xs => some (.list, xs)
  | .tuple xs => some (.tuple, xs)
  | .str s => some (.str, s.map fun c => .str [c])
  | .bytes bs => some (.bytes, bs.map fun b => .int b.toNat)
  | _ => Option.none

/-- Items of a value when `isinstance(v, (list, tuple))`, else `none`. -/
def Val.listOrTuple? : Val → Option (SeqKind × List Val)
  | .list xs => some (.list, xs)
  | .tuple xs => some (.tuple, xs)
  | _ => Option.none

/-- `ColumnObj` of a column value. -/
def Val.column? : Val → Option ColumnObj
  | .column c => some c
  | _ => Option.none

/-- `list_type(vals, types)` (snuba_sdk/expressions.py:55-58), with the `isinstance` test as `p`. -/
def listType (v : Val) (p : Val → Bool) : Bool :=
  match v with
  | .list xs => xs.all p
  | _ => false

end Verif
