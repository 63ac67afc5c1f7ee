import Verif.Spec.LegacyDate
import Verif.Spec.Construct
import Verif.Spec.Names
import Verif.Spec.Query
import Verif.Model.Legacy

/-!
# Specification: what a legacy body means
-/

namespace Verif.Spec

variable [U : PyUnicode] [D : PyDecimal]

/-! ### The objects that the SDK builds -/

omit D in
/-- The column object with a given name. A final newline, which the pattern lets through, stays in the key. -/
inductive ColumnFor : Str → ColumnObj → Prop
  | plain {s : Str} : OptNewline ColIdent s → ColumnFor s ⟨s, none, none, none⟩
  | subscript {i k : Str} : ColIdent i → ColKey k → ColumnFor (i ++ '[' :: k ++ [']']) ⟨i ++ '[' :: k ++ [']'], none, some i, some k⟩
  | newline {i k : Str} : ColIdent i → ColKey k → k ≠ [] →
      ColumnFor (i ++ '[' :: k ++ [']', '\n']) ⟨i ++ '[' :: k ++ [']', '\n'], none, some i, some (k ++ [']', '\n'])⟩
  | newlineOnly {i : Str} : ColIdent i → ColumnFor (i ++ ['[', ']', '\n']) ⟨i ++ ['[', ']', '\n'], none, some i, some ['\n']⟩

omit U D in
/-- An alias argument and the alias of the object. -/
inductive AliasFor : Val → Option Str → Prop
  | none : AliasFor .none .none
  | text {s : Str} : s ≠ [] → OptNewline AliasText s → AliasFor (.str s) (some s)

omit D in
/-- The function object with a given name, parameters and alias argument. -/
inductive FunctionFor : Str → SeqKind → List Val → Val → Val → Prop
  | mk {f : Str} {k : SeqKind} {ps : List Val} {alias : Val} {a : Option Str} : OptNewline FunctionName f → AliasFor alias a →
      (∀ p ∈ ps, Param p ∨ Literal p ∨ GoodSeq p) → FunctionFor f k ps alias (.curried true f .absent [] k ps a)

omit U D in
/-- The condition object with given parts. -/
inductive ConditionFor : Val → Op → Val → Val → Prop
  | mk {l r : Val} {o : Op} : ColOrFn l → (o = .isNull ∨ o = .isNotNull → r = .none) → ColOrFn r ∨ Scalar r →
      ConditionFor l o r (.cond l o r)

/-! ### Values -/

omit U D in
/-- The values that count as false. -/
inductive Falsy : Val → Prop
  | none : Falsy .none
  | no : Falsy (.bool false)
  | zero : Falsy (.int 0)
  | zeroFloat {d : Dbl} : d.m = 0 → Falsy (.float (.fin d))
  | str : Falsy (.str [])
  | bytes : Falsy (.bytes [])
  | list : Falsy (.list [])
  | tuple : Falsy (.tuple [])

mutual
/-- A legacy value and the SDK value: strings in an accepted format are dates unless texts are to be kept; lists become
tuples; other values stay. -/
inductive ScalarOf (keep : Prop) : Val → Val → Prop
  | date {s : Str} {t : Datetime} : ¬ keep → LegacyDate s t → ScalarOf keep (.str s) (.datetime t)
  | text {s : Str} : (keep ∨ ∀ t, ¬ LegacyDate s t) → ScalarOf keep (.str s) (.str s)
  | list {xs ys : List Val} : ScalarsOf keep xs ys → ScalarOf keep (.list xs) (.tuple ys)
  | tuple {xs ys : List Val} : ScalarsOf keep xs ys → ScalarOf keep (.tuple xs) (.tuple ys)
  | other {v : Val} : (∀ s, v ≠ .str s) → (∀ xs, v ≠ .list xs) → (∀ xs, v ≠ .tuple xs) → ScalarOf keep v v

/-- The values of a sequence, one by one. -/
inductive ScalarsOf (keep : Prop) : List Val → List Val → Prop
  | nil : ScalarsOf keep [] []
  | cons {x y : Val} {xs ys : List Val} : ScalarOf keep x y → ScalarsOf keep xs ys → ScalarsOf keep (x :: xs) (y :: ys)
end

omit U D in
/-- A tag or the release. -/
def TagOrRelease (c : ColumnObj) : Prop := c.subscriptable = some c!"tags" ∨ c.name = c!"release"

omit U D in
/-- The left-hand sides whose values are texts: a tag or the release, or `ifNull` of one with a default. -/
inductive TextSide : Val → Prop
  | column {c : ColumnObj} : TagOrRelease c → TextSide (.column c)
  | ifNull {c : ColumnObj} {ik pk : SeqKind} {is ps : List Val} {p : Val} {a : Option Str} : TagOrRelease c →
      TextSide (.curried true c!"ifNull" ik is pk (.column c :: p :: ps) a)

/-! ### Expressions -/

omit U D in
/-- A character whose capital is the given one. -/
def Capital (c d : Char) : Prop :=
  (c = d ∧ ¬ ('a' ≤ c ∧ c ≤ 'z') ∧ c ≠ 'ı' ∧ c ≠ 'ſ') ∨ ('A' ≤ d ∧ d ≤ 'Z' ∧ c.toNat = d.toNat + 32) ∨ (c = 'ı' ∧ d = 'I') ∨ (c = 'ſ' ∧ d = 'S')

omit U D in
/-- A text whose capitals are the given text. -/
inductive Capitals : Str → Str → Prop
  | nil : Capitals [] []
  | cons {c d : Char} {s t : Str} : Capital c d → Capitals s t → Capitals (c :: s) (d :: t)

omit U D in
/-- Three items of which the second is an operator, in capitals or not, and the first a string or a sequence. -/
inductive ConditionShape : List Val → Prop
  | mk {a c : Val} {t : Str} {o : Op} : Capitals t o.value → (∃ s, a = .str s) ∨ IsSeq a → ConditionShape [a, .str t, c]

omit U D in
/-- An operator, by its text or as an object. -/
inductive OpFor : Val → Op → Prop
  | text {o : Op} : OpFor (.str o.value) o
  | object {o : Op} : OpFor (.op o) o

/-- The right-hand side of a condition with a given left-hand side and operator, from the items after the operator. -/
inductive RhsFor (l : Val) : Val → List Val → Val → Prop
  | null {o : Op} {rest : List Val} : o = .isNull ∨ o = .isNotNull → RhsFor l (.str o.value) rest .none
  | value {op c r : Val} {rest : List Val} : op ≠ .str Op.isNull.value → op ≠ .str Op.isNotNull.value → ScalarOf (TextSide l) c r →
      RhsFor l op (c :: rest) r

omit U D in
/-- The name of the function for a comparison. -/
inductive Compares : Op → Str → Prop
  | gt : Compares .gt c!"greater"
  | lt : Compares .lt c!"less"
  | gte : Compares .gte c!"greaterOrEquals"
  | lte : Compares .lte c!"lessOrEquals"
  | eq : Compares .eq c!"equals"
  | neq : Compares .neq c!"notEquals"
  | in_ : Compares .in_ c!"in"
  | notIn : Compares .notIn c!"notIn"
  | isNull : Compares .isNull c!"isNull"
  | isNotNull : Compares .isNotNull c!"isNotNull"
  | like : Compares .like c!"like"
  | notLike : Compares .notLike c!"notLike"

omit U D in
/-- The text between two quotation marks; a lone mark counts as both. -/
def Between (q : Char) (s t : Str) : Prop := s = q :: t ++ [q] ∨ (s = [q] ∧ t = [])

omit U D in
/-- The alias after the arguments: none, or as given, without enclosing backquotes. -/
inductive AliasItem : List Val → Val → Prop
  | none : AliasItem [] .none
  | falsy {a : Val} {rest : List Val} : Falsy a → AliasItem (a :: rest) a
  | quoted {s t : Str} {rest : List Val} : Between '`' s t → AliasItem (.str s :: rest) (.str t)
  | text {s : Str} {rest : List Val} : s ≠ [] → (∀ t, ¬ Between '`' s t) → AliasItem (.str s :: rest) (.str s)

omit U D in
/-- The text ends with another one. -/
def EndsWith (s t : Str) : Prop := ∃ r, s = r ++ t

omit U D in
/-- The name without parentheses at its ends. -/
def Bare (f name : Str) : Prop :=
  ∃ a b, f = a ++ name ++ b ∧ (∀ c ∈ a ++ b, c = '(' ∨ c = ')') ∧
    (∀ c r, name = c :: r → c ≠ '(' ∧ c ≠ ')') ∧ ∀ c r, name = r ++ [c] → c ≠ '(' ∧ c ≠ ')'

mutual
/-- A legacy expression and the SDK expression. -/
inductive Converts : Val → Val → Prop
  | empty : Converts (.str []) (.str [])
  | quoted {s t : Str} : Between '\'' s t → Converts (.str s) (.str t)
  | column {s : Str} {c : ColumnObj} : s ≠ [] → (∀ t, ¬ Between '\'' s t) → ColumnFor s c → Converts (.str s) (.column c)
  | scalar {v x : Val} : (∀ s, v ≠ .str s) → (∀ xs, v ≠ .list xs) → ScalarOf False v x → Converts v x
  | condition {a op c l r x : Val} {o : Op} {f : Str} : ConditionShape [a, op, c] → Converts a l → OpFor op o → RhsFor l op [c] r →
      Compares o f → FunctionFor f .tuple [l, r] .none x → Converts (.list [a, op, c]) x
  | emptyCall {f name : Str} {args alias x : Val} {rest : List Val} : ¬ ConditionShape (.str f :: args :: rest) → AliasItem rest alias →
      Falsy args → EndsWith f ['(', ')'] → Bare f name → FunctionFor name .list [] alias x →
      Converts (.list (.str f :: args :: rest)) x
  | noCall {f : Str} {args alias x : Val} {rest : List Val} : ¬ ConditionShape (.str f :: args :: rest) → AliasItem rest alias →
      Falsy args → ¬ EndsWith f [')'] → FunctionFor f .list [] alias x → Converts (.list (.str f :: args :: rest)) x
  | call {f : Str} {ys zs : List Val} {alias x : Val} {rest : List Val} : ¬ ConditionShape (.str f :: .list ys :: rest) →
      AliasItem rest alias → ys ≠ [] ∨ (EndsWith f [')'] ∧ ¬ EndsWith f ['(', ')']) → ConvertsAll ys zs →
      FunctionFor f .list zs alias x → Converts (.list (.str f :: .list ys :: rest)) x
  | callOne {f : Str} {y z alias x : Val} {rest : List Val} : ¬ ConditionShape (.str f :: y :: rest) → AliasItem rest alias →
      ¬ Falsy y → (∀ ys, y ≠ .list ys) → Converts y z → FunctionFor f .list [z] alias x → Converts (.list (.str f :: y :: rest)) x
  | bracketed {f : Str} {y alias x : Val} {rest : List Val} : ¬ ConditionShape (.str f :: y :: rest) → AliasItem rest alias →
      Falsy y → (∀ ys, y ≠ .list ys) → EndsWith f [')'] → ¬ EndsWith f ['(', ')'] → FunctionFor f .absent [] alias x →
      Converts (.list (.str f :: y :: rest)) x

/-- Expressions one by one. -/
inductive ConvertsAll : List Val → List Val → Prop
  | nil : ConvertsAll [] []
  | cons {x y : Val} {xs ys : List Val} : Converts x y → ConvertsAll xs ys → ConvertsAll (x :: xs) (y :: ys)
end

/-! ### Conditions -/

omit U D in
/-- The items of a sequence: of a list, a tuple, a string or bytes. -/
inductive ItemsOf : Val → List Val → Prop
  | list {xs : List Val} : ItemsOf (.list xs) xs
  | tuple {xs : List Val} : ItemsOf (.tuple xs) xs
  | str {s : Str} : ItemsOf (.str s) (s.map fun c => .str [c])
  | bytes {bs : List UInt8} : ItemsOf (.bytes bs) (bs.map fun b => .int b.toNat)

/-- The items of a legacy condition and the condition. Items after the third are ignored. -/
inductive ConditionOf : List Val → Val → Prop
  | mk {a op l r x : Val} {rest : List Val} {o : Op} : Converts a l → OpFor op o → RhsFor l op rest r → ConditionFor l o r x →
      ConditionOf (a :: op :: rest) x

/-- The members of a group of conditions. -/
inductive GroupOf : List Val → List Val → Prop
  | nil : GroupOf [] []
  | cons {v c : Val} {xs vs cs : List Val} : ItemsOf v xs → ConditionOf xs c → GroupOf vs cs → GroupOf (v :: vs) (c :: cs)

/-- One entry of the conditions and what it contributes to `WHERE`: a condition; the members' disjunction for a group of at least
two; the member for a group of one; nothing for an empty group. -/
inductive WhereEntry : Val → List Val → Prop
  | condition {v c : Val} {xs : List Val} : ItemsOf v xs → ConditionShape xs → ConditionOf xs c → WhereEntry v [c]
  | group {v : Val} {xs cs : List Val} : ItemsOf v xs → ¬ ConditionShape xs → GroupOf xs cs → 2 ≤ cs.length →
      WhereEntry v [.boolCond .or .or .list cs]
  | single {v c : Val} {xs : List Val} : ItemsOf v xs → ¬ ConditionShape xs → GroupOf xs [c] → WhereEntry v [c]
  | empty {v : Val} : ItemsOf v [] → WhereEntry v []

/-- The entries of the conditions, in order. -/
inductive WhereEntries : List Val → List Val → Prop
  | nil : WhereEntries [] []
  | cons {v : Val} {vs cs ds : List Val} : WhereEntry v cs → WhereEntries vs ds → WhereEntries (v :: vs) (cs ++ ds)

omit U D in
/-- The column with a plain name. -/
def plainColumn (s : Str) : Val := .column ⟨s, none, none, none⟩

/-- The condition for an organization: equality with a number, membership in a sequence, nothing for other values. -/
inductive OrganizationOf : Val → List Val → Prop
  | absent {v : Val} : Falsy v → OrganizationOf v []
  | one {v : Val} {n : PyInt} : ¬ Falsy v → IntLike v n → OrganizationOf v [.cond (plainColumn c!"org_id") .eq v]
  | many {v : Val} {k : SeqKind} {xs ys : List Val} : ¬ Falsy v → SeqOf v k xs → ScalarsOf False xs ys → (∀ y ∈ ys, Element y) →
      OrganizationOf v [.cond (plainColumn c!"org_id") .in_ (.tuple ys)]
  | other {v : Val} : ¬ Falsy v → (∀ n, ¬ IntLike v n) → ¬ IsSeq v → OrganizationOf v []

/-- The condition for a project: membership in a sequence, a number counting as a sequence of one; nothing for other values. -/
inductive ProjectOf : Val → List Val → Prop
  | absent {v : Val} : Falsy v → ProjectOf v []
  | one {v : Val} {n : PyInt} : ¬ Falsy v → IntLike v n → ProjectOf v [.cond (plainColumn c!"project_id") .in_ (.tuple [v])]
  | many {v : Val} {k : SeqKind} {xs ys : List Val} : ¬ Falsy v → SeqOf v k xs → ScalarsOf False xs ys → (∀ y ∈ ys, Element y) →
      ProjectOf v [.cond (plainColumn c!"project_id") .in_ (.tuple ys)]
  | other {v : Val} : ¬ Falsy v → (∀ n, ¬ IntLike v n) → ¬ IsSeq v → ProjectOf v []

/-- A bound on the time column. -/
inductive BoundOf (column : Str) (o : Op) : Val → List Val → Prop
  | absent {v : Val} : Falsy v → BoundOf column o v []
  | date {s : Str} {t : Datetime} : LegacyDate s t → BoundOf column o (.str s) [.cond (plainColumn column) o (.datetime t)]

omit U D in
/-- The time columns of the entities. -/
inductive TimeColumn : Str → Str → Prop
  | discover : TimeColumn c!"discover" c!"timestamp"
  | discoverEvents : TimeColumn c!"discover_events" c!"timestamp"
  | discoverTransactions : TimeColumn c!"discover_transactions" c!"finish_ts"
  | errors : TimeColumn c!"errors" c!"timestamp"
  | events : TimeColumn c!"events" c!"timestamp"
  | outcomes : TimeColumn c!"outcomes" c!"timestamp"
  | outcomesRaw : TimeColumn c!"outcomes_raw" c!"timestamp"
  | replays : TimeColumn c!"replays" c!"timestamp"
  | searchIssues : TimeColumn c!"search_issues" c!"timestamp"
  | sessions : TimeColumn c!"sessions" c!"started"
  | spans : TimeColumn c!"spans" c!"finish_ts"
  | transactions : TimeColumn c!"transactions" c!"finish_ts"

omit U D in
/-- The value under a key of the body, and whether there is one. -/
def Has (b : LegacyBody) (key : Str) (v : Val) : Prop :=
  ∃ before after, b.entries = before ++ (key, v) :: after ∧ ∀ p ∈ before, p.1 ≠ key

omit U D in
/-- The value under a key, a missing one being `None`. -/
def ValueAt (b : LegacyBody) (key : Str) (v : Val) : Prop := Has b key v ∨ ((∀ w, ¬ Has b key w) ∧ v = .none)

omit U D in
/-- The items under a key, none if it is missing. -/
def ItemsAt (b : LegacyBody) (key : Str) (xs : List Val) : Prop :=
  (∃ v, Has b key v ∧ ItemsOf v xs) ∨ ((∀ w, ¬ Has b key w) ∧ xs = [])

/-- The two bounds on the time column, for entities that have one. -/
inductive BoundsOf (b : LegacyBody) (entity : Str) : List Val → Prop
  | none : (∀ c, ¬ TimeColumn entity c) → BoundsOf b entity []
  | both {c : Str} {v w : Val} {xs ys : List Val} : TimeColumn entity c → ValueAt b c!"from_date" v → BoundOf c .gte v xs →
      ValueAt b c!"to_date" w → BoundOf c .lt w ys → BoundsOf b entity (xs ++ ys)

/-- The `WHERE` list of a body: organization, bounds on the time, project, and the conditions. -/
inductive WhereOf (b : LegacyBody) (entity : Str) : List Val → Prop
  | mk {v w : Val} {entries org bounds proj conds : List Val} : ValueAt b c!"organization" v → OrganizationOf v org →
      BoundsOf b entity bounds → ValueAt b c!"project" w → ProjectOf w proj → ItemsAt b c!"conditions" entries →
      WhereEntries entries conds → WhereOf b entity (org ++ bounds ++ proj ++ conds)

/-! ### The other clauses -/

omit U D in
/-- A tuple counts as a list. -/
inductive AsList : Val → Val → Prop
  | tuple {xs : List Val} : AsList (.tuple xs) (.list xs)
  | other {v : Val} : (∀ xs, v ≠ .tuple xs) → AsList v v

/-- The selected expressions of the aggregations. -/
inductive Aggregates : List Val → List Val → Prop
  | nil : Aggregates [] []
  | cons {v x : Val} {items vs xs : List Val} : ItemsOf v items → Converts (.list items) x → Aggregates vs xs → Aggregates (v :: vs) (x :: xs)

/-- Expressions one by one, a tuple counting as a list. -/
inductive ConvertsItems : List Val → List Val → Prop
  | nil : ConvertsItems [] []
  | cons {v w x : Val} {vs xs : List Val} : AsList v w → Converts w x → ConvertsItems vs xs → ConvertsItems (v :: vs) (x :: xs)

/-- The `SELECT` list of a body: the aggregations, then the selected columns. -/
inductive SelectOf (b : LegacyBody) : List Val → Prop
  | mk {as ss xs ys : List Val} : ItemsAt b c!"aggregations" as → Aggregates as xs → ItemsAt b c!"selected_columns" ss →
      ConvertsItems ss ys → SelectOf b (xs ++ ys)

/-- The `GROUP BY` list of a body; a single expression need not be in a list. -/
inductive GroupbyOf (b : LegacyBody) : List Val → Prop
  | missing : (∀ v, ¬ Has b c!"groupby" v) → GroupbyOf b []
  | list {gs xs : List Val} : Has b c!"groupby" (.list gs) → ConvertsItems gs xs → GroupbyOf b xs
  | single {v w x : Val} : Has b c!"groupby" v → (∀ gs, v ≠ .list gs) → ¬ Falsy v → AsList v w → Converts w x → GroupbyOf b [x]
  | empty {v : Val} : Has b c!"groupby" v → (∀ gs, v ≠ .list gs) → ItemsOf v [] → GroupbyOf b []

/-- One entry of the conditions for `HAVING`: here a group must have at least two members. -/
inductive HavingEntry : Val → Val → Prop
  | condition {v c : Val} {xs : List Val} : ItemsOf v xs → ConditionShape xs → ConditionOf xs c → HavingEntry v c
  | group {v : Val} {xs cs : List Val} : ItemsOf v xs → ¬ ConditionShape xs → GroupOf xs cs → 2 ≤ cs.length →
      HavingEntry v (.boolCond .or .or .list cs)

/-- The entries of the conditions for `HAVING`, in order. -/
inductive HavingEntries : List Val → List Val → Prop
  | nil : HavingEntries [] []
  | cons {v c : Val} {vs cs : List Val} : HavingEntry v c → HavingEntries vs cs → HavingEntries (v :: vs) (c :: cs)

omit U D in
/-- A text with dashes before it; at least one, and all that there are. -/
def Dashed (s t : Str) : Prop := ∃ n : Nat, s = List.replicate (n + 1) '-' ++ t ∧ ∀ r, t ≠ '-' :: r

omit U D in
/-- A list that begins with a text that begins with a dash. -/
inductive DashedList : Val → Prop
  | mk {s : Str} {rest : List Val} : DashedList (.list (.str ('-' :: s) :: rest))

/-- An item of the ordering: the expression and the direction. -/
inductive OrderItem : Val → Val → Direction → Prop
  | asc {s : Str} {x : Val} : (∀ r, s ≠ '-' :: r) → Converts (.str s) x → OrderItem (.str s) x .asc
  | desc {s t : Str} {x : Val} : Dashed s t → Converts (.str t) x → OrderItem (.str s) x .desc
  | listAsc {xs : List Val} {x : Val} : ¬ DashedList (.list xs) → Converts (.list xs) x → OrderItem (.list xs) x .asc
  | listDesc {s t : Str} {rest : List Val} {x : Val} : Dashed s t → Converts (.list (.str t :: rest)) x →
      OrderItem (.list (.str s :: rest)) x .desc

/-- The items of the ordering after an expression. An item that is neither text nor list repeats the expression before it. -/
inductive OrderItems : Option Val → List Val → List Val → Prop
  | nil {p : Option Val} : OrderItems p [] []
  | cons {p : Option Val} {v x : Val} {d : Direction} {vs xs : List Val} : OrderItem v x d → ColOrFn x → OrderItems (some x) vs xs →
      OrderItems p (v :: vs) (.orderby x d :: xs)
  | again {x v : Val} {vs xs : List Val} : (∀ s, v ≠ .str s) → (∀ ys, v ≠ .list ys) → ColOrFn x → OrderItems (some x) vs xs →
      OrderItems (some x) (v :: vs) (.orderby x .asc :: xs)

/-- The `ORDER BY` clause. -/
inductive OrderOf : Val → Val → Prop
  | absent {v : Val} : Falsy v → OrderOf v .none
  | list {os xs : List Val} : os ≠ [] → OrderItems none os xs → OrderOf (.list os) (.list xs)
  | single {v : Val} {xs : List Val} : ¬ Falsy v → (∀ os, v ≠ .list os) → OrderItems none [v] xs → OrderOf v (.list xs)

omit D in
/-- The `ARRAY JOIN` clause. -/
inductive ArrayJoinOf : Val → Val → Prop
  | absent {v : Val} : Falsy v → ArrayJoinOf v .none
  | column {s : Str} {c : ColumnObj} : s ≠ [] → ColumnFor s c → ArrayJoinOf (.str s) (.list [.column c])

omit U D in
/-- A clause whose value is stored, if there is one and the clause takes it. -/
def OptionalClause (f : Field) (v x : Val) : Prop := (v = .none ∧ x = .none) ∨ (v ≠ .none ∧ Accepts f v x)

/-! ### Numbers -/

section
variable [N : PyNumberText]

omit U D in
/-- The float for a value: a float itself, the float next to an int or bool unless that is infinite, or what a text is read as. -/
inductive FloatOf : Val → PyFloat → Prop
  | float {f : PyFloat} : FloatOf (.float f) f
  | int {v : Val} {n : PyInt} {d : Dbl} : IntLike v n → roundRat (decide (n.toInt < 0)) n.toInt.natAbs 1 = .fin d → FloatOf v (.fin d)
  | str {s : Str} {f : PyFloat} : N.float (.str s) = some f → FloatOf (.str s) f
  | bytes {bs : List UInt8} {f : PyFloat} : N.float (.bytes bs) = some f → FloatOf (.bytes bs) f

omit U D in
/-- The int for a value: an int or bool itself, a finite float cut towards zero, or what a text is read as. -/
inductive IntOf : Val → Int → Prop
  | int {v : Val} {n : PyInt} : IntLike v n → IntOf v n.toInt
  | float {d : Dbl} {a : Nat} : a * d.ratio.2 ≤ d.ratio.1 → d.ratio.1 < (a + 1) * d.ratio.2 →
      IntOf (.float (.fin d)) (if d.neg then -(a : Int) else a)
  | str {s : Str} {i : Int} : N.int (.str s) = some i → IntOf (.str s) i
  | bytes {bs : List UInt8} {i : Int} : N.int (.bytes bs) = some i → IntOf (.bytes bs) i

omit U D in
/-- A float that is not below or equal to zero. -/
inductive NotBelow : PyFloat → Prop
  | fin {d : Dbl} : d.neg = false → d.m ≠ 0 → NotBelow (.fin d)
  | inf : NotBelow (.inf false)
  | nan : NotBelow .nan

omit U D in
/-- The sample of the entity. -/
inductive SampleOf : Val → Option PyFloat → Prop
  | absent : SampleOf .none none
  | rate {v : Val} {f : PyFloat} : FloatOf v f → NotBelow f → SampleOf v (some f)

omit D in
/-- The `LIMIT BY` clause: a count and the name of a column. -/
inductive LimitByOf : Val → Val → Prop
  | absent {v : Val} : Falsy v → LimitByOf v .none
  | pair {v limit : Val} {s : Str} {c : ColumnObj} {n : Int} : ¬ Falsy v → ItemsOf v [limit, .str s] → ColumnFor s c → IntOf limit n →
      1 ≤ n → n ≤ 10000 → LimitByOf v (.limitby .list [c] (.int n))

/-! ### The query -/

/-- The clauses of the query of a body. -/
structure FromBody (b : LegacyBody) (entity : Str) (c : Body) : Prop where
  select : ∃ xs, c.select = .list xs ∧ SelectOf b xs ∧ xs ≠ [] ∧ ∀ x ∈ xs, Selectable x
  groupby : ∃ xs, c.groupby = .list xs ∧ GroupbyOf b xs ∧ ∀ x ∈ xs, Selectable x
  arrayJoin : ∃ v, ValueAt b c!"arrayjoin" v ∧ ArrayJoinOf v c.arrayJoin
  where_ : ∃ xs, c.where_ = .list xs ∧ WhereOf b entity xs
  having : ∃ vs xs, ItemsAt b c!"having" vs ∧ c.having = .list xs ∧ HavingEntries vs xs
  orderby : ∃ v, ValueAt b c!"orderby" v ∧ OrderOf v c.orderby
  limitby : ∃ v, ValueAt b c!"limitby" v ∧ LimitByOf v c.limitby
  limit : ∃ v, ValueAt b c!"limit" v ∧ OptionalClause .limit v c.limit
  offset : ∃ v, ValueAt b c!"offset" v ∧ OptionalClause .offset v c.offset
  granularity : ∃ v, ValueAt b c!"granularity" v ∧ OptionalClause .granularity v c.granularity
  totals : ∃ v, ValueAt b c!"totals" v ∧ OptionalClause .totals v c.totals

/-! ### The request -/

omit U D N in
/-- A value, or something else in its place if it counts as false. -/
def InPlaceOf (v default x : Val) : Prop := (Falsy v ∧ x = default) ∨ (¬ Falsy v ∧ x = v)

omit U D N in
/-- Structured values that count as false. -/
inductive EmptyData : Data → Prop
  | val {v : Val} : Falsy v → EmptyData (.val v)
  | list : EmptyData (.list [])
  | dict : EmptyData (.dict [])

/-- The request for a body: its query is over the entity, with the sample and the clauses of the body; the dataset is the entity unless the
body names one; the application and the tenants are `legacy` unless the body has them; the flags are those that the body sets to something
that counts as true, and `legacy`. -/
structure RequestOf (b : LegacyBody) (entity : Str) (req : RequestObj) : Prop where
  name : OptNewline EntityName entity
  query : ∃ v s c, ValueAt b c!"sample" v ∧ SampleOf v s ∧ req.query = .snql (.base (.entity ⟨entity, none, s, none⟩) c) ∧ FromBody b entity c
  dataset : ∃ v x, ValueAt b c!"dataset" v ∧ InPlaceOf v (.str entity) x ∧ req.dataset = .val x
  appId : ∃ v x, ValueAt b c!"app_id" v ∧ InPlaceOf v (.str c!"legacy") x ∧ req.appId = .val x
  flags : ∃ f, req.flags = some f ∧ f.legacy = .bool true ∧ f.totals = .none ∧
    (∃ v, ValueAt b c!"consistent" v ∧ InPlaceOf v .none f.consistent) ∧
    (∃ v, ValueAt b c!"turbo" v ∧ InPlaceOf v .none f.turbo) ∧
    (∃ v, ValueAt b c!"debug" v ∧ InPlaceOf v .none f.debug) ∧
    ∃ v, ValueAt b c!"dry_run" v ∧ InPlaceOf v .none f.dryRun
  tenants : (EmptyData b.tenantIds ∧ req.tenantIds = .dict [(c!"legacy", .val (.str c!"legacy"))]) ∨
    (¬ EmptyData b.tenantIds ∧ req.tenantIds = b.tenantIds)
  parentApi : req.parentApi = .val (.str c!"<unknown>")

end

end Verif.Spec
