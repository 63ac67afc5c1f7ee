import Verif.Spec.ExprRead
import Verif.Spec.Built
import Verif.Spec.Query
import Verif.Spec.Semantics

/-!
# Specification: reading the text of queries

A reader of whole SnQL queries on one line: the match (an entity, a storage, a join, or a query in braces) and the
clauses in their order. It is written from the syntax of SnQL, not from the printer. Expressions are read by
`readTree`, conditions by `readOr`.
-/

namespace Verif.Spec

/-! ### What is read -/

/-- An entity in the match: its name, in a join its alias, and the text of its sample rate. -/
structure EntTree where
  nick : Option Str
  name : Str
  sample : Option Str

/-- A link of a join. -/
structure LinkTree where
  lhs : EntTree
  name : Str
  rhs : EntTree

/-- What a query is on, unless it is on another query. -/
inductive SourceTree
  | entity (e : EntTree)
  | storage (name : Str) (sample : Option Str)
  | join (links : List LinkTree)

/-- The clauses that are there. Numbers are given as words. -/
structure ClauseTrees where
  select : Option (List STree)
  groupby : Option (List STree)
  arrayJoin : Option (List STree)
  where_ : Option BTree
  having : Option BTree
  orderby : Option (List (STree × Direction))
  limitby : Option (Str × List Str)
  limit : Option Str
  offset : Option Str
  granularity : Option Str
  totals : Option Str

/-- A query. -/
inductive QTree
  | base (source : SourceTree) (clauses : ClauseTrees)
  | nested (inner : QTree) (clauses : ClauseTrees)

/-! ### The reader -/

/-- The text up to a character that fails the test, and the rest. -/
def spanText (p : Char → Bool) (s : Str) : Str × Str := (s.takeWhile p, s.dropWhile p)

/-- An optional sample rate, up to the closing parenthesis, which is dropped. -/
def readSample (s : Str) : Option (Option Str × Str) :=
  match dropPrefix c!" SAMPLE " s with
  | some r => (dropPrefix c!")" (spanText (· != ')') r).2).map fun r' => (some (spanText (· != ')') r).1, r')
  | none => (dropPrefix c!")" s).map fun r => (none, r)

/-- A name inside parentheses: up to a space or the closing parenthesis. -/
def spanName (s : Str) : Str × Str := spanText (fun c => c != ' ' && c != ')') s

/-- `(name)` or `(alias: name)`, with an optional sample rate. -/
def readEntity (s : Str) : Option (EntTree × Str) := do
  let s ← dropPrefix c!"(" s
  if (spanName s).1.getLast? = some ':' then do
    let r ← dropPrefix c!" " (spanName s).2
    let (x, r') ← readSample (spanName r).2
    some (⟨some (spanName s).1.dropLast, (spanName r).1, x⟩, r')
  else do
    let (x, r) ← readSample (spanName s).2
    some (⟨none, (spanName s).1, x⟩, r)

/-- `(a: x) -[name]-> (b: y)`. -/
def readLink (s : Str) : Option (LinkTree × Str) := do
  let (l, s) ← readEntity s
  let s ← dropPrefix c!" -[" s
  let r ← dropPrefix c!"]-> " (spanText (· != ']') s).2
  let (x, r) ← readEntity r
  some (⟨l, (spanText (· != ']') s).1, x⟩, r)

/-- One or more items with separators. (The number bounds the items.) -/
def readSeparated {α : Type} (item : Str → Option (α × Str)) (sep : Str) : Nat → Str → Option (List α × Str)
  | 0, _ => none
  | f + 1, s => do
    let (x, s) ← item s
    match dropPrefix sep s with
    | none => some ([x], s)
    | some r => do
      let (xs, r) ← readSeparated item sep f r
      some (x :: xs, r)

/-- What a query is on, unless it is on another query. -/
def readSource (s : Str) : Option (SourceTree × Str) :=
  match dropPrefix c!"STORAGE(" s with
  | some r => do
    let (x, r') ← readSample (spanName r).2
    some (.storage (spanName r).1 x, r')
  | none =>
    match readLink s with
    | some _ => (readSeparated readLink c!", " (s.length + 1) s).map fun p => (.join p.1, p.2)
    | none => (readEntity s).map fun p => (.entity p.1, p.2)

/-- A clause that may be missing: a keyword and something else. -/
def readClause {α : Type} (keyword : Str) (read : Str → Option (α × Str)) (s : Str) : Option (Option α × Str) :=
  match dropPrefix keyword s with
  | none => some (none, s)
  | some r => (read r).map fun p => (some p.1, p.2)

/-- An expression. -/
def readItem (s : Str) : Option (STree × Str) := readTree (s.length + 1) s

/-- Expressions separated by commas. -/
def readExpressions (s : Str) : Option (List STree × Str) := readSeparated readItem c!", " (s.length + 1) s

/-- A condition. -/
def readConditions (s : Str) : Option (BTree × Str) := readOr (4 * s.length + 6) s

/-- An expression with a direction. -/
def readOrdering (s : Str) : Option ((STree × Direction) × Str) := do
  let (t, s) ← readItem s
  match dropPrefix c!" ASC" s with
  | some r => some ((t, .asc), r)
  | none => (dropPrefix c!" DESC" s).map fun r => ((t, .desc), r)

/-- Orderings separated by commas. -/
def readOrderings (s : Str) : Option (List (STree × Direction) × Str) := readSeparated readOrdering c!", " (s.length + 1) s

/-- A word. -/
def readWord (s : Str) : Option (Str × Str) := if (spanWord false s).1 = [] then none else some (spanWord false s)

/-- `LIMIT n BY a,b`. A `LIMIT n` without `BY` is another clause. -/
def readLimitBy (s : Str) : Option (Option (Str × List Str) × Str) :=
  match dropPrefix c!" LIMIT " s with
  | none => some (none, s)
  | some r => do
    let (n, r) ← readWord r
    match dropPrefix c!" BY " r with
    | none => some (none, s)
    | some r => do
      let (cs, r) ← readSeparated readWord c!"," (r.length + 1) r
      some (some (n, cs), r)

/-- The clauses in their order. -/
def readClauses (s : Str) : Option (ClauseTrees × Str) := do
  let (select, s) ← readClause c!" SELECT " readExpressions s
  let (groupby, s) ← readClause c!" BY " readExpressions s
  let (arrayJoin, s) ← readClause c!" ARRAY JOIN " readExpressions s
  let (where_, s) ← readClause c!" WHERE " readConditions s
  let (having, s) ← readClause c!" HAVING " readConditions s
  let (orderby, s) ← readClause c!" ORDER BY " readOrderings s
  let (limitby, s) ← readLimitBy s
  let (limit, s) ← readClause c!" LIMIT " readWord s
  let (offset, s) ← readClause c!" OFFSET " readWord s
  let (granularity, s) ← readClause c!" GRANULARITY " readWord s
  let (totals, s) ← readClause c!" TOTALS " readWord s
  some (⟨select, groupby, arrayJoin, where_, having, orderby, limitby, limit, offset, granularity, totals⟩, s)

/-- A query at the beginning of a text, and the rest. (The number bounds the depth of queries in queries.) -/
def readNested : Nat → Str → Option (QTree × Str)
  | 0, _ => none
  | f + 1, s => do
    let s ← dropPrefix c!"MATCH " s
    match dropPrefix c!"{ " s with
    | some r => do
      let (q, r) ← readNested f r
      let r ← dropPrefix c!" }" r
      let (c, r) ← readClauses r
      some (.nested q c, r)
    | none => do
      let (m, r) ← readSource s
      let (c, r) ← readClauses r
      some (.base m c, r)

/-- Read a whole text as a query. -/
def readQuery (s : Str) : Option QTree :=
  match readNested (s.length + 1) s with
  | some (q, []) => some q
  | _ => none

/-! ### What the trees say -/

/-- The text of a sample rate: within half a millionth of the rate, exact for integers. (The SDK also lets infinity
and NaN pass.) -/
inductive SaysSample : Option PyFloat → Option Str → Prop
  | none : SaysSample none none
  | rate (d w) : RateText d w → SaysSample (some (.fin d)) (some w)
  | inf : SaysSample (some (.inf false)) (some c!"inf")
  | nan : SaysSample (some .nan) (some c!"nan")

/-- An entity, with its alias in a join. -/
structure SaysEntity (useAliases : Bool) (e : EntityObj) (t : EntTree) : Prop where
  nick : t.nick = if useAliases then e.alias else none
  name : t.name = e.name
  sample : SaysSample e.sample t.sample

/-- A relationship. -/
structure SaysLink (r : RelObj) (t : LinkTree) : Prop where
  lhs : SaysEntity true r.lhs t.lhs
  name : t.name = r.name
  rhs : SaysEntity true r.rhs t.rhs

/-- What the query is on; the flag says whether it is a join. -/
inductive SaysSource : Bool → Val → SourceTree → Prop
  | entity (e t) : SaysEntity false e t → SaysSource false (.entity e) (.entity t)
  | storage (s : StorageObj) (x) : SaysSample s.sample x → SaysSource false (.storage s) (.storage s.name x)
  | join (k rels ts) : Paired SaysLink rels ts → SaysSource true (.join k rels) (.join ts)

mutual
/-- A condition: its And/Or structure, its operators, and operands whose texts are read as trees that say them. -/
inductive SaysCondition (useAliases : Bool) : Val → BTree → Prop
  | unary (l o r lt tr) : o = .isNull ∨ o = .isNotNull → readExpression lt = some tr → Says useAliases l tr →
      SaysCondition useAliases (.cond l o r) (.leaf lt o none)
  | binary (l o r lt rt tl tr) : o ≠ .isNull → o ≠ .isNotNull → readExpression lt = some tl → Says useAliases l tl →
      readExpression rt = some tr → Says useAliases r tr → SaysCondition useAliases (.cond l o r) (.leaf lt o (some rt))
  | group (cls o k cs ts) : SaysConditions useAliases cs ts → SaysCondition useAliases (.boolCond cls o k cs) (.node o ts)

/-- Conditions one by one. -/
inductive SaysConditions (useAliases : Bool) : List Val → List BTree → Prop
  | nil : SaysConditions useAliases [] []
  | cons (c cs t ts) : SaysCondition useAliases c t → SaysConditions useAliases cs ts →
      SaysConditions useAliases (c :: cs) (t :: ts)
end

/-- An ordering. -/
inductive SaysOrdering (useAliases : Bool) : Val → STree × Direction → Prop
  | mk (e d t) : Says useAliases e t → SaysOrdering useAliases (.orderby e d) (t, d)

/-- The count of a limit by: an int, or a bool as Python writes it. -/
inductive SaysCount : PyInt → Str → Prop
  | int (i w) : readToken w = some (.int i) → SaysCount (.int i) w
  | true : SaysCount (.bool true) c!"True"
  | false : SaysCount (.bool false) c!"False"

/-- A list clause: missing if the list is None or empty. -/
inductive SaysList {α : Type} (R : List Val → α → Prop) : Val → Option α → Prop
  | none : SaysList R .none none
  | empty (v k) : SeqOf v k [] → SaysList R v none
  | some (v k xs t) : SeqOf v k xs → xs ≠ [] → R xs t → SaysList R v (some t)

/-- A clause with one value: missing if it is None. -/
inductive SaysOne {α : Type} (R : Val → α → Prop) : Val → Option α → Prop
  | none : SaysOne R .none none
  | some (v t) : R v t → SaysOne R v (some t)

/-- The clauses of a query. -/
structure SaysClauses (useAliases : Bool) (b : Body) (t : ClauseTrees) : Prop where
  select : SaysList (SaysAll useAliases) b.select t.select
  groupby : SaysList (SaysAll useAliases) b.groupby t.groupby
  arrayJoin : SaysList (SaysAll useAliases) b.arrayJoin t.arrayJoin
  where_ : SaysList (fun xs t => ∃ ts, SaysConditions useAliases xs ts ∧ t = group .and ts) b.where_ t.where_
  having : SaysList (fun xs t => ∃ ts, SaysConditions useAliases xs ts ∧ t = group .and ts) b.having t.having
  orderby : SaysList (Paired (SaysOrdering useAliases)) b.orderby t.orderby
  limitby : SaysOne (fun v t => ∃ k cs n, v = .limitby k cs n ∧ SaysCount n t.1 ∧ t.2 = cs.map (columnWord useAliases))
    b.limitby t.limitby
  limit : SaysOne (fun v w => ∃ n, v = .limit n ∧ readToken w = some (.int n.toInt)) b.limit t.limit
  offset : SaysOne (fun v w => ∃ n, v = .offset n ∧ readToken w = some (.int n.toInt)) b.offset t.offset
  granularity : SaysOne (fun v w => ∃ n, v = .granularity n ∧ readToken w = some (.int n.toInt)) b.granularity t.granularity
  totals : SaysOne (fun v w => ∃ n, v = .totals n ∧ SaysCount (.bool n) w) b.totals t.totals

/-- The tree says the query, at every level. -/
inductive SaysQuery : Query → QTree → Prop
  | base (j m b mt ct) : SaysSource j m mt → SaysClauses j b ct → SaysQuery (.base m b) (.base mt ct)
  | nested (q b qt ct) : SaysQuery q qt → SaysClauses false b ct → SaysQuery (.nested q b) (.nested qt ct)

/-! ### Queries whose names can be read -/

/-- A condition whose operands can be read. -/
inductive ReadableCondition : Val → Prop
  | cond (l o r) : ReadableVal l → ReadableVal r → ReadableCondition (.cond l o r)
  | group (cls o k cs) : (∀ c ∈ cs, ReadableCondition c) → ReadableCondition (.boolCond cls o k cs)

/-- A value that a clause may hold: of the kind that the clause is for, built by constructors, with names that can be
read. -/
inductive ReadableClause [PyUnicode] : Field → Val → Prop
  | none (f) : ReadableClause f .none
  | expressions (f v k xs) : f = .select ∨ f = .groupby ∨ f = .arrayJoin → SeqOf v k xs →
      (∀ x ∈ xs, Built x ∧ ReadableVal x) → ReadableClause f v
  | conditions (f v k xs) : f = .where_ ∨ f = .having → SeqOf v k xs →
      (∀ x ∈ xs, Built x ∧ ReadableCondition x) → ReadableClause f v
  | orderings (v k xs) : SeqOf v k xs → (∀ x ∈ xs, ∃ e d, x = .orderby e d ∧ Built x ∧ ReadableVal e) →
      ReadableClause .orderby v
  | limitby (k cs n) : Built (.limitby k cs n) → (∀ c ∈ cs, SmoothColumn c ∧ NoComma (.column c)) →
      ReadableClause .limitby (.limitby k cs n)
  | limit (n) : ReadableClause .limit (.limit n)
  | offset (n) : ReadableClause .offset (.offset n)
  | granularity (n) : ReadableClause .granularity (.granularity n)
  | totals (b) : ReadableClause .totals (.totals b)

/-- A query all of whose clauses can be read, on an entity, storage or join whose names can be read. -/
inductive ReadableQuery [PyUnicode] : Query → Prop
  | base (m b) : Built m → SmoothNames m → (∀ f : Field, ReadableClause f (f.get b)) → ReadableQuery (.base m b)
  | nested (q b) : ReadableQuery q → (∀ f : Field, ReadableClause f (f.get b)) → ReadableQuery (.nested q b)

/-- What serialising makes of the where clause: groups of equalities on the same expression are merged. -/
def MergedWhere (v w : Val) : Prop := w = v ∨ ∃ k xs new, SeqOf v k xs ∧ Paired Rewritten xs new ∧ w = .list new

/-! ### Queries that say the same -/

/-- Sample rates that round to the same text. -/
def SameSample (x x' : Option PyFloat) : Prop := ∃ w, SaysSample x w ∧ SaysSample x' w

/-- Entities of the same name and sample rate, in a join with the same alias. -/
def SameEntity (useAliases : Bool) (e e' : EntityObj) : Prop :=
  (useAliases = true → e.alias = e'.alias) ∧ e.name = e'.name ∧ SameSample e.sample e'.sample

/-- Relationships of the same name between the same entities. -/
def SameLink (r r' : RelObj) : Prop := SameEntity true r.lhs r'.lhs ∧ r.name = r'.name ∧ SameEntity true r.rhs r'.rhs

/-- The same thing to query; the flag says whether it is a join. -/
inductive SameSource : Bool → Val → Val → Prop
  | entity (e e') : SameEntity false e e' → SameSource false (.entity e) (.entity e')
  | storage (s s' : StorageObj) : s.name = s'.name → SameSample s.sample s'.sample → SameSource false (.storage s) (.storage s')
  | join (k k' rels rels') : Paired SameLink rels rels' → SameSource true (.join k rels) (.join k' rels')

mutual
/-- Conditions with the same operators on operands that say the same. -/
inductive SameCondition (useAliases : Bool) : Val → Val → Prop
  | unary (l o r l' r') : o = .isNull ∨ o = .isNotNull → Same useAliases l l' →
      SameCondition useAliases (.cond l o r) (.cond l' o r')
  | binary (l o r l' r') : Same useAliases l l' → Same useAliases r r' →
      SameCondition useAliases (.cond l o r) (.cond l' o r')
  | group (cls cls' o k k' cs cs') : SameConditions useAliases cs cs' →
      SameCondition useAliases (.boolCond cls o k cs) (.boolCond cls' o k' cs')

/-- Conditions one by one. -/
inductive SameConditions (useAliases : Bool) : List Val → List Val → Prop
  | nil : SameConditions useAliases [] []
  | cons (c c' cs cs') : SameCondition useAliases c c' → SameConditions useAliases cs cs' →
      SameConditions useAliases (c :: cs) (c' :: cs')
end

/-- The same conjunction: a clause with one And of conditions is the same as a clause with these conditions. -/
inductive SameConjunction (useAliases : Bool) : List Val → List Val → Prop
  | same (cs cs') : SameConditions useAliases cs cs' → SameConjunction useAliases cs cs'
  | left (cls k cs cs') : SameConditions useAliases cs cs' → SameConjunction useAliases [.boolCond cls .and k cs] cs'
  | right (cls k cs cs') : SameConditions useAliases cs cs' → SameConjunction useAliases cs [.boolCond cls .and k cs']

/-- The same ordering. -/
inductive SameOrdering (useAliases : Bool) : Val → Val → Prop
  | mk (e e' d) : Same useAliases e e' → SameOrdering useAliases (.orderby e d) (.orderby e' d)

/-- A list clause: both missing (None or empty), or the same items. -/
inductive SameList (R : List Val → List Val → Prop) : Val → Val → Prop
  | missing (v v') : v = .none ∨ (∃ k, SeqOf v k []) → v' = .none ∨ (∃ k, SeqOf v' k []) → SameList R v v'
  | items (v v' k k' xs xs') : SeqOf v k xs → SeqOf v' k' xs' → R xs xs' → SameList R v v'

/-- Limits per group on the same columns. -/
inductive SameLimitBy (useAliases : Bool) : Val → Val → Prop
  | none : SameLimitBy useAliases .none .none
  | some (k k' cs cs' n) : cs.map (columnWord useAliases) = cs'.map (columnWord useAliases) →
      SameLimitBy useAliases (.limitby k cs n) (.limitby k' cs' n)

/-- Clauses with the same number (`True` is 1). -/
inductive SameNumber (mk : PyInt → Val) : Val → Val → Prop
  | none : SameNumber mk .none .none
  | some (n n') : n.toInt = n'.toInt → SameNumber mk (mk n) (mk n')

/-- The same clauses. -/
structure SameClauses (useAliases : Bool) (b b' : Body) : Prop where
  select : SameList (SameAll useAliases) b.select b'.select
  groupby : SameList (SameAll useAliases) b.groupby b'.groupby
  arrayJoin : SameList (SameAll useAliases) b.arrayJoin b'.arrayJoin
  where_ : SameList (SameConjunction useAliases) b.where_ b'.where_
  having : SameList (SameConjunction useAliases) b.having b'.having
  orderby : SameList (Paired (SameOrdering useAliases)) b.orderby b'.orderby
  limitby : SameLimitBy useAliases b.limitby b'.limitby
  limit : SameNumber .limit b.limit b'.limit
  offset : SameNumber .offset b.offset b'.offset
  granularity : SameNumber .granularity b.granularity b'.granularity
  totals : b.totals = b'.totals

/-- The same query at every level. -/
inductive SameQuery : Query → Query → Prop
  | base (j m b m' b') : SameSource j m m' → SameClauses j b b' → SameQuery (.base m b) (.base m' b')
  | nested (q b q' b') : SameQuery q q' → SameClauses false b b' → SameQuery (.nested q b) (.nested q' b')

/-- No operand of the condition is ambiguous. -/
inductive UnambiguousCondition (useAliases : Bool) : Val → Prop
  | cond (l o r) : UnambiguousVal useAliases l → UnambiguousVal useAliases r → UnambiguousCondition useAliases (.cond l o r)
  | group (cls o k cs) : (∀ c ∈ cs, UnambiguousCondition useAliases c) → UnambiguousCondition useAliases (.boolCond cls o k cs)

/-- No expression in the clauses is ambiguous. -/
structure UnambiguousClauses (useAliases : Bool) (b : Body) : Prop where
  select : ∀ k xs, SeqOf b.select k xs → ∀ x ∈ xs, UnambiguousVal useAliases x
  groupby : ∀ k xs, SeqOf b.groupby k xs → ∀ x ∈ xs, UnambiguousVal useAliases x
  arrayJoin : ∀ k xs, SeqOf b.arrayJoin k xs → ∀ x ∈ xs, UnambiguousVal useAliases x
  where_ : ∀ k xs, SeqOf b.where_ k xs → ∀ x ∈ xs, UnambiguousCondition useAliases x
  having : ∀ k xs, SeqOf b.having k xs → ∀ x ∈ xs, UnambiguousCondition useAliases x
  orderby : ∀ k xs, SeqOf b.orderby k xs → ∀ e d, .orderby e d ∈ xs → UnambiguousVal useAliases e

/-- No expression in the query is ambiguous; `j` says whether it is on a join, where columns have aliases. -/
inductive UnambiguousQuery : Query → Prop
  | base (j m b) : (j = true ↔ ∃ k rels, m = .join k rels) → UnambiguousClauses j b → UnambiguousQuery (.base m b)
  | nested (q b) : UnambiguousQuery q → UnambiguousClauses false b → UnambiguousQuery (.nested q b)

end Verif.Spec
