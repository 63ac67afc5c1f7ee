import Verif.Spec.Query
import Verif.Model.Printer

/-!
# Specifications about the printed text
-/

namespace Verif.Spec

/-- The clauses in the order in which they are printed. -/
def clauseOrder : List Field :=
  [.select, .groupby, .arrayJoin, .where_, .having, .orderby, .limitby, .limit, .offset, .granularity, .totals]

/-- The keyword of a clause. -/
def Field.keyword : Field → Str
  | .select => c!"SELECT"
  | .groupby => c!"BY"
  | .arrayJoin => c!"ARRAY JOIN"
  | .where_ => c!"WHERE"
  | .having => c!"HAVING"
  | .orderby => c!"ORDER BY"
  | .limitby => c!"LIMIT"
  | .limit => c!"LIMIT"
  | .offset => c!"OFFSET"
  | .granularity => c!"GRANULARITY"
  | .totals => c!"TOTALS"

/-- What separates the items of a list clause; none for single-value clauses. -/
def Field.itemSep : Field → Option Str
  | .select | .groupby | .arrayJoin | .orderby => some c!", "
  | .where_ | .having => some c!" AND "
  | _ => none

/-- A clause is set: a list clause is a non-empty list or tuple, another clause is not None. -/
def Field.isSet (f : Field) (b : Body) : Bool :=
  match f.itemSep, f.get b with
  | some _, .list xs => !xs.isEmpty
  | some _, .tuple xs => !xs.isEmpty
  | some _, _ => false
  | none, .none => false
  | none, _ => true

/-- `t` is the text of the clause value `v`: the texts of the items in order, or the text of the
value. -/
def ClauseText (cfg : Cfg) (f : Field) (v : Val) (t : Str) : Prop :=
  match f.itemSep with
  | some sep => ∃ k xs ts, SeqOf v k xs ∧ Paired' cfg xs ts ∧ t = joinWith sep ts
  | none => translate cfg v = .ok t
where
  /-- The texts of a list of values. -/
  Paired' (cfg : Cfg) : List Val → List Str → Prop
    | [], [] => True
    | x :: xs, t :: ts => translate cfg x = .ok t ∧ Paired' cfg xs ts
    | _, _ => False

/-- Lines of a query: the match and the clauses that are set, in order. -/
def clauseTexts (head : Str) (b : Body) (txt : Field → Str) : List Str :=
  head :: (clauseOrder.filter (·.isSet b)).map fun f => f.keyword ++ c!" " ++ txt f

/-- `t` is a proper printing of the query with separator `sep`; subqueries are in braces on one line. -/
inductive Printed : Str → Query → Str → Prop
  | base (sep m b mt txt) :
      translate ⟨m.isJoin, false⟩ m = .ok mt →
      (∀ f : Field, f.isSet b = true → ClauseText ⟨m.isJoin, false⟩ f (f.get b) (txt f)) →
      Printed sep (.base m b) (joinWith sep (clauseTexts (c!"MATCH " ++ mt) b txt))
  | nested (sep q b it txt) :
      Printed c!" " q it →
      (∀ f : Field, f.isSet b = true → ClauseText ⟨false, false⟩ f (f.get b) (txt f)) →
      Printed sep (.nested q b) (joinWith sep (clauseTexts (c!"MATCH { " ++ it ++ c!" }") b txt))

/-! ### Renaming columns and entities -/

mutual
/-- Apply functions to all columns and entities in a value. -/
def mapVal (fc : ColumnObj → ColumnObj) (fe : EntityObj → EntityObj) : Val → Val
  | .list xs => .list (mapVals fc fe xs)
  | .tuple xs => .tuple (mapVals fc fe xs)
  | .column c => .column (fc c)
  | .curried f n ik is pk ps a => .curried f n ik (mapVals fc fe is) pk (mapVals fc fe ps) a
  | .lam k ids b => .lam k ids (mapVal fc fe b)
  | .aliased c a => .aliased (fc c) a
  | .cond l o r => .cond (mapVal fc fe l) o (mapVal fc fe r)
  | .boolCond cls o k cs => .boolCond cls o k (mapVals fc fe cs)
  | .orderby e d => .orderby (mapVal fc fe e) d
  | .limitby k cs n => .limitby k (cs.map fc) n
  | .entity e => .entity (fe e)
  | .rel r => .rel ⟨fe r.lhs, r.name, fe r.rhs⟩
  | .join k rels => .join k (rels.map fun r => ⟨fe r.lhs, r.name, fe r.rhs⟩)
  | v => v

/-- The same for a list of values. -/
def mapVals (fc : ColumnObj → ColumnObj) (fe : EntityObj → EntityObj) : List Val → List Val
  | [] => []
  | v :: vs => mapVal fc fe v :: mapVals fc fe vs
end

/-- The same for all clauses of a query. -/
def mapBody (fc : ColumnObj → ColumnObj) (fe : EntityObj → EntityObj) (b : Body) : Body where
  select := mapVal fc fe b.select
  groupby := mapVal fc fe b.groupby
  arrayJoin := mapVal fc fe b.arrayJoin
  where_ := mapVal fc fe b.where_
  having := mapVal fc fe b.having
  orderby := mapVal fc fe b.orderby
  limitby := mapVal fc fe b.limitby
  limit := mapVal fc fe b.limit
  offset := mapVal fc fe b.offset
  granularity := mapVal fc fe b.granularity
  totals := mapVal fc fe b.totals

/-- The column called `alias.name`, if the column has an entity. (A constructed entity of a column always
has an alias.) -/
def qualifyColumn (c : ColumnObj) : ColumnObj :=
  match c.entity with
  | some e => ⟨e.alias.getD c!"None" ++ c!"." ++ c.name, none, c.subscriptable, c.key⟩
  | none => c

/-- The entity called `alias: name`, if it has an alias. -/
def qualifyEntity (e : EntityObj) : EntityObj :=
  match e.alias with
  | some a => ⟨a ++ c!": " ++ e.name, none, e.sample, e.dataModel⟩
  | none => e

/-- The column without its entity. -/
def bareColumn (c : ColumnObj) : ColumnObj := { c with entity := none }

/-- The entity without its alias. -/
def bareEntity (e : EntityObj) : EntityObj := { e with alias := none }

/-- The texts of the links of a join: entities are printed like entities called `alias: name`. -/
inductive LinkTexts : List RelObj → List Str → Prop
  | nil : LinkTexts [] []
  | cons (r rs l r' ts) : translate ⟨false, false⟩ (.entity (qualifyEntity r.lhs)) = .ok l →
      translate ⟨false, false⟩ (.entity (qualifyEntity r.rhs)) = .ok r' → LinkTexts rs ts →
      LinkTexts (r :: rs) ((l ++ c!" -[" ++ r.name ++ c!"]-> " ++ r') :: ts)

/-- The query with the same clauses over the entity called `n`, in which columns and entities have been renamed. -/
def plainly (fc : ColumnObj → ColumnObj) (fe : EntityObj → EntityObj) (n : Str) (b : Body) : Query :=
  .base (.entity ⟨n, none, none, none⟩) (mapBody fc fe b)

end Verif.Spec
