import Verif.Spec.Printing

/-!
# The names and the strings that a query holds
-/

namespace Verif.Spec

/-- The two ways in which a text that the user gave stands in a query: as a name, which is printed as it is, or as a
string, which is printed as a literal. -/
inductive Role | name | text

/-- A name that a column holds: its own and the alias of its entity. -/
def ColumnMentions (c : ColumnObj) (s : Str) : Prop := s = c.name ∨ ∃ e, c.entity = some e ∧ e.alias = some s

/-- A name that an entity holds. -/
def EntityMentions (e : EntityObj) (s : Str) : Prop := s = e.name ∨ e.alias = some s

/-- A name that a relationship holds. -/
def RelMentions (r : RelObj) (s : Str) : Prop := s = r.name ∨ EntityMentions r.lhs s ∨ EntityMentions r.rhs s

/-- The value holds the text `s`. -/
inductive Mentions : Val → Role → Str → Prop
  | str {s} : Mentions (.str s) .text s
  | bytes {bs s} : utf8Decode bs = some s → Mentions (.bytes bs) .text s
  | list {xs x r s} : x ∈ xs → Mentions x r s → Mentions (.list xs) r s
  | tuple {xs x r s} : x ∈ xs → Mentions x r s → Mentions (.tuple xs) r s
  | column {c s} : ColumnMentions c s → Mentions (.column c) .name s
  | aliased {c a s} : ColumnMentions c s → Mentions (.aliased c a) .name s
  | aliasedAs {c a} : Mentions (.aliased c (some a)) .name a
  | fnName {f n ik is pk ps a} : Mentions (.curried f n ik is pk ps a) .name n
  | fnInit {f n ik is pk ps a x r s} : x ∈ is → Mentions x r s → Mentions (.curried f n ik is pk ps a) r s
  | fnParam {f n ik is pk ps a x r s} : x ∈ ps → Mentions x r s → Mentions (.curried f n ik is pk ps a) r s
  | fnAs {f n ik is pk ps a} : Mentions (.curried f n ik is pk ps (some a)) .name a
  | ident {n} : Mentions (.ident n) .name n
  | lamIdent {k ids b i} : i ∈ ids → Mentions (.lam k ids b) .name i
  | lamBody {k ids b r s} : Mentions b r s → Mentions (.lam k ids b) r s
  | entity {e s} : EntityMentions e s → Mentions (.entity e) .name s
  | storage {st} : Mentions (.storage st) .name st.name
  | rel {x s} : RelMentions x s → Mentions (.rel x) .name s
  | join {k rels x s} : x ∈ rels → RelMentions x s → Mentions (.join k rels) .name s
  | left {l o r ro s} : Mentions l ro s → Mentions (.cond l o r) ro s
  | right {l o r ro s} : Mentions r ro s → Mentions (.cond l o r) ro s
  | item {cls o k cs x r s} : x ∈ cs → Mentions x r s → Mentions (.boolCond cls o k cs) r s
  | orderby {e d r s} : Mentions e r s → Mentions (.orderby e d) r s
  | limitby {k cols n c s} : c ∈ cols → ColumnMentions c s → Mentions (.limitby k cols n) .name s

/-- The query holds the text `s`, in its match or in one of its clauses, at any depth. -/
inductive QueryMentions : Query → Role → Str → Prop
  | matched {m b r s} : Mentions m r s → QueryMentions (.base m b) r s
  | clause {q x r s} : HasItem q.body x → Mentions x r s → QueryMentions q r s
  | inner {q b r s} : QueryMentions q r s → QueryMentions (.nested q b) r s

/-- The characters with which the SDK writes: printable ASCII. -/
def Usual (c : Char) : Prop := 32 ≤ c.toNat ∧ c.toNat ≤ 126

/-- The character stands in a name, or it is no line break and stands in a string. -/
def ComesFrom (says : Role → Str → Prop) (c : Char) : Prop :=
  (∃ n, says .name n ∧ c ∈ n) ∨ (c ≠ '\n' ∧ ∃ s, says .text s ∧ c ∈ s)

end Verif.Spec
