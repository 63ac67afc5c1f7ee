import Verif.Py.Regex

/-!
# Parsing expression grammars with the semantics of `parsimonious`

`parsimonious` matches the expressions of a grammar at a position of the text: ordered choice without
backtracking into a chosen alternative, greedy repetition without backtracking. `pegRun n` matches with at most `n`
nested calls; running out of calls is an outcome of its own, so that it cannot be taken for a failure to match.
Python's recursion limit is not modelled. The packrat cache of `parsimonious` does not change outcomes and is left out.
-/

namespace Verif

/-- Grammar expressions (`parsimonious.expressions`): `Literal`, `Regex`, `Sequence`, `OneOf`, `ZeroOrMore` (`*`),
`Optional` (`?`) and a reference to a rule. The rules are of type `ρ`. -/
inductive Peg (ρ : Type) where
  | lit (s : Str)
  | re (r : Regex)
  | seq (ps : List (Peg ρ))
  | alt (ps : List (Peg ρ))
  | star (p : Peg ρ)
  | opt (p : Peg ρ)
  | rule (r : ρ)

/-- Parse trees (`parsimonious.nodes.Node`): the name of the rule (`expr_name`, `none` for unnamed expressions), the
text matched and the children. -/
inductive Node (ρ : Type) where
  | node (rule : Option ρ) (text : Str) (children : List (Node ρ))

/-- Outcome of matching: no calls left, no match, or a match and the rest of the text. -/
inductive Match (α : Type) where
  | out
  | fail
  | ok (a : α) (rest : Str)

/-- Apply a function to what was matched. -/
def Match.map {α β : Type} (f : α → Str → β) : Match α → Match β
  | .out => .out
  | .fail => .fail
  | .ok a r => .ok (f a r) r

/-- `text.startswith(literal, pos)` (`parsimonious` `Literal._uncached_match`). -/
def matchLit (l s : Str) : Match Unit := if l.isPrefixOf s then .ok () (s.drop l.length) else .fail

/-- `pattern.match(text, pos)` (`parsimonious` `Regex._uncached_match`): the first match in the order of the engine. -/
def matchRe (r : Regex) (s : Str) : Match Unit :=
  match r.run s with
  | [] => .fail
  | t :: _ => .ok () t

/-- Put a child in front of the children matched after it. -/
def Match.cons {α : Type} (a : α) : Match (List α) → Match (List α)
  | .ok as r => .ok (a :: as) r
  | m => m

/-- `parsimonious` `Sequence._uncached_match`: all members one after the other. -/
def seqWith {ρ α : Type} (f : Peg ρ → Str → Match α) : List (Peg ρ) → Str → Match (List α)
  | [], s => .ok [] s
  | p :: ps, s =>
    match f p s with
    | .out => .out
    | .fail => .fail
    | .ok a r => (seqWith f ps r).cons a

/-- `parsimonious` `OneOf._uncached_match`: the first member that matches is the only child. -/
def altWith {ρ α : Type} (f : Peg ρ → Str → Match α) : List (Peg ρ) → Str → Match (List α)
  | [], _ => .fail
  | p :: ps, s =>
    match f p s with
    | .out => .out
    | .fail => altWith f ps s
    | .ok a r => .ok [a] r

/-- `parsimonious` `Quantifier._uncached_match` for `*`: repeat while there is text and the member matches; an empty
match is the last one. The first argument bounds the number of rounds; each round but the last consumes text, so the
length of the text suffices. -/
def starWith {α : Type} (f : Str → Match α) : Nat → Str → Match (List α)
  | 0, s => .ok [] s
  | k + 1, s =>
    match s with
    | [] => .ok [] []
    | _ :: _ =>
      match f s with
      | .out => .out
      | .fail => .ok [] s
      | .ok a r => if r.length < s.length then (starWith f k r).cons a else .ok [a] r

/-- `parsimonious` `Quantifier._uncached_match` for `?`. -/
def optWith {α : Type} (f : Str → Match α) (s : Str) : Match (List α) :=
  match s with
  | [] => .ok [] []
  | _ :: _ =>
    match f s with
    | .out => .out
    | .fail => .ok [] s
    | .ok a r => .ok [a] r

/-- The text before the rest. -/
def consumed (s rest : Str) : Str := s.take (s.length - rest.length)

/-- The node of a rule: the node of its expression under the name of the rule (in `parsimonious` the expression itself
has the name). -/
def Node.named {ρ : Type} (r : ρ) : Node ρ → Node ρ
  | .node _ t cs => .node (some r) t cs

/-- `Expression.match_core` (`parsimonious`) with at most `n` nested calls; `g` gives the expression of each rule. -/
def pegRun {ρ : Type} (g : ρ → Peg ρ) : Nat → Peg ρ → Str → Match (Node ρ)
  | 0, _, _ => .out
  | n + 1, p, s =>
    match p with
    | .lit l => (matchLit l s).map fun _ r => .node none (consumed s r) []
    | .re e => (matchRe e s).map fun _ r => .node none (consumed s r) []
    | .seq ps => (seqWith (pegRun g n) ps s).map fun cs r => .node none (consumed s r) cs
    | .alt ps => (altWith (pegRun g n) ps s).map fun cs r => .node none (consumed s r) cs
    | .star q => (starWith (pegRun g n q) s.length s).map fun cs r => .node none (consumed s r) cs
    | .opt q => (optWith (pegRun g n q) s).map fun cs r => .node none (consumed s r) cs
    | .rule r => (pegRun g n (g r) s).map fun nd _ => nd.named r

end Verif
