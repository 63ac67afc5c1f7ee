import Verif.Py.Peg

/-!
# The packrat cache of `parsimonious`

`Expression.match_core` keeps, for one parse, the outcome of every expression at every position (a `packrat` parser). It
marks an entry as being in progress before it evaluates the expression, and raises `LeftRecursionError` when it meets an
entry in progress (version 0.10, which setup.py:41 of the repository asks for at least). The error that is kept for the
message of a failed parse is not modelled.
-/

namespace Verif

/-- Where an expression stands in the grammar, in place of its `id`: the rule, and which member of which member it is, the
last step first. -/
abbrev Place (ρ : Type) := ρ × List Nat

/-- The cache: for a place and the length of the text that is left (in place of the position), `none` while the
evaluation is in progress and then its outcome. An association list with the latest entry first, so that it also tells
which evaluations were started. -/
abbrev Memo (ρ : Type) := List ((Place ρ × Nat) × Option (Match (Node ρ)))

/-- A call that can raise `LeftRecursionError` (`none`) and changes the cache. -/
abbrev Cached (ρ α : Type) := Option (Match α) × Memo ρ

/-- `seqWith` with the cache (`parsimonious` `Sequence._uncached_match`); the first number counts the members. -/
def seqCached {ρ α : Type} (f : Nat → Peg ρ → Str → Memo ρ → Cached ρ α) :
    Nat → List (Peg ρ) → Str → Memo ρ → Cached ρ (List α)
  | _, [], s, c => (some (.ok [] s), c)
  | i, p :: ps, s, c =>
    match f i p s c with
    | (none, c) => (none, c)
    | (some .out, c) => (some .out, c)
    | (some .fail, c) => (some .fail, c)
    | (some (.ok a r), c) => ((seqCached f (i + 1) ps r c).1.map (·.cons a), (seqCached f (i + 1) ps r c).2)

/-- `altWith` with the cache (`parsimonious` `OneOf._uncached_match`). -/
def altCached {ρ α : Type} (f : Nat → Peg ρ → Str → Memo ρ → Cached ρ α) :
    Nat → List (Peg ρ) → Str → Memo ρ → Cached ρ (List α)
  | _, [], _, c => (some .fail, c)
  | i, p :: ps, s, c =>
    match f i p s c with
    | (none, c) => (none, c)
    | (some .out, c) => (some .out, c)
    | (some .fail, c) => altCached f (i + 1) ps s c
    | (some (.ok a r), c) => (some (.ok [a] r), c)

/-- `starWith` with the cache (`parsimonious` `Quantifier._uncached_match` for `*`). -/
def starCached {ρ α : Type} (f : Str → Memo ρ → Cached ρ α) : Nat → Str → Memo ρ → Cached ρ (List α)
  | 0, s, c => (some (.ok [] s), c)
  | k + 1, s, c =>
    match s with
    | [] => (some (.ok [] []), c)
    | _ :: _ =>
      match f s c with
      | (none, c) => (none, c)
      | (some .out, c) => (some .out, c)
      | (some .fail, c) => (some (.ok [] s), c)
      | (some (.ok a r), c) =>
        if r.length < s.length then ((starCached f k r c).1.map (·.cons a), (starCached f k r c).2)
        else (some (.ok [a] r), c)

/-- `optWith` with the cache (`parsimonious` `Quantifier._uncached_match` for `?`). -/
def optCached {ρ α : Type} (f : Str → Memo ρ → Cached ρ α) (s : Str) (c : Memo ρ) : Cached ρ (List α) :=
  match s with
  | [] => (some (.ok [] []), c)
  | _ :: _ =>
    match f s c with
    | (none, c) => (none, c)
    | (some .out, c) => (some .out, c)
    | (some .fail, c) => (some (.ok [] s), c)
    | (some (.ok a r), c) => (some (.ok [a] r), c)

/-- The node of an unnamed expression over the children that were matched, with the cache. -/
def Cached.node {ρ : Type} (s : Str) (x : Cached ρ (List (Node ρ))) : Cached ρ (Node ρ) :=
  (x.1.map (·.map fun cs r => .node none (consumed s r) cs), x.2)

/-- `Expression.match_core` (`parsimonious`) around the evaluation `run` of the expression at `w`: an entry in progress is
an error, a stored outcome is the result, and otherwise the expression is evaluated between the two changes of the
cache. When there are no calls left or there is an error the entry stays in progress, as when an exception leaves the
method. -/
def matchCore {ρ : Type} [DecidableEq ρ] (w : Place ρ) (s : Str) (c : Memo ρ) (run : Memo ρ → Cached ρ (Node ρ)) :
    Cached ρ (Node ρ) :=
  match c.lookup (w, s.length) with
  | some none => (none, c)
  | some (some m) => (some m, c)
  | none =>
    match run (((w, s.length), none) :: c) with
    | (none, c) => (none, c)
    | (some .out, c) => (some .out, c)
    | (some m, c) => (some m, ((w, s.length), some m) :: c)

/-- `Expression.match_core` and `_uncached_match` (`parsimonious`) with at most `n` nested calls, for the expression `p`
at the place `w`. A reference to a rule is the expression of the rule itself, so it shares the entries of the rule. -/
def pegCached {ρ : Type} [DecidableEq ρ] (g : ρ → Peg ρ) : Nat → Place ρ → Peg ρ → Str → Memo ρ → Cached ρ (Node ρ)
  | 0, _, _, _, c => (some .out, c)
  | n + 1, w, p, s, c =>
    match p with
    | .lit l => matchCore w s c fun c => (some ((matchLit l s).map fun _ r => .node none (consumed s r) []), c)
    | .re e => matchCore w s c fun c => (some ((matchRe e s).map fun _ r => .node none (consumed s r) []), c)
    | .seq ps => matchCore w s c fun c => (seqCached (fun i => pegCached g n (w.1, i :: w.2)) 0 ps s c).node s
    | .alt ps => matchCore w s c fun c => (altCached (fun i => pegCached g n (w.1, i :: w.2)) 0 ps s c).node s
    | .star q => matchCore w s c fun c => (starCached (pegCached g n (w.1, 0 :: w.2) q) s.length s c).node s
    | .opt q => matchCore w s c fun c => (optCached (pegCached g n (w.1, 0 :: w.2) q) s c).node s
    | .rule r =>
      match pegCached g n (r, []) (g r) s c with
      | (m, c) => (m.map (·.map fun nd _ => nd.named r), c)

/-- The evaluations that a run started, by place and by length of the text that is left. -/
def Memo.started {ρ : Type} (c : Memo ρ) : List (Place ρ × Nat) := (c.filter (·.2.isNone)).map (·.1)

end Verif
