import Verif.Lemmas.MqlGrammar
import Verif.Lemmas.Construct

/-!
# Matching and visiting, as relations

`Parse p s nd r`: the expression `p` matches at the start of `s` with parse tree `nd` and rest `r`.
`Fails p s`: it does not match. `Ev p s v r`: it matches and visiting the tree gives `v`.
The lemmas build up these facts from the parts of the expression.
-/

namespace Verif

section
variable [S : RegexSpace]

/-- `p` matches at the start of `s`, with tree `nd` and rest `r`. -/
def Parse (p : Peg Rule) (s : Str) (nd : Node Rule) (r : Str) : Prop := ∃ n, pegRun mqlGrammar n p s = .ok nd r

/-- `p` does not match at the start of `s`. -/
def Fails (p : Peg Rule) (s : Str) : Prop := ∃ n, pegRun mqlGrammar n p s = .fail

def ParseSeq (ps : List (Peg Rule)) (s : Str) (nds : List (Node Rule)) (r : Str) : Prop :=
  ∃ n, seqWith (pegRun mqlGrammar n) ps s = .ok nds r

def FailsSeq (ps : List (Peg Rule)) (s : Str) : Prop := ∃ n, seqWith (pegRun mqlGrammar n) ps s = .fail

def ParseAlt (ps : List (Peg Rule)) (s : Str) (nd : Node Rule) (r : Str) : Prop :=
  ∃ n, altWith (pegRun mqlGrammar n) ps s = .ok [nd] r

def FailsAlt (ps : List (Peg Rule)) (s : Str) : Prop := ∃ n, altWith (pegRun mqlGrammar n) ps s = .fail

def ParseStar (p : Peg Rule) (s : Str) (nds : List (Node Rule)) (r : Str) : Prop :=
  ∃ n, ∀ k, s.length ≤ k → starWith (pegRun mqlGrammar n p) k s = .ok nds r

theorem run_lift {n m : Nat} (h : n ≤ m) {p : Peg Rule} {s : Str} {nd : Node Rule} {r : Str}
    (hn : pegRun mqlGrammar n p s = .ok nd r) : pegRun mqlGrammar m p s = .ok nd r := by
  rw [pegRun_mono mqlGrammar h (by rw [hn]; simp), hn]

theorem run_lift_fail {n m : Nat} (h : n ≤ m) {p : Peg Rule} {s : Str}
    (hn : pegRun mqlGrammar n p s = .fail) : pegRun mqlGrammar m p s = .fail := by
  rw [pegRun_mono mqlGrammar h (by rw [hn]; simp), hn]

theorem runs_mono {n m : Nat} (h : n ≤ m) (p : Peg Rule) (s : Str) (hn : pegRun mqlGrammar n p s ≠ .out) :
    pegRun mqlGrammar m p s = pegRun mqlGrammar n p s := pegRun_mono mqlGrammar h hn

theorem seq_lift {n m : Nat} (h : n ≤ m) {ps : List (Peg Rule)} {s : Str} (hn : seqWith (pegRun mqlGrammar n) ps s ≠ .out) :
    seqWith (pegRun mqlGrammar m) ps s = seqWith (pegRun mqlGrammar n) ps s := seqWith_extends (runs_mono h) ps s hn

theorem alt_lift {n m : Nat} (h : n ≤ m) {ps : List (Peg Rule)} {s : Str} (hn : altWith (pegRun mqlGrammar n) ps s ≠ .out) :
    altWith (pegRun mqlGrammar m) ps s = altWith (pegRun mqlGrammar n) ps s := altWith_extends (runs_mono h) ps s hn

theorem star_lift {n m : Nat} (h : n ≤ m) {p : Peg Rule} {k : Nat} {s : Str} (hn : starWith (pegRun mqlGrammar n p) k s ≠ .out) :
    starWith (pegRun mqlGrammar m p) k s = starWith (pegRun mqlGrammar n p) k s := starWith_extends (runs_mono h p) k s hn

/-! ### Building matches -/

theorem ParseSeq.nil {s : Str} : ParseSeq [] s [] s := ⟨0, rfl⟩

theorem ParseSeq.cons {p : Peg Rule} {ps : List (Peg Rule)} {s s' r : Str} {nd : Node Rule} {nds : List (Node Rule)}
    (h : Parse p s nd s') (hs : ParseSeq ps s' nds r) : ParseSeq (p :: ps) s (nd :: nds) r := by
  obtain ⟨n, h⟩ := h
  obtain ⟨m, hs⟩ := hs
  refine ⟨max n m, ?_⟩
  simp only [seqWith, run_lift (Nat.le_max_left n m) h]
  rw [seq_lift (Nat.le_max_right n m) (by rw [hs]; simp), hs]
  rfl

theorem FailsSeq.here {p : Peg Rule} {ps : List (Peg Rule)} {s : Str} (h : Fails p s) : FailsSeq (p :: ps) s := by
  obtain ⟨n, h⟩ := h
  exact ⟨n, by simp only [seqWith, h]⟩

theorem FailsSeq.there {p : Peg Rule} {ps : List (Peg Rule)} {s s' : Str} {nd : Node Rule}
    (h : Parse p s nd s') (hs : FailsSeq ps s') : FailsSeq (p :: ps) s := by
  obtain ⟨n, h⟩ := h
  obtain ⟨m, hs⟩ := hs
  refine ⟨max n m, ?_⟩
  simp only [seqWith, run_lift (Nat.le_max_left n m) h]
  rw [seq_lift (Nat.le_max_right n m) (by rw [hs]; simp), hs]
  rfl

theorem ParseAlt.here {p : Peg Rule} {ps : List (Peg Rule)} {s r : Str} {nd : Node Rule} (h : Parse p s nd r) :
    ParseAlt (p :: ps) s nd r := by
  obtain ⟨n, h⟩ := h
  exact ⟨n, by simp only [altWith, h]⟩

theorem ParseAlt.there {p : Peg Rule} {ps : List (Peg Rule)} {s r : Str} {nd : Node Rule} (hf : Fails p s)
    (h : ParseAlt ps s nd r) : ParseAlt (p :: ps) s nd r := by
  obtain ⟨n, hf⟩ := hf
  obtain ⟨m, h⟩ := h
  refine ⟨max n m, ?_⟩
  simp only [altWith, run_lift_fail (Nat.le_max_left n m) hf]
  rw [alt_lift (Nat.le_max_right n m) (by rw [h]; simp), h]

theorem FailsAlt.nil {s : Str} : FailsAlt [] s := ⟨0, rfl⟩

theorem FailsAlt.cons {p : Peg Rule} {ps : List (Peg Rule)} {s : Str} (hf : Fails p s) (h : FailsAlt ps s) :
    FailsAlt (p :: ps) s := by
  obtain ⟨n, hf⟩ := hf
  obtain ⟨m, h⟩ := h
  refine ⟨max n m, ?_⟩
  simp only [altWith, run_lift_fail (Nat.le_max_left n m) hf]
  rw [alt_lift (Nat.le_max_right n m) (by rw [h]; simp), h]

theorem ParseStar.stop {p : Peg Rule} {s : Str} (h : s = [] ∨ Fails p s) : ParseStar p s [] s := by
  rcases h with rfl | ⟨n, h⟩
  · refine ⟨0, fun k _ => ?_⟩
    cases k <;> rfl
  · refine ⟨n, fun k _ => ?_⟩
    cases k with
    | zero => rfl
    | succ k =>
      cases s with
      | nil => rfl
      | cons c cs => simp only [starWith, h]

theorem ParseStar.cons {p : Peg Rule} {s s' r : Str} {nd : Node Rule} {nds : List (Node Rule)}
    (h : Parse p s nd s') (hl : s'.length < s.length) (hs : ParseStar p s' nds r) : ParseStar p s (nd :: nds) r := by
  obtain ⟨n, h⟩ := h
  obtain ⟨m, hs⟩ := hs
  refine ⟨max n m, fun k hk => ?_⟩
  cases k with
  | zero => omega
  | succ k =>
    cases s with
    | nil => simp at hl
    | cons c cs =>
      simp only [starWith, run_lift (Nat.le_max_left n m) h, hl, if_true]
      have hs := hs k (by simp only [List.length_cons] at hl hk; omega)
      rw [star_lift (Nat.le_max_right n m) (by rw [hs]; simp), hs]
      rfl

theorem consumed_append (u r : Str) : consumed (u ++ r) r = u := by
  simp [consumed]

theorem Parse.lit {l r : Str} : Parse (.lit l) (l ++ r) (.node none l []) r := by
  refine ⟨1, ?_⟩
  simp only [pegRun, (matchLit_ok (u := ())).2 rfl, Match.map, consumed_append]

theorem Fails.lit {l s : Str} (h : l.isPrefixOf s = false) : Fails (.lit l) s :=
  ⟨1, by simp [pegRun, matchLit, h, Match.map]⟩

theorem Parse.re {e : Regex} {u r : Str} (h : (e.run (u ++ r)).head? = some r) : Parse (.re e) (u ++ r) (.node none u []) r := by
  refine ⟨1, ?_⟩
  simp only [pegRun, (matchRe_ok (u := ())).2 h, Match.map, consumed_append]

theorem Fails.re {e : Regex} {s : Str} (h : e.run s = []) : Fails (.re e) s :=
  ⟨1, by simp only [pegRun, matchRe_fail.2 h, Match.map]⟩

theorem Parse.seq {ps : List (Peg Rule)} {s r : Str} {nds : List (Node Rule)} (h : ParseSeq ps s nds r) :
    Parse (.seq ps) s (.node none (consumed s r) nds) r := by
  obtain ⟨n, h⟩ := h
  exact ⟨n + 1, by simp only [pegRun, h, Match.map]⟩

theorem Fails.seq {ps : List (Peg Rule)} {s : Str} (h : FailsSeq ps s) : Fails (.seq ps) s := by
  obtain ⟨n, h⟩ := h
  exact ⟨n + 1, by simp only [pegRun, h, Match.map]⟩

theorem Parse.alt {ps : List (Peg Rule)} {s r : Str} {nd : Node Rule} (h : ParseAlt ps s nd r) :
    Parse (.alt ps) s (.node none (consumed s r) [nd]) r := by
  obtain ⟨n, h⟩ := h
  exact ⟨n + 1, by simp only [pegRun, h, Match.map]⟩

theorem Fails.alt {ps : List (Peg Rule)} {s : Str} (h : FailsAlt ps s) : Fails (.alt ps) s := by
  obtain ⟨n, h⟩ := h
  exact ⟨n + 1, by simp only [pegRun, h, Match.map]⟩

theorem Parse.star {p : Peg Rule} {s r : Str} {nds : List (Node Rule)} (h : ParseStar p s nds r) :
    Parse (.star p) s (.node none (consumed s r) nds) r := by
  obtain ⟨n, h⟩ := h
  exact ⟨n + 1, by simp only [pegRun, h _ (Nat.le_refl _), Match.map]⟩

theorem Parse.opt_none {p : Peg Rule} {s : Str} (h : s = [] ∨ Fails p s) : Parse (.opt p) s (.node none [] []) s := by
  have hc : consumed s s = [] := by simp [consumed]
  rcases h with rfl | ⟨n, h⟩
  · exact ⟨1, rfl⟩
  · refine ⟨n + 1, ?_⟩
    cases s with
    | nil => rfl
    | cons c cs => simp only [pegRun, optWith, h, Match.map, hc]

theorem Parse.opt_some {p : Peg Rule} {s r : Str} {nd : Node Rule} (hs : s ≠ []) (h : Parse p s nd r) :
    Parse (.opt p) s (.node none (consumed s r) [nd]) r := by
  obtain ⟨n, h⟩ := h
  refine ⟨n + 1, ?_⟩
  cases s with
  | nil => exact absurd rfl hs
  | cons c cs => simp only [pegRun, optWith, h, Match.map]

theorem Parse.rule {k : Rule} {s r : Str} {nd : Node Rule} (h : Parse (mqlGrammar k) s nd r) :
    Parse (.rule k) s (nd.named k) r := by
  obtain ⟨n, h⟩ := h
  exact ⟨n + 1, by simp only [pegRun, h, Match.map]⟩

theorem Fails.rule {k : Rule} {s : Str} (h : Fails (mqlGrammar k) s) : Fails (.rule k) s := by
  obtain ⟨n, h⟩ := h
  exact ⟨n + 1, by simp only [pegRun, h, Match.map]⟩

/-- A match is found by `parseTree` if it leaves no rest. -/
theorem parseTree_of_parse {s : Str} {nd : Node Rule} (h : Parse (.rule .expression) s nd []) : parseTree s = some nd := by
  obtain ⟨n, h⟩ := h
  have h1 : pegRun mqlGrammar (max n (parseDepth s.length)) (.rule .expression) s = .ok nd [] :=
    run_lift (Nat.le_max_left _ _) h
  rw [pegRun_mono mqlGrammar (Nat.le_max_right n (parseDepth s.length)) (pegRun_enough (Nat.le_refl (parseDepth s.length)))] at h1
  simp only [parseTree, h1]

/-- The matches are unique. -/
theorem Parse.unique {p : Peg Rule} {s r r' : Str} {nd nd' : Node Rule} (h : Parse p s nd r) (h' : Parse p s nd' r') :
    nd = nd' ∧ r = r' := by
  obtain ⟨n, h⟩ := h
  obtain ⟨m, h'⟩ := h'
  have h1 := run_lift (Nat.le_max_left n m) h
  have h2 := run_lift (Nat.le_max_right n m) h'
  rw [h1] at h2
  simpa using h2

/-! ### Matches whose tree does not matter -/

/-- `p` matches at the start of `s` and leaves `r`. -/
def Pa (p : Peg Rule) (s r : Str) : Prop := ∃ nd, Parse p s nd r

def PaSeq (ps : List (Peg Rule)) (s r : Str) : Prop := ∃ nds, ParseSeq ps s nds r

theorem PaSeq.nil {s : Str} : PaSeq [] s s := ⟨_, .nil⟩

theorem PaSeq.cons {p : Peg Rule} {ps : List (Peg Rule)} {s s' r : Str} (h : Pa p s s') (hs : PaSeq ps s' r) : PaSeq (p :: ps) s r := by
  obtain ⟨_, h⟩ := h
  obtain ⟨_, hs⟩ := hs
  exact ⟨_, ParseSeq.cons h hs⟩

theorem Pa.seq {ps : List (Peg Rule)} {s r : Str} (h : PaSeq ps s r) : Pa (.seq ps) s r := by
  obtain ⟨_, h⟩ := h
  exact ⟨_, .seq h⟩

theorem Pa.lit {l r : Str} : Pa (.lit l) (l ++ r) r := ⟨_, .lit⟩

theorem Pa.re {e : Regex} {u r : Str} (h : (e.run (u ++ r)).head? = some r) : Pa (.re e) (u ++ r) r := ⟨_, .re h⟩

theorem Pa.rule {k : Rule} {s r : Str} (h : Pa (mqlGrammar k) s r) : Pa (.rule k) s r := by
  obtain ⟨_, h⟩ := h
  exact ⟨_, .rule h⟩

theorem Pa.opt_none {p : Peg Rule} {s : Str} (h : s = [] ∨ Fails p s) : Pa (.opt p) s s := ⟨_, .opt_none h⟩

theorem Pa.opt_some {p : Peg Rule} {s r : Str} (hs : s ≠ []) (h : Pa p s r) : Pa (.opt p) s r := by
  obtain ⟨_, h⟩ := h
  exact ⟨_, .opt_some hs h⟩

theorem Pa.star_stop {p : Peg Rule} {s : Str} (h : s = [] ∨ Fails p s) : Pa (.star p) s s := ⟨_, .star (.stop h)⟩

/-- First alternatives that fail, then one that matches. -/
theorem Pa.alt_here {p : Peg Rule} {ps : List (Peg Rule)} {s r : Str} (h : Pa p s r) : Pa (.alt (p :: ps)) s r := by
  obtain ⟨_, h⟩ := h
  exact ⟨_, .alt (.here h)⟩

theorem FailsSeq.pa {p : Peg Rule} {ps : List (Peg Rule)} {s s' : Str} (h : Pa p s s') (hs : FailsSeq ps s') :
    FailsSeq (p :: ps) s := by
  obtain ⟨_, h⟩ := h
  exact .there h hs

end

/-! ### Matching and visiting -/

section
variable [U : PyUnicode] [S : RegexSpace]

/-- `p` matches at the start of `s`, leaves `r`, and visiting the tree gives `v`. -/
def Ev (p : Peg Rule) (s : Str) (v : V) (r : Str) : Prop := ∃ nd, Parse p s nd r ∧ visitNode nd = .ok v

/-- `p` matches at the start of `s`, leaves `r`; its tree is unnamed and visiting the children gives `vs`. -/
def Kids (p : Peg Rule) (s : Str) (vs : List V) (r : Str) : Prop :=
  ∃ cs, Parse p s (.node none (consumed s r) cs) r ∧ visitNodes cs = .ok vs

def EvSeq (ps : List (Peg Rule)) (s : Str) (vs : List V) (r : Str) : Prop :=
  ∃ nds, ParseSeq ps s nds r ∧ visitNodes nds = .ok vs

def EvAlt (ps : List (Peg Rule)) (s : Str) (v : V) (r : Str) : Prop :=
  ∃ nd, ParseAlt ps s nd r ∧ visitNode nd = .ok v

def EvStar (p : Peg Rule) (s : Str) (vs : List V) (r : Str) : Prop :=
  ∃ nds, ParseStar p s nds r ∧ visitNodes nds = .ok vs

theorem Ev.pa {p : Peg Rule} {s r : Str} {v : V} (h : Ev p s v r) : Pa p s r := by
  obtain ⟨nd, h, _⟩ := h
  exact ⟨nd, h⟩

theorem EvSeq.nil {s : Str} : EvSeq [] s [] s := ⟨[], .nil, by simp only [visitNodes]⟩

theorem EvSeq.cons {p : Peg Rule} {ps : List (Peg Rule)} {s s' r : Str} {v : V} {vs : List V}
    (h : Ev p s v s') (hs : EvSeq ps s' vs r) : EvSeq (p :: ps) s (v :: vs) r := by
  obtain ⟨nd, h, hv⟩ := h
  obtain ⟨nds, hs, hvs⟩ := hs
  exact ⟨nd :: nds, .cons h hs, by simp only [visitNodes, hv, hvs, ok_bind]⟩

theorem EvAlt.here {p : Peg Rule} {ps : List (Peg Rule)} {s r : Str} {v : V} (h : Ev p s v r) : EvAlt (p :: ps) s v r := by
  obtain ⟨nd, h, hv⟩ := h
  exact ⟨nd, .here h, hv⟩

theorem EvAlt.there {p : Peg Rule} {ps : List (Peg Rule)} {s r : Str} {v : V} (hf : Fails p s) (h : EvAlt ps s v r) :
    EvAlt (p :: ps) s v r := by
  obtain ⟨nd, h, hv⟩ := h
  exact ⟨nd, .there hf h, hv⟩

theorem EvStar.stop {p : Peg Rule} {s : Str} (h : s = [] ∨ Fails p s) : EvStar p s [] s :=
  ⟨[], .stop h, by simp only [visitNodes]⟩

theorem EvStar.cons {p : Peg Rule} {s s' r : Str} {v : V} {vs : List V}
    (h : Ev p s v s') (hl : s'.length < s.length) (hs : EvStar p s' vs r) : EvStar p s (v :: vs) r := by
  obtain ⟨nd, h, hv⟩ := h
  obtain ⟨nds, hs, hvs⟩ := hs
  exact ⟨nd :: nds, .cons h hl hs, by simp only [visitNodes, hv, hvs, ok_bind]⟩

theorem Kids.lit {l r : Str} : Kids (.lit l) (l ++ r) [] r :=
  ⟨[], by rw [consumed_append]; exact .lit, by simp only [visitNodes]⟩

theorem Kids.re {e : Regex} {u r : Str} (h : (e.run (u ++ r)).head? = some r) : Kids (.re e) (u ++ r) [] r :=
  ⟨[], by rw [consumed_append]; exact .re h, by simp only [visitNodes]⟩

theorem Kids.seq {ps : List (Peg Rule)} {s r : Str} {vs : List V} (h : EvSeq ps s vs r) : Kids (.seq ps) s vs r := by
  obtain ⟨nds, h, hv⟩ := h
  exact ⟨nds, .seq h, hv⟩

theorem Kids.alt {ps : List (Peg Rule)} {s r : Str} {v : V} (h : EvAlt ps s v r) : Kids (.alt ps) s [v] r := by
  obtain ⟨nd, h, hv⟩ := h
  exact ⟨[nd], .alt h, by simp only [visitNodes, hv, ok_bind]⟩

theorem Kids.star {p : Peg Rule} {s r : Str} {vs : List V} (h : EvStar p s vs r) : Kids (.star p) s vs r := by
  obtain ⟨nds, h, hv⟩ := h
  exact ⟨nds, .star h, hv⟩

theorem Kids.opt_none {p : Peg Rule} {s : Str} (h : s = [] ∨ Fails p s) : Kids (.opt p) s [] s :=
  ⟨[], by rw [show consumed s s = [] by simp [consumed]]; exact .opt_none h, by simp only [visitNodes]⟩

theorem Kids.opt_some {p : Peg Rule} {s r : Str} {v : V} (hs : s ≠ []) (h : Ev p s v r) : Kids (.opt p) s [v] r := by
  obtain ⟨nd, h, hv⟩ := h
  exact ⟨[nd], .opt_some hs h, by simp only [visitNodes, hv, ok_bind]⟩

/-- An unnamed expression gives the list of the values of its children. -/
theorem Kids.ev {p : Peg Rule} {s r : Str} {vs : List V} (h : Kids p s vs r) : Ev p s (.list vs) r := by
  obtain ⟨cs, h, hv⟩ := h
  exact ⟨_, h, by simp only [visitNode, hv, ok_bind]⟩

/-- A rule gives the value of its method. -/
theorem Kids.rule {k : Rule} {s r : Str} {vs : List V} {v : V} (h : Kids (mqlGrammar k) s vs r)
    (hv : visitRule k (consumed s r) vs = .ok v) : Ev (.rule k) s v r := by
  obtain ⟨cs, h, hvs⟩ := h
  exact ⟨_, .rule h, by simp only [Node.named, visitNode, hvs, ok_bind, hv]⟩

/-- The same when the text matched is known. -/
theorem Kids.rule' {k : Rule} {u r : Str} {vs : List V} {v : V} (h : Kids (mqlGrammar k) (u ++ r) vs r)
    (hv : visitRule k u vs = .ok v) : Ev (.rule k) (u ++ r) v r :=
  h.rule (by rw [consumed_append]; exact hv)

/-- What `parse_mql` returns for a text that the grammar matches. -/
theorem parseMql_of_ev {s : Str} {v : V} (h : Ev (.rule .expression) (stripP isSpace s) v []) : parseMql s = v.asQuery := by
  obtain ⟨nd, h, hv⟩ := h
  simp only [parseMql, parseTree_of_parse h, hv, ok_bind]

end

end Verif
