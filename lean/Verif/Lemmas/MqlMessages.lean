import Verif.Model.MqlMessages
import Verif.Spec.MqlMessages
import Verif.Spec.Messages
import Verif.Lemmas.BuildMessages
import Verif.Lemmas.MqlOutcome
import Verif.Lemmas.MqlMeaning
import Verif.Lemmas.MqlCall
import Verif.Model.MetricsQuery

/-!
# Lemmas about the messages of the MQL parser
-/

namespace Verif.MqlMsg

open Spec

section
variable [PyText] [PyShow] [U : PyUnicode]

theorem drop_rule (k : Rule) (t : Str) (vs : List V) : dropMessage (visitRuleMsg k t vs) = visitRule k t vs := by
  have hcol : dropMessage ((mkColumnMsg (.str t) .none).map fun v => V.obj (.val v)) = visitColumn t := by
    have h := BuildMsg.drop_column (.str t) .none
    unfold visitColumn
    rw [← h]
    cases mkColumnMsg (.str t) .none <;> rfl
  have hrest : dropMessage (match visitRule k t vs with
      | .ok v => .ok v
      | .error .invalidMQL => .error (.invalidMQL, ruleWords k vs)
      | .error e => .error (e, none)) = visitRule k t vs := by
    cases visitRule k t vs with
    | ok v => rfl
    | error e => cases e <;> rfl
  cases k <;> first
    | exact hcol
    | exact hrest

mutual
theorem drop_node : ∀ nd : Node Rule, dropMessage (visitNodeMsg nd) = visitNode nd
  | .node rule text children => by
    simp only [visitNodeMsg, visitNode, drop_bind, drop_nodes children]
    congr 1
    funext vs
    cases rule with
    | none => rfl
    | some k => exact drop_rule k text vs

theorem drop_nodes : ∀ nds : List (Node Rule), dropMessage (visitNodesMsg nds) = visitNodes nds
  | [] => rfl
  | nd :: nds => by
    simp only [visitNodesMsg, visitNodes, drop_bind, drop_node nd, drop_nodes nds]
    rfl
end

variable [S : RegexSpace]

theorem drop_parse (mql : Str) : dropMessage (parseMqlMsg mql) = parseMql mql := by
  unfold parseMqlMsg parseMql
  cases parseTree (stripP isSpace mql) with
  | none => rfl
  | some tree => simp only [drop_bind, drop_node, drop_elsewhere]

theorem drop_checked (s : Str) : dropMessage (parseCheckedMsg s) = parseChecked s := by
  unfold parseCheckedMsg parseChecked
  rw [← drop_parse]
  cases parseMqlMsg s <;> rfl

/-- Before an arbitrary function the grammar has tried an aggregate in the same place. -/
abbrev AggregateTried (t : Str) : Prop := ∃ r, Fails (.rule .aggregate) (t ++ r)

/-- The method of a rule raises for a part of the text. -/
def RaisedIn (text : Str) (r : Raised) : Prop :=
  ∃ a t b k vs, text = a ++ (t ++ b) ∧ PTy (mqlGrammar k) t (.list vs) ∧ GTy RM (mqlGrammar k) t (.list vs) ∧
    (k = .arbitraryFunction → AggregateTried t) ∧ visitRuleMsg k t vs = .error r

theorem RaisedIn.infix {t : Str} {r : Raised} (h : RaisedIn t r) (a b : Str) : RaisedIn (a ++ (t ++ b)) r := by
  obtain ⟨a', t', b', k, vs, rfl, h⟩ := h
  exact ⟨a ++ a', t', b' ++ b, k, vs, by simp, h⟩

theorem RaisedIn.left {t : Str} {r : Raised} (h : RaisedIn t r) (b : Str) : RaisedIn (t ++ b) r := h.infix [] b

theorem RaisedIn.right {t : Str} {r : Raised} (h : RaisedIn t r) (a : Str) : RaisedIn (a ++ t) r := by
  have := h.infix a []
  rwa [List.append_nil] at this

mutual
/-- Arbitrary functions stand only in alternatives, behind aggregates. -/
def guarded : Peg Rule → Bool
  | .rule k => decide (k ≠ .arbitraryFunction)
  | .seq ps => guardedAll ps
  | .alt ps => guardedAlt false ps
  | .star p => guarded p
  | .opt p => guarded p
  | _ => true

/-- `guarded` for all expressions of a sequence. -/
def guardedAll : List (Peg Rule) → Bool
  | [] => true
  | p :: ps => guarded p && guardedAll ps

/-- `guarded` for alternatives; `seen` tells whether an aggregate was among those before. -/
def guardedAlt (seen : Bool) : List (Peg Rule) → Bool
  | [] => true
  | p :: ps => (guarded p || (seen && isRule .arbitraryFunction p)) && guardedAlt (seen || isRule .aggregate p) ps

/-- The expression is the rule. -/
def isRule (k : Rule) : Peg Rule → Bool
  | .rule k' => decide (k' = k)
  | _ => false
end

omit [PyText] [PyShow] U S in
theorem isRule_eq {k : Rule} {p : Peg Rule} (h : isRule k p = true) : p = .rule k := by
  cases p with
  | rule k' => simp only [isRule, decide_eq_true_eq] at h; rw [h]
  | _ => simp [isRule] at h

omit [PyText] [PyShow] U in
theorem grammar_guarded (k : Rule) : guarded (mqlGrammar k) = true := by cases k <;> rfl

omit [PyText] [PyShow] U S in
theorem alt_guarded {p : Peg Rule} {post : List (Peg Rule)} : ∀ {pre : List (Peg Rule)} {seen : Bool}, guardedAlt seen (pre ++ p :: post) = true →
    guarded p = true ∨ p = .rule .arbitraryFunction ∧ (seen = true ∨ .rule .aggregate ∈ pre)
  | [], seen, h => by
    simp only [List.nil_append, guardedAlt, Bool.and_eq_true, Bool.or_eq_true] at h
    rcases h.1 with h | ⟨h1, h2⟩
    · exact .inl h
    · exact .inr ⟨isRule_eq h2, .inl h1⟩
  | q :: pre, seen, h => by
    simp only [List.cons_append, guardedAlt, Bool.and_eq_true] at h
    rcases alt_guarded h.2 with h | ⟨h1, h2 | h2⟩
    · exact .inl h
    · rw [Bool.or_eq_true] at h2
      rcases h2 with h2 | h2
      · exact .inr ⟨h1, .inl h2⟩
      · exact .inr ⟨h1, .inr (by rw [isRule_eq h2]; exact .head _)⟩
    · exact .inr ⟨h1, .inr (.tail _ h2)⟩

/-- The expression is guarded, or it is an arbitrary function behind an aggregate. -/
def GuardedAt (p : Peg Rule) (t : Str) : Prop := guarded p = true ∨ p = .rule .arbitraryFunction ∧ AggregateTried t

omit [PyText] [PyShow] U in
theorem tried_guarded {ps : List (Peg Rule)} {p : Peg Rule} {t : Str} (h : Tried ps p t) (hg : guardedAlt false ps = true) : GuardedAt p t := by
  obtain ⟨pre, post, r, rfl, hr⟩ := h
  rcases alt_guarded hg with h | ⟨h1, h2 | h2⟩
  · exact .inl h
  · cases h2
  · exact .inr ⟨h1, r, hr _ h2⟩

mutual
theorem node_raise : ∀ {p : Peg Rule} {nd : Node Rule}, Fits p nd → GuardedAt p nd.text → ∀ {r : Raised}, visitNodeMsg nd = .error r →
    RaisedIn nd.text r
  | _, _, .lit l, _, _, h => by cases h
  | _, _, .re e t _, _, _, h => by cases h
  | _, _, .seq ps nds hf, hg, r, h => by
    have hg : guardedAll ps = true := by rcases hg with hg | ⟨hg, _⟩ <;> first | exact hg | cases hg
    simp only [visitNodeMsg, bind_eq_error] at h
    rcases h with h | ⟨_, _, h⟩
    · exact nodes_raise hf hg h
    · cases h
  | _, _, .alt p ps nd ht hf, hg, r, h => by
    have hg : guardedAlt false ps = true := by rcases hg with hg | ⟨hg, _⟩ <;> first | exact hg | cases hg
    simp only [visitNodeMsg, visitNodesMsg, bind_eq_error] at h
    rcases h with (h | ⟨_, _, h | ⟨_, _, h⟩⟩) | ⟨_, _, h⟩
    · exact node_raise hf (tried_guarded ht hg) h
    all_goals cases h
  | _, _, .star p nds hf, hg, r, h => by
    have hg : guarded p = true := by rcases hg with hg | ⟨hg, _⟩ <;> first | exact hg | cases hg
    simp only [visitNodeMsg, bind_eq_error] at h
    rcases h with h | ⟨_, _, h⟩
    · exact reps_raise hf hg h
    · cases h
  | _, _, .optNone p, _, _, h => by cases h
  | _, _, .optSome p nd hf, hg, r, h => by
    have hg : guarded p = true := by rcases hg with hg | ⟨hg, _⟩ <;> first | exact hg | cases hg
    simp only [visitNodeMsg, visitNodesMsg, bind_eq_error] at h
    rcases h with (h | ⟨_, _, h | ⟨_, _, h⟩⟩) | ⟨_, _, h⟩
    · exact node_raise hf (.inl hg) h
    all_goals cases h
  | _, _, .rule k t cs hf, hg, r, h => by
    simp only [visitNodeMsg, bind_eq_error] at h
    rcases h with h | ⟨vs, hvs, h⟩
    · exact node_raise hf (.inl (grammar_guarded k)) (r := r) (by simp only [visitNodeMsg, h]; rfl)
    · have hv : visitNode (.node none t cs) = .ok (.list vs) := by
        rw [← drop_node]
        simp only [visitNodeMsg, hvs]
        rfl
      refine ⟨[], t, [], k, vs, by simp [Node.text], (node_outcome hf).1 _ hv, node_gty rule_means hf _ hv, fun hk => ?_, h⟩
      rcases hg with hg | ⟨_, hg⟩
      · subst hk; cases hg
      · exact hg

theorem nodes_raise : ∀ {ps : List (Peg Rule)} {nds : List (Node Rule)}, FitsAll ps nds → guardedAll ps = true → ∀ {r : Raised},
    visitNodesMsg nds = .error r → RaisedIn (nodeTexts nds) r
  | _, _, .nil, _, _, h => by cases h
  | _, _, .cons p ps nd nds hf hs, hg, r, h => by
    simp only [guardedAll, Bool.and_eq_true] at hg
    simp only [visitNodesMsg, bind_eq_error] at h
    rw [nodeTexts_cons]
    rcases h with h | ⟨_, _, h | ⟨_, _, h⟩⟩
    · exact (node_raise hf (.inl hg.1) h).left _
    · exact (nodes_raise hs hg.2 h).right _
    · cases h

theorem reps_raise : ∀ {p : Peg Rule} {nds : List (Node Rule)}, FitsRep p nds → guarded p = true → ∀ {r : Raised},
    visitNodesMsg nds = .error r → RaisedIn (nodeTexts nds) r
  | _, _, .nil _, _, _, h => by cases h
  | _, _, .cons p nd nds hf hs, hg, r, h => by
    simp only [visitNodesMsg, bind_eq_error] at h
    rw [nodeTexts_cons]
    rcases h with h | ⟨_, _, h | ⟨_, _, h⟩⟩
    · exact (node_raise hf (.inl hg) h).left _
    · exact (reps_raise hs hg h).right _
    · cases h
end

omit [PyShow] U in
theorem unary_words {op : V} {s : Str} :
    ruleWords .unary [op, .obj (.val (.str s))] = some c!"Unary expression not supported for type <class 'str'>" := rfl

theorem column_words {t : Str} {r : Raised} (h : ((mkColumnMsg (.str t) .none).map fun v => V.obj (.val v)) = .error r) :
    r = (.invalidColumn, some (c!"column '" ++ t ++ c!"' is empty or contains invalid characters")) := by
  cases hm : columnNameRe.matches t with
  | true =>
    simp only [mkColumnMsg, hm, if_true] at h
    cases h
  | false =>
    simp only [mkColumnMsg, hm] at h
    cases h
    rfl

omit [PyText] [PyShow] U in
theorem _root_.Verif.Spec.BareCallIn.infix {t : Str} (h : BareCallIn t) (a b : Str) : BareCallIn (a ++ (t ++ b)) := by
  obtain ⟨pre, n, w, t, w', as, post, s, rfl, h⟩ := h
  exact ⟨a ++ pre, n, w, t, w', as, post ++ b, s, by simp, h⟩

omit [PyText] [PyShow] in
/-- A name and a metric in parentheses are an aggregate, whatever follows. -/
theorem aggregate_matches {n w i r : Str} {o : MetricObj} {fs gs : List Val} (hn : CallName n) (hw : Blanks w) (hi : InnerText i o fs gs) :
    ¬ Fails (.rule .aggregate) (n ++ '(' :: (w ++ (i ++ ')' :: r))) := by
  have h1 : Ev (.rule .aggregateName) (n ++ '(' :: (w ++ (i ++ ')' :: r))) (.str n) ('(' :: (w ++ (i ++ ')' :: r))) :=
    ev_plusTok rfl hn.1 hn.2 (.cons (by decide)) rfl
  have hk : Kids (mqlGrammar .aggregate) (n ++ '(' :: (w ++ (i ++ ')' :: r))) [_, _] r := Kids.seq (.cons h1 (.cons (ev_innerSeq hw hi) .nil))
  obtain ⟨cs, hm, _⟩ := hk
  obtain ⟨m, hm⟩ := Parse.rule hm
  rintro ⟨m', hm'⟩
  have h2 := run_lift (Nat.le_max_left m m') hm
  have h3 := run_lift_fail (Nat.le_max_right m m') hm'
  rw [h2] at h3
  cases h3

omit [PyText] [PyShow] in
theorem arbitrary_bare {t : Str} {vs : List V} {e : Err} (h : GTy RM (mqlGrammar .arbitraryFunction) t (.list vs)) (htried : AggregateTried t)
    (hv : visitArbitraryFunction vs = .error e) : BareCallIn t := by
  obtain ⟨n, v1, t2, v2, h1, h2, rfl, he⟩ := gty_seq2.1 h
  cases he
  obtain ⟨u1, w1, u2, w2, u3, w3, u4, w4, g1, g2, g3, g4, rfl, rfl⟩ := gty_seq4.1 h2
  obtain ⟨w, y1, u, y2, w', y3, f1, f2, f3, rfl, rfl⟩ := gty_seq3.1 g2
  obtain ⟨xs, f4, rfl⟩ := gty_star.1 g3
  have e1 : u1 = ['('] := rm_rule g1
  have e4 : u4 = [')'] := rm_rule g4
  subst e1 e4
  obtain ⟨rfl, hn⟩ := rm_rule h1
  obtain ⟨x, rfl, hx⟩ := rm_rule f2
  obtain ⟨as, has, rfl, ha, hb⟩ := args_reps f4
  simp only [visitArbitraryFunction, has, ok_bind] at hv
  split at hv
  · rename_i hp
    cases x with
    | ts s =>
      refine ⟨[], n, w, u, w', as, [], s, by simp, hn, rm_rule f1, hx, not_placeholder hp, rm_rule f3,
        fun a h => ⟨(hb a h).1, (hb a h).2, ha a h⟩, ?_⟩
      rintro rfl rfl o fs gs hi
      obtain ⟨r, hr⟩ := htried
      refine aggregate_matches (r := r) hn (rm_rule f1) hi ?_
      simpa [argsText] using hr
    | _ => cases hp
  · cases hv

/-- What a raise inside of a matched text says about it. -/
theorem raised_fault {text : Str} {r : Raised} (hm : GrammarMatches text) (h : RaisedIn text r) : MqlFault text r := by
  obtain ⟨a, t, b, k, vs, rfl, ht, hg, htried, h⟩ := h
  have hk := rule_returns k t vs ht
  have hd := drop_rule k t vs
  rw [h] at hd
  rw [← hd] at hk
  have hr : ∀ e, visitRule k t vs = .error e → k ≠ .tagKey → k ≠ .groupByName →
      r = match e with
        | .invalidMQL => (.invalidMQL, ruleWords k vs)
        | e => (e, none) := by
    intro e he h1 h2
    unfold visitRuleMsg at h
    split at h
    · exact absurd rfl h1
    · exact absurd rfl h2
    · rw [he] at h
      cases e <;> cases h <;> rfl
  cases k <;> try exact hk.elim
  case unary =>
    obtain ⟨he, ⟨op, s, rfl⟩, u, rfl, hq⟩ := hk
    have := hr _ (hd.symm.trans (congrArg Except.error he)) (by decide) (by decide)
    rw [this]
    exact .negation hm ⟨a, u, b, by simp, hq⟩
  case variable_ =>
    obtain ⟨he, n, rfl, hn⟩ := hk
    have := hr _ (hd.symm.trans (congrArg Except.error he)) (by decide) (by decide)
    rw [this]
    exact .variable_ hm ⟨a, n, b, by simp, hn⟩
  case arbitraryFunction =>
    have := hr _ (hd.symm.trans (congrArg Except.error hk.1)) (by decide) (by decide)
    rw [this]
    exact .call hm ((arbitrary_bare hg (htried rfl) hd.symm).infix a b)
  case nestedExpression =>
    obtain ⟨he, pre, w, t', w', post, rfl, h1, h2, h3⟩ := hk
    have := hr _ (hd.symm.trans (congrArg Except.error he)) (by decide) (by decide)
    rw [this]
    exact .scalar hm (.inr ⟨a ++ pre, w, t', w', post ++ b, by simp, h1, h2, h3⟩)
  case tagKey =>
    rw [column_words h]
    exact .column a t b hm rfl hk.2
  case groupByName =>
    rw [column_words h]
    exact .column a t b hm rfl hk.2

end

end Verif.MqlMsg
