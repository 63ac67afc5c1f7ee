import Verif.Spec.MqlErrors
import Verif.Lemmas.MqlResult
import Verif.Lemmas.MqlParse
import Verif.Props.Names
import Verif.Props.Construct

/-!
# What the methods of the visitor are given, and how they can fail

The parse trees have the shape of the grammar, so that the methods of the visitor can take their children apart.
-/

namespace Verif

open Spec

section
variable [S : RegexSpace]

/-- The text of a node. -/
def Node.text {ρ : Type} : Node ρ → Str
  | .node _ t _ => t

/-- The texts of nodes one after the other. -/
def nodeTexts {ρ : Type} (nds : List (Node ρ)) : Str := nds.flatMap Node.text

/-- The expression matches the text, and the rest is left. -/
def Hit (e : Regex) (t : Str) : Prop := ∃ r, (e.run (t ++ r)).head? = some r

/-- The alternative was chosen: it is one of them, and those before it do not match. -/
def Tried (ps : List (Peg Rule)) (p : Peg Rule) (t : Str) : Prop :=
  ∃ pre post r, ps = pre ++ p :: post ∧ ∀ q ∈ pre, Fails q (t ++ r)

theorem Tried.mem {ps : List (Peg Rule)} {p : Peg Rule} {t : Str} (h : Tried ps p t) : p ∈ ps := by
  obtain ⟨pre, post, r, rfl, _⟩ := h
  simp

mutual
/-- The node has the shape of the grammar expression. -/
inductive Fits : Peg Rule → Node Rule → Prop
  | lit (l) : Fits (.lit l) (.node none l [])
  | re (e t) : Hit e t → Fits (.re e) (.node none t [])
  | seq (ps nds) : FitsAll ps nds → Fits (.seq ps) (.node none (nodeTexts nds) nds)
  | alt (p ps nd) : Tried ps p nd.text → Fits p nd → Fits (.alt ps) (.node none nd.text [nd])
  | star (p nds) : FitsRep p nds → Fits (.star p) (.node none (nodeTexts nds) nds)
  | optNone (p) : Fits (.opt p) (.node none [] [])
  | optSome (p nd) : Fits p nd → Fits (.opt p) (.node none nd.text [nd])
  | rule (k t cs) : Fits (mqlGrammar k) (.node none t cs) → Fits (.rule k) (.node (some k) t cs)

/-- The nodes have the shapes of the expressions, one after the other. -/
inductive FitsAll : List (Peg Rule) → List (Node Rule) → Prop
  | nil : FitsAll [] []
  | cons (p ps nd nds) : Fits p nd → FitsAll ps nds → FitsAll (p :: ps) (nd :: nds)

/-- All nodes have the shape of the expression. -/
inductive FitsRep : Peg Rule → List (Node Rule) → Prop
  | nil (p) : FitsRep p []
  | cons (p nd nds) : Fits p nd → FitsRep p nds → FitsRep p (nd :: nds)
end

theorem consumed_of_append (t r : Str) : consumed (t ++ r) r = t := by
  simp [consumed]

theorem seqWith_fits {f : Peg Rule → Str → Match (Node Rule)}
    (hf : ∀ p s nd r, f p s = .ok nd r → Fits p nd ∧ s = nd.text ++ r) :
    ∀ ps s nds r, seqWith f ps s = .ok nds r → FitsAll ps nds ∧ s = nodeTexts nds ++ r := by
  intro ps
  induction ps with
  | nil => intro s nds r h; simp only [seqWith, Match.ok.injEq] at h; obtain ⟨rfl, rfl⟩ := h; exact ⟨.nil, rfl⟩
  | cons p ps ih =>
    intro s nds r h
    simp only [seqWith] at h
    split at h
    · cases h
    · cases h
    · rename_i nd r1 h1
      obtain ⟨ns, h2, rfl⟩ := Match.cons_eq_ok.1 h
      obtain ⟨h3, rfl⟩ := hf _ _ _ _ h1
      obtain ⟨h4, rfl⟩ := ih _ _ _ h2
      exact ⟨.cons _ _ _ _ h3 h4, by simp [nodeTexts]⟩

theorem altWith_fits {n : Nat}
    (hf : ∀ p s nd r, pegRun mqlGrammar n p s = .ok nd r → Fits p nd ∧ s = nd.text ++ r) :
    ∀ ps s nds r, altWith (pegRun mqlGrammar n) ps s = .ok nds r →
      ∃ pre p post nd, ps = pre ++ p :: post ∧ (∀ q ∈ pre, Fails q s) ∧ nds = [nd] ∧ Fits p nd ∧ s = nd.text ++ r := by
  intro ps
  induction ps with
  | nil => intro s nds r h; cases h
  | cons p ps ih =>
    intro s nds r h
    simp only [altWith] at h
    split at h
    · cases h
    · rename_i hp
      obtain ⟨pre, q, post, nd, rfl, hq, h⟩ := ih _ _ _ h
      exact ⟨p :: pre, q, post, nd, rfl, List.forall_mem_cons.2 ⟨⟨n, hp⟩, hq⟩, h⟩
    · rename_i nd r1 h1
      cases h
      exact ⟨[], p, ps, nd, rfl, by simp, rfl, hf _ _ _ _ h1⟩

theorem starWith_fits {p : Peg Rule} {f : Str → Match (Node Rule)}
    (hf : ∀ s nd r, f s = .ok nd r → Fits p nd ∧ s = nd.text ++ r) :
    ∀ k s nds r, starWith f k s = .ok nds r → FitsRep p nds ∧ s = nodeTexts nds ++ r := by
  intro k
  induction k with
  | zero => intro s nds r h; simp only [starWith, Match.ok.injEq] at h; obtain ⟨rfl, rfl⟩ := h; exact ⟨.nil _, rfl⟩
  | succ k ih =>
    intro s nds r h
    unfold starWith at h
    split at h
    · cases h; exact ⟨.nil _, rfl⟩
    · split at h
      · cases h
      · cases h; exact ⟨.nil _, rfl⟩
      · rename_i nd r1 h1
        obtain ⟨h3, h4⟩ := hf _ _ _ h1
        split at h
        · obtain ⟨ns, h2, rfl⟩ := Match.cons_eq_ok.1 h
          obtain ⟨h5, rfl⟩ := ih _ _ _ h2
          exact ⟨.cons _ _ _ h3 h5, by simp [h4, nodeTexts]⟩
        · cases h
          exact ⟨.cons _ _ _ h3 (.nil _), by simp [h4, nodeTexts]⟩

theorem optWith_fits {p : Peg Rule} {f : Str → Match (Node Rule)}
    (hf : ∀ s nd r, f s = .ok nd r → Fits p nd ∧ s = nd.text ++ r) {s nds r} (h : optWith f s = .ok nds r) :
    (nds = [] ∧ s = r) ∨ ∃ nd, nds = [nd] ∧ Fits p nd ∧ s = nd.text ++ r := by
  unfold optWith at h
  split at h
  · cases h; exact .inl ⟨rfl, rfl⟩
  · split at h
    · cases h
    · cases h; exact .inl ⟨rfl, rfl⟩
    · rename_i nd r1 h1
      cases h
      exact .inr ⟨nd, rfl, hf _ _ _ h1⟩

theorem pegRun_fits : ∀ n p s nd r, pegRun mqlGrammar n p s = .ok nd r → Fits p nd ∧ s = nd.text ++ r := by
  intro n
  induction n with
  | zero => intro p s nd r h; cases h
  | succ n ih =>
    intro p s nd r h
    cases p with
    | lit l =>
      obtain ⟨_, h', rfl⟩ := Match.map_eq_ok.1 h
      rw [matchLit_ok.1 h', consumed_of_append]
      exact ⟨.lit _, rfl⟩
    | re e =>
      obtain ⟨_, h', rfl⟩ := Match.map_eq_ok.1 h
      have h := matchRe_ok.1 h'
      obtain ⟨t, rfl⟩ := Regex.run_suffix e s r (List.mem_of_mem_head? h)
      rw [consumed_of_append]
      exact ⟨.re _ _ ⟨r, h⟩, rfl⟩
    | seq ps =>
      obtain ⟨nds, h', rfl⟩ := Match.map_eq_ok.1 h
      obtain ⟨h1, rfl⟩ := seqWith_fits ih _ _ _ _ h'
      rw [consumed_of_append]
      exact ⟨.seq _ _ h1, rfl⟩
    | alt ps =>
      obtain ⟨nds, h', rfl⟩ := Match.map_eq_ok.1 h
      obtain ⟨pre, p, post, nd, hps, hp, rfl, h1, rfl⟩ := altWith_fits ih _ _ _ _ h'
      rw [consumed_of_append]
      exact ⟨.alt p _ _ ⟨pre, post, r, hps, hp⟩ h1, rfl⟩
    | star p =>
      obtain ⟨nds, h', rfl⟩ := Match.map_eq_ok.1 h
      obtain ⟨h1, h2⟩ := starWith_fits (ih p) _ _ _ _ h'
      subst h2
      rw [consumed_of_append]
      exact ⟨.star _ _ h1, rfl⟩
    | opt p =>
      obtain ⟨nds, h', rfl⟩ := Match.map_eq_ok.1 h
      rcases optWith_fits (ih p) h' with ⟨rfl, rfl⟩ | ⟨nd, rfl, h1, rfl⟩
      · simp only [consumed, Nat.sub_self, List.take_zero]
        exact ⟨.optNone _, rfl⟩
      · rw [consumed_of_append]
        exact ⟨.optSome _ _ h1, rfl⟩
    | rule k =>
      obtain ⟨nd, h', rfl⟩ := Match.map_eq_ok.1 h
      obtain ⟨h1, rfl⟩ := ih _ _ _ _ h'
      cases nd with
      | node o t cs =>
        have ho : o = none ∨ ∃ j, mqlGrammar k = .rule j := by
          generalize mqlGrammar k = p at h1
          cases h1 <;> first | exact .inl rfl | exact .inr ⟨_, rfl⟩
        rcases ho with rfl | ⟨j, hj⟩
        · exact ⟨.rule _ _ _ h1, rfl⟩
        · cases k <;> cases hj


/-! ### The types of the results -/

/-- No digit comes first. -/
def NoDigitFirst (t : Str) : Prop := ∀ c ∈ t.head?, isDigit c = false

/-- Letters, digits and underscores. -/
def WordChars (n : Str) : Prop := n ≠ [] ∧ ∀ c ∈ n, (isAlpha c || isDigit c || c == '_') = true

/-- The name of a function in a text that begins with it: no digit comes first in the name unless one comes first in the text. -/
def NameIn (t n : Str) : Prop := WordChars n ∧ (NoDigitFirst t → NoDigitFirst n)

/-- A timeseries or a formula. -/
def QueryV (N : Str → Prop) (v : V) : Prop := ∃ m, v = .obj m ∧ m.isQuery = true ∧ Sound N m

/-- A number without a sign, or a string. -/
def ScalarV (v : V) : Prop := (∃ f, NotNegative f ∧ v = .obj (.val (.float f))) ∨ ∃ s, v = .obj (.val (.str s))

/-- A number or a string. -/
def SignedV (v : V) : Prop := (∃ f, f ≠ .nan ∧ v = .obj (.val (.float f))) ∨ ∃ s, v = .obj (.val (.str s))

/-- A query, or a scalar that is written as one. -/
def TermV (t : Str) (v : V) : Prop := QueryV NameText v ∨ (SignedV v ∧ ScalarText t)

/-- A condition. -/
def CondV (v : V) : Prop := ∃ c, v = .obj (.val c) ∧ TagFilter c

/-- A column. -/
def ColV (v : V) : Prop := ∃ c, v = .obj (.val c) ∧ TagColumn c

/-- A column or a list of columns. -/
def GroupV (v : V) : Prop := ColV v ∨ ∃ vs, v = .list vs ∧ vs ≠ [] ∧ ∀ x ∈ vs, ColV x

/-- A metric. -/
def MetricV (v : V) : Prop :=
  ∃ m, v = .obj (.metric m) ∧ ((∃ n, PublicText n ∧ m = ⟨.str n, .none, .none⟩) ∨ ∃ n, LooseMri n ∧ m = ⟨.none, .str n, .none⟩)

/-- A value of a filter: a string, a pattern, or a list of strings. -/
def FactorV (v : V) : Prop :=
  (∃ s, v = .factor (.str s) false ∧ ∀ u, BareText u → s ≠ u ++ ['*']) ∨ (∃ u, v = .factor (.str (u ++ ['*'])) true ∧ BareText u) ∨
    ∃ ss : List Str, v = .factor (.list (ss.map .str)) false ∧ ss ≠ []

/-- What the method of a rule returns for a text. -/
def RTy : Rule → Str → V → Prop
  | .expression, t, v | .term, t, v | .unary, t, v => TermV t v
  | .coefficient, t, v =>
    QueryV NameText v ∨ ((∃ f, NotNegative f ∧ v = .obj (.val (.float f))) ∧ DigitsText t) ∨ ((∃ s, v = .obj (.val (.str s))) ∧ QuotesText t)
  | .number, t, v => (∃ f, NotNegative f ∧ v = .obj (.val (.float f))) ∧ DigitsText t
  | .quotedString, t, v => (∃ s, v = .obj (.val (.str s))) ∧ QuotesText t
  | .unaryOp, t, v => t = ['-'] ∧ v = .obj (.val (.str c!"negate"))
  | .exprOp, _, v | .termOp, _, v => ∃ op : Arith, v = .obj (.val (.str op.name))
  | .unquotedString, t, v => v = .obj (.val (.str t)) ∧ BareText t
  | .aggregateName, t, v | .curriedAggregateName, t, v | .arbitraryFunctionName, t, v | .curriedArbitraryFunctionName, t, v =>
    v = .obj (.val (.str t)) ∧ WordChars t
  | .filter, t, v | .target, t, v | .function, t, v | .aggregate, t, v | .curriedAggregate, t, v
  | .arbitraryFunction, t, v | .curriedArbitraryFunction, t, v => QueryV (NameIn t) v
  | .nestedExpression, _, v => QueryV NameText v
  | .innerFilter, _, v => ∃ t, v = .obj (.ts t) ∧ Sound NameText (.ts t)
  | .metric, _, v => ∃ x, v = .list [x] ∧ MetricV x
  | .quotedMri, _, v | .unquotedMri, _, v | .quotedPublicName, _, v => MetricV v
  | .lenientMri, t, v => MetricV v ∧ LooseMri t
  | .unquotedPublicName, t, v => MetricV v ∧ PublicText t
  | .filterExpr, _, v | .filterTerm, _, v | .filterFactor, _, v | .nestedExpr, _, v => CondV v
  | .conditionOp, _, v => v = .obj (.val (.op .not))
  | .tagKey, _, v | .groupByName, _, v => ColV v
  | .tagValue, _, v | .suffixWildcard, _, v | .quotedSuffixWildcard, _, v
  | .unquotedStringFilter, _, v | .stringTuple, _, v => FactorV v
  | .quotedStringFilter, t, v => v = .factor (.str (unescapeQuotes (slice1m1 t))) false ∧ QuotesText t
  | .groupByNameTuple, _, v => ∃ vs, v = .list vs ∧ vs ≠ [] ∧ ∀ x ∈ vs, ColV x
  | .groupBy, _, v => GroupV v
  | .aggregateList, _, v => ∃ vs, v = .list vs ∧ ∀ x ∈ vs, ScalarV x
  | .param, _, v | .paramExpression, _, v => ScalarV v
  | .variable_, _, _ => False
  | .space, t, _ => Blanks t
  | .openParen, t, _ => t = ['(']
  | .closeParen, t, _ => t = [')']
  | .backtick, t, _ => t = ['`']
  | _, _, _ => True

mutual
/-- What the visitor returns for a node of the shape of an expression. -/
inductive PTy : Peg Rule → Str → V → Prop
  | lit (l) : PTy (.lit l) l (.list [])
  | re (e t) : Hit e t → PTy (.re e) t (.list [])
  | seq (ps t vs) : PTys ps t vs → PTy (.seq ps) t (.list vs)
  | alt (p ps t v) : Tried ps p t → PTy p t v → PTy (.alt ps) t (.list [v])
  | star (p t vs) : PReps p t vs → PTy (.star p) t (.list vs)
  | optNone (p) : PTy (.opt p) [] (.list [])
  | optSome (p t v) : PTy p t v → PTy (.opt p) t (.list [v])
  | rule (k t v) : RTy k t v → PTy (.rule k) t v

/-- What it returns for the members of a sequence. -/
inductive PTys : List (Peg Rule) → Str → List V → Prop
  | nil : PTys [] [] []
  | cons (p ps t t' v vs) : PTy p t v → PTys ps t' vs → PTys (p :: ps) (t ++ t') (v :: vs)

/-- What it returns for repetitions. -/
inductive PReps : Peg Rule → Str → List V → Prop
  | nil (p) : PReps p [] []
  | cons (p t t' v vs) : PTy p t v → PReps p t' vs → PReps p (t ++ t') (v :: vs)
end

theorem ptys_nil {t : Str} {vs : List V} : PTys [] t vs ↔ t = [] ∧ vs = [] := by
  constructor
  · intro h; cases h; exact ⟨rfl, rfl⟩
  · rintro ⟨rfl, rfl⟩; exact .nil

theorem ptys_cons {p : Peg Rule} {ps : List (Peg Rule)} {t : Str} {vs : List V} :
    PTys (p :: ps) t vs ↔ ∃ t1 v, PTy p t1 v ∧ ∃ t2 us, PTys ps t2 us ∧ t = t1 ++ t2 ∧ vs = v :: us := by
  constructor
  · intro h; cases h with | cons _ _ _ _ _ _ h1 h2 => exact ⟨_, _, h1, _, _, h2, rfl, rfl⟩
  · rintro ⟨_, _, h1, _, _, h2, rfl, rfl⟩; exact .cons _ _ _ _ _ _ h1 h2

theorem pty_rule {k : Rule} {t : Str} {v : V} : PTy (.rule k) t v ↔ RTy k t v :=
  ⟨fun h => by cases h; assumption, .rule _ _ _⟩

theorem pty_seq {ps : List (Peg Rule)} {t : Str} {v : V} : PTy (.seq ps) t v ↔ ∃ vs, PTys ps t vs ∧ v = .list vs := by
  constructor
  · intro h; cases h with | seq _ _ _ h => exact ⟨_, h, rfl⟩
  · rintro ⟨_, h, rfl⟩; exact .seq _ _ _ h

theorem pty_alt_tried {ps : List (Peg Rule)} {t : Str} {v : V} (h : PTy (.alt ps) t v) : ∃ x, (∃ p, Tried ps p t ∧ PTy p t x) ∧ v = .list [x] := by
  cases h with | alt _ _ _ _ hp h => exact ⟨_, ⟨_, hp, h⟩, rfl⟩

theorem pty_alt {ps : List (Peg Rule)} {t : Str} {v : V} (h : PTy (.alt ps) t v) : ∃ x, (∃ p ∈ ps, PTy p t x) ∧ v = .list [x] := by
  obtain ⟨x, ⟨p, hp, h'⟩, rfl⟩ := pty_alt_tried h
  exact ⟨x, ⟨p, hp.mem, h'⟩, rfl⟩

theorem pty_star {p : Peg Rule} {t : Str} {v : V} : PTy (.star p) t v ↔ ∃ vs, PReps p t vs ∧ v = .list vs := by
  constructor
  · intro h; cases h with | star _ _ _ h => exact ⟨_, h, rfl⟩
  · rintro ⟨_, h, rfl⟩; exact .star _ _ _ h

theorem pty_opt {p : Peg Rule} {t : Str} {v : V} : PTy (.opt p) t v ↔ (t = [] ∧ v = .list []) ∨ ∃ x, PTy p t x ∧ v = .list [x] := by
  constructor
  · intro h
    cases h with
    | optNone => exact .inl ⟨rfl, rfl⟩
    | optSome _ _ _ h => exact .inr ⟨_, h, rfl⟩
  · rintro (⟨rfl, rfl⟩ | ⟨_, h, rfl⟩)
    · exact .optNone _
    · exact .optSome _ _ _ h

theorem pty_lit {l t : Str} {v : V} : PTy (.lit l) t v ↔ t = l ∧ v = .list [] := by
  constructor
  · intro h; cases h; exact ⟨rfl, rfl⟩
  · rintro ⟨rfl, rfl⟩; exact .lit _

theorem pty_re {e : Regex} {t : Str} {v : V} : PTy (.re e) t v ↔ Hit e t ∧ v = .list [] := by
  constructor
  · intro h; cases h with | re _ _ h => exact ⟨h, rfl⟩
  · rintro ⟨h, rfl⟩; exact .re _ _ h

theorem preps_mem {p : Peg Rule} {t : Str} {vs : List V} (h : PReps p t vs) : ∀ v ∈ vs, ∃ t', PTy p t' v := by
  induction vs generalizing t with
  | nil => intro v hv; cases hv
  | cons x xs ih =>
    cases h with
    | cons _ _ _ _ _ h1 h2 =>
      intro v hv
      rcases List.mem_cons.1 hv with rfl | hv
      · exact ⟨_, h1⟩
      · exact ih h2 v hv

theorem preps_nil {p : Peg Rule} {t : Str} (h : PReps p t []) : t = [] := by cases h; rfl

/-! ### How the methods fail -/

/-- The ways to fail, with what the text then contains. -/
def Allowed (t : Str) (e : Err) : Prop :=
  e = .invalidMQL ∨ (e = .invalidColumn ∧ BadKeyIn t) ∨ (e = .assertion ∧ ScalarInParens t)

theorem Allowed.infix {t : Str} {e : Err} (h : Allowed t e) (a b : Str) : Allowed (a ++ (t ++ b)) e := by
  rcases h with h | ⟨h, pre, k, post, rfl, hk, hc⟩ | ⟨h, pre, w, u, w', post, rfl, hw, hw', hu⟩
  · exact .inl h
  · refine .inr (.inl ⟨h, a ++ pre, k, post ++ b, by simp, hk, ?_⟩)
    rcases hc with ⟨w, r, rfl, hw⟩ | ⟨p, w, hw, hp⟩
    · exact .inl ⟨w, r ++ b, by simp, hw⟩
    · refine .inr ⟨a ++ p, w, hw, ?_⟩
      rcases hp with rfl | rfl | rfl <;> simp
  · exact .inr (.inr ⟨h, a ++ pre, w, u, w', post ++ b, by simp, hw, hw', hu⟩)

/-- How the method of a rule fails for a text. -/
def RErr : Rule → Str → Err → Prop
  | .tagKey, t, e | .groupByName, t, e => e = .invalidColumn ∧ BadKey t
  | _, t, e => Allowed t e

mutual
/-- How the visit of a node of the shape of an expression fails. -/
inductive PErr : Peg Rule → Str → Err → Prop
  | seq (ps t e) : PErrs ps t e → PErr (.seq ps) t e
  | alt (p ps t e) : p ∈ ps → PErr p t e → PErr (.alt ps) t e
  | star (p t e a b) : PErr p t e → PErr (.star p) (a ++ (t ++ b)) e
  | opt (p t e) : PErr p t e → PErr (.opt p) t e
  | rule (k t e) : RErr k t e → PErr (.rule k) t e

/-- How the visit of the members of a sequence fails. -/
inductive PErrs : List (Peg Rule) → Str → Err → Prop
  | head (p ps t nds e) : PErr p t e → FitsAll ps nds → PErrs (p :: ps) (t ++ nodeTexts nds) e
  | tail (p ps nd t e) : Fits p nd → PErrs ps t e → PErrs (p :: ps) (nd.text ++ t) e
end

mutual
/-- No keys of filters or groupings directly in the expression. -/
def noKeys : Peg Rule → Bool
  | .lit _ | .re _ => true
  | .seq ps | .alt ps => noKeysAll ps
  | .star p | .opt p => noKeys p
  | .rule k => !(k == .tagKey || k == .groupByName)

/-- The same for several expressions. -/
def noKeysAll : List (Peg Rule) → Bool
  | [] => true
  | p :: ps => noKeys p && noKeysAll ps
end

omit S in
theorem noKeysAll_mem {p : Peg Rule} : ∀ {ps : List (Peg Rule)}, noKeysAll ps = true → p ∈ ps → noKeys p = true
  | q :: ps, h, hp => by
    simp only [noKeysAll, Bool.and_eq_true] at h
    rcases List.mem_cons.1 hp with rfl | hp
    · exact h.1
    · exact noKeysAll_mem h.2 hp

theorem rerr_allowed {k : Rule} {t : Str} {e : Err} (hk : noKeys (.rule k) = true) : RErr k t e ↔ Allowed t e := by
  cases k <;> first | exact Iff.rfl | cases hk

mutual
theorem perr_allowed : ∀ {p : Peg Rule} {t : Str} {e : Err}, PErr p t e → noKeys p = true → Allowed t e
  | _, _, _, .seq _ _ _ h, hk => perrs_allowed h (by simpa only [noKeys] using hk)
  | _, _, _, .alt _ _ _ _ hp h, hk => perr_allowed h (noKeysAll_mem (by simpa only [noKeys] using hk) hp)
  | _, _, _, .star _ _ _ a b h, hk => (perr_allowed h (by simpa only [noKeys] using hk)).infix a b
  | _, _, _, .opt _ _ _ h, hk => perr_allowed h (by simpa only [noKeys] using hk)
  | _, _, _, .rule _ _ _ h, hk => (rerr_allowed hk).1 h

theorem perrs_allowed : ∀ {ps : List (Peg Rule)} {t : Str} {e : Err}, PErrs ps t e → noKeysAll ps = true → Allowed t e
  | _, _, _, .head _ _ _ _ _ h _, hk => by
    simp only [noKeysAll, Bool.and_eq_true] at hk
    exact (perr_allowed h hk.1).infix [] _
  | _, _, _, .tail _ _ _ _ _ _ h, hk => by
    simp only [noKeysAll, Bool.and_eq_true] at hk
    have := (perrs_allowed h hk.2).infix (t := _) ‹Node Rule›.text []
    simpa using this
end


/-! ### Errors of the children -/

theorem fits_space {nd : Node Rule} (h : Fits ws nd) : Blanks nd.text := by
  cases h with
  | rule _ t cs h =>
    cases h with
    | re _ _ h =>
      obtain ⟨r, h⟩ := h
      obtain ⟨u, hu, hc⟩ := (mem_run_star (OneChar.cls _)).1 (List.mem_of_mem_head? h)
      rw [List.append_cancel_right hu]
      exact hc

theorem fits_token {k : Rule} {l : Str} (hk : mqlGrammar k = .lit l) {nd : Node Rule} (h : Fits (.rule k) nd) : nd.text = l := by
  cases h with
  | rule _ t cs h =>
    rw [hk] at h
    cases h
    rfl

theorem nodeTexts_cons {nd : Node Rule} {nds : List (Node Rule)} : nodeTexts (nd :: nds) = nd.text ++ nodeTexts nds := by
  simp [nodeTexts]

theorem perr_filterFactor {t : Str} {e : Err} (h : PErr (mqlGrammar .filterFactor) t e) : Allowed t e := by
  cases h with
  | alt p _ _ _ hp h =>
    simp only [List.mem_cons, List.not_mem_nil, or_false] at hp
    rcases hp with rfl | rfl
    · cases h with
      | seq _ _ _ h =>
        cases h with
        | head _ _ _ _ _ h _ => exact (perr_allowed h rfl).infix [] _
        | tail _ _ nd t _ hn h =>
          cases h with
          | head _ _ t nds _ h hf =>
            cases h with
            | alt p _ _ _ hp h =>
              simp only [List.mem_cons, List.not_mem_nil, or_false] at hp
              rcases hp with rfl | rfl
              · exact (perr_allowed h rfl).infix _ _
              · cases h with
                | rule _ _ _ h =>
                  cases hf with
                  | cons _ _ n1 _ h1 hf =>
                    cases hf with
                    | cons _ _ n2 nds h2 hf =>
                      refine .inr (.inl ⟨h.1, nd.text, t, nodeTexts (n1 :: n2 :: nds), rfl, h.2, .inl ⟨n1.text, nodeTexts nds, ?_, fits_space h1⟩⟩)
                      rw [nodeTexts_cons, nodeTexts_cons, fits_token rfl h2]
                      rfl
          | tail _ _ nd2 t _ hn2 h =>
            have := (perrs_allowed h rfl).infix (nd.text ++ nd2.text) []
            simpa using this
    · exact perr_allowed h rfl

theorem perr_groupBy {t : Str} {e : Err} (h : PErr (mqlGrammar .groupBy) t e) : Allowed t e := by
  cases h with
  | seq _ _ _ h =>
    cases h with
    | head _ _ _ _ _ h _ => exact (perr_allowed h rfl).infix [] _
    | tail _ _ n1 _ _ h1 h =>
      cases h with
      | head _ _ _ _ _ h _ => cases h
      | tail _ _ n2 _ _ h2 h =>
        cases h with
        | head _ _ t nds _ h hf =>
          have := (perr_allowed h rfl).infix (n1.text ++ n2.text) (nodeTexts nds)
          simpa using this
        | tail _ _ n3 _ _ h3 h =>
          cases h with
          | tail _ _ _ _ _ _ h => cases h
          | head _ _ t nds _ h hf =>
            cases hf
            cases h with
            | alt p _ _ _ hp h =>
              simp only [List.mem_cons, List.not_mem_nil, or_false] at hp
              rcases hp with rfl | rfl
              · cases h with
                | rule _ _ _ h =>
                  refine .inr (.inl ⟨h.1, n1.text ++ (n2.text ++ n3.text), t, [], ?_, h.2, .inr ⟨n1.text, n3.text, fits_space h3, .inl ?_⟩⟩)
                  · simp [nodeTexts]
                  · cases h2; rfl
              · have := (perr_allowed h rfl).infix (n1.text ++ (n2.text ++ n3.text)) []
                simpa [nodeTexts] using this

theorem perr_groupTuple {t : Str} {e : Err} (h : PErr (mqlGrammar .groupByNameTuple) t e) : Allowed t e := by
  cases h with
  | seq _ _ _ h =>
    cases h with
    | head _ _ _ _ _ h _ => exact (perr_allowed h rfl).infix [] _
    | tail _ _ n1 _ _ h1 h =>
      cases h with
      | head _ _ _ nds _ h _ => exact (perr_allowed h rfl).infix _ _
      | tail _ _ n2 _ _ h2 h =>
        cases h with
        | head _ _ t nds _ h hf =>
          cases h with
          | rule _ _ _ h =>
            refine .inr (.inl ⟨h.1, n1.text ++ n2.text, t, nodeTexts nds, by simp, h.2, .inr ⟨[], n2.text, fits_space h2, .inr (.inl ?_)⟩⟩)
            rw [fits_token rfl h1]; rfl
        | tail _ _ n3 _ _ h3 h =>
          cases h with
          | tail _ _ n4 _ _ h4 h =>
            have := (perrs_allowed h rfl).infix (n1.text ++ (n2.text ++ (n3.text ++ n4.text))) []
            simpa using this
          | head _ _ t nds _ h hf =>
            have key : Allowed t e := by
              cases h with
              | star _ t _ a b h =>
                refine Allowed.infix ?_ a b
                cases h with
                | seq _ _ _ h =>
                  cases h with
                  | head _ _ _ _ _ h _ => exact (perr_allowed h rfl).infix [] _
                  | tail _ _ m1 _ _ g1 h =>
                    cases h with
                    | head _ _ _ _ _ h _ => exact (perr_allowed h rfl).infix _ _
                    | tail _ _ m2 _ _ g2 h =>
                      cases h with
                      | head _ _ t nds _ h _ =>
                        have := (perr_allowed h rfl).infix (m1.text ++ m2.text) (nodeTexts nds)
                        simpa using this
                      | tail _ _ m3 _ _ g3 h =>
                        cases h with
                        | tail _ _ _ _ _ _ h => cases h
                        | head _ _ t nds _ h hf =>
                          cases h with
                          | rule _ _ _ h =>
                            refine .inr (.inl ⟨h.1, m1.text ++ (m2.text ++ m3.text), t, nodeTexts nds, by simp, h.2,
                              .inr ⟨m1.text, m3.text, fits_space g3, .inr (.inr ?_)⟩⟩)
                            rw [fits_token rfl g2]; rfl
            have := key.infix (n1.text ++ (n2.text ++ n3.text)) (nodeTexts nds)
            simpa using this

theorem rule_err {k : Rule} {t : Str} {e : Err} (h : PErr (mqlGrammar k) t e) : RErr k t e := by
  cases k
  case tagKey => cases h
  case groupByName => cases h
  case filterFactor => exact perr_filterFactor h
  case groupBy => exact perr_groupBy h
  case groupByNameTuple => exact perr_groupTuple h
  all_goals exact perr_allowed h rfl

end

end Verif
