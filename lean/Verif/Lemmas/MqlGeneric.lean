import Verif.Lemmas.MqlOutcome
import Verif.Spec.MqlMeaning

/-!
# What the visitor returns, by a relation between the texts of rules and the results of their methods

As `PTy` in `MqlTyped.lean`, for any such relation.
-/

namespace Verif

open Spec

section
variable [S : RegexSpace]

mutual
/-- What the visitor returns for a node of the shape of an expression, if the methods of the rules return what `R` says. -/
inductive GTy (R : Rule → Str → V → Prop) : Peg Rule → Str → V → Prop
  | lit (l) : GTy R (.lit l) l (.list [])
  | re (e t) : Hit e t → GTy R (.re e) t (.list [])
  | seq (ps t vs) : GTys R ps t vs → GTy R (.seq ps) t (.list vs)
  | alt (p ps t v) : Tried ps p t → GTy R p t v → GTy R (.alt ps) t (.list [v])
  | star (p t vs) : GReps R p t vs → GTy R (.star p) t (.list vs)
  | optNone (p) : GTy R (.opt p) [] (.list [])
  | optSome (p t v) : GTy R p t v → GTy R (.opt p) t (.list [v])
  | rule (k t v) : R k t v → GTy R (.rule k) t v

/-- What it returns for the members of a sequence. -/
inductive GTys (R : Rule → Str → V → Prop) : List (Peg Rule) → Str → List V → Prop
  | nil : GTys R [] [] []
  | cons (p ps t t' v vs) : GTy R p t v → GTys R ps t' vs → GTys R (p :: ps) (t ++ t') (v :: vs)

/-- What it returns for repetitions. -/
inductive GReps (R : Rule → Str → V → Prop) : Peg Rule → Str → List V → Prop
  | nil (p) : GReps R p [] []
  | cons (p t t' v vs) : GTy R p t v → GReps R p t' vs → GReps R p (t ++ t') (v :: vs)
end

variable {R : Rule → Str → V → Prop}

theorem gtys_nil {t : Str} {vs : List V} : GTys R [] t vs ↔ t = [] ∧ vs = [] := by
  constructor
  · intro h; cases h; exact ⟨rfl, rfl⟩
  · rintro ⟨rfl, rfl⟩; exact .nil

theorem gtys_cons {p : Peg Rule} {ps : List (Peg Rule)} {t : Str} {vs : List V} :
    GTys R (p :: ps) t vs ↔ ∃ t1 v, GTy R p t1 v ∧ ∃ t2 us, GTys R ps t2 us ∧ t = t1 ++ t2 ∧ vs = v :: us := by
  constructor
  · intro h; cases h with | cons _ _ _ _ _ _ h1 h2 => exact ⟨_, _, h1, _, _, h2, rfl, rfl⟩
  · rintro ⟨_, _, h1, _, _, h2, rfl, rfl⟩; exact .cons _ _ _ _ _ _ h1 h2

theorem gty_rule {k : Rule} {t : Str} {v : V} : GTy R (.rule k) t v ↔ R k t v :=
  ⟨fun h => by cases h; assumption, .rule _ _ _⟩

theorem gty_seq {ps : List (Peg Rule)} {t : Str} {v : V} : GTy R (.seq ps) t v ↔ ∃ vs, GTys R ps t vs ∧ v = .list vs := by
  constructor
  · intro h; cases h with | seq _ _ _ h => exact ⟨_, h, rfl⟩
  · rintro ⟨_, h, rfl⟩; exact .seq _ _ _ h

theorem gty_alt_tried {ps : List (Peg Rule)} {t : Str} {v : V} (h : GTy R (.alt ps) t v) : ∃ x, (∃ p, Tried ps p t ∧ GTy R p t x) ∧ v = .list [x] := by
  cases h with | alt _ _ _ _ hp h => exact ⟨_, ⟨_, hp, h⟩, rfl⟩

theorem gty_alt {ps : List (Peg Rule)} {t : Str} {v : V} (h : GTy R (.alt ps) t v) : ∃ x, (∃ p ∈ ps, GTy R p t x) ∧ v = .list [x] := by
  obtain ⟨x, ⟨p, hp, h'⟩, rfl⟩ := gty_alt_tried h
  exact ⟨x, ⟨p, hp.mem, h'⟩, rfl⟩

theorem gty_star {p : Peg Rule} {t : Str} {v : V} : GTy R (.star p) t v ↔ ∃ vs, GReps R p t vs ∧ v = .list vs := by
  constructor
  · intro h; cases h with | star _ _ _ h => exact ⟨_, h, rfl⟩
  · rintro ⟨_, h, rfl⟩; exact .star _ _ _ h

theorem gty_opt {p : Peg Rule} {t : Str} {v : V} : GTy R (.opt p) t v ↔ (t = [] ∧ v = .list []) ∨ ∃ x, GTy R p t x ∧ v = .list [x] := by
  constructor
  · intro h
    cases h with
    | optNone => exact .inl ⟨rfl, rfl⟩
    | optSome _ _ _ h => exact .inr ⟨_, h, rfl⟩
  · rintro (⟨rfl, rfl⟩ | ⟨_, h, rfl⟩)
    · exact .optNone _
    · exact .optSome _ _ _ h

theorem gty_lit {l t : Str} {v : V} : GTy R (.lit l) t v ↔ t = l ∧ v = .list [] := by
  constructor
  · intro h; cases h; exact ⟨rfl, rfl⟩
  · rintro ⟨rfl, rfl⟩; exact .lit _

theorem gty_re {e : Regex} {t : Str} {v : V} : GTy R (.re e) t v ↔ Hit e t ∧ v = .list [] := by
  constructor
  · intro h; cases h with | re _ _ h => exact ⟨h, rfl⟩
  · rintro ⟨h, rfl⟩; exact .re _ _ h

theorem greps_mem {p : Peg Rule} {t : Str} {vs : List V} (h : GReps R p t vs) : ∀ v ∈ vs, ∃ t', GTy R p t' v := by
  induction vs generalizing t with
  | nil => intro v hv; cases hv
  | cons x xs ih =>
    cases h with
    | cons _ _ _ _ _ h1 h2 =>
      intro v hv
      rcases List.mem_cons.1 hv with rfl | hv
      · exact ⟨_, h1⟩
      · exact ih h2 v hv

theorem greps_nil {p : Peg Rule} {t : Str} (h : GReps R p t []) : t = [] := by cases h; rfl

theorem gty_seq2 {p q : Peg Rule} {t : Str} {v : V} : GTy R (.seq [p, q]) t v ↔
    ∃ t1 v1 t2 v2, GTy R p t1 v1 ∧ GTy R q t2 v2 ∧ t = t1 ++ t2 ∧ v = .list [v1, v2] := by
  simp only [gty_seq, gtys_cons, gtys_nil]
  constructor
  · rintro ⟨_, ⟨t1, v1, h1, _, _, ⟨t2, v2, h2, _, _, ⟨rfl, rfl⟩, rfl, rfl⟩, rfl, rfl⟩, rfl⟩
    exact ⟨t1, v1, t2, v2, h1, h2, by simp, rfl⟩
  · rintro ⟨t1, v1, t2, v2, h1, h2, rfl, rfl⟩
    exact ⟨_, ⟨t1, v1, h1, _, _, ⟨t2, v2, h2, _, _, ⟨rfl, rfl⟩, rfl, rfl⟩, by simp, rfl⟩, rfl⟩

theorem gty_seq_cons {p : Peg Rule} {ps : List (Peg Rule)} {t : Str} {v : V} : GTy R (.seq (p :: ps)) t v ↔
    ∃ t1 v1 t2 us, GTy R p t1 v1 ∧ GTy R (.seq ps) t2 (.list us) ∧ t = t1 ++ t2 ∧ v = .list (v1 :: us) := by
  simp only [gty_seq, gtys_cons]
  constructor
  · rintro ⟨_, ⟨t1, v1, h1, _, _, h2, rfl, rfl⟩, rfl⟩
    exact ⟨t1, v1, _, _, h1, ⟨_, h2, rfl⟩, rfl, rfl⟩
  · rintro ⟨t1, v1, t2, us, h1, ⟨_, h2, h⟩, rfl, rfl⟩
    cases h
    exact ⟨_, ⟨t1, v1, h1, _, _, h2, rfl, rfl⟩, rfl⟩

theorem gty_seq3 {p q r : Peg Rule} {t : Str} {v : V} : GTy R (.seq [p, q, r]) t v ↔
    ∃ t1 v1 t2 v2 t3 v3, GTy R p t1 v1 ∧ GTy R q t2 v2 ∧ GTy R r t3 v3 ∧ t = t1 ++ (t2 ++ t3) ∧ v = .list [v1, v2, v3] := by
  rw [gty_seq_cons]
  simp only [gty_seq2, V.list.injEq]
  constructor
  · rintro ⟨t1, v1, _, _, h1, ⟨t2, v2, t3, v3, h2, h3, rfl, rfl⟩, rfl, rfl⟩
    exact ⟨t1, v1, t2, v2, t3, v3, h1, h2, h3, rfl, rfl⟩
  · rintro ⟨t1, v1, t2, v2, t3, v3, h1, h2, h3, rfl, rfl⟩
    exact ⟨t1, v1, _, _, h1, ⟨t2, v2, t3, v3, h2, h3, rfl, rfl⟩, rfl, rfl⟩

theorem gty_seq4 {p q r s : Peg Rule} {t : Str} {v : V} : GTy R (.seq [p, q, r, s]) t v ↔
    ∃ t1 v1 t2 v2 t3 v3 t4 v4, GTy R p t1 v1 ∧ GTy R q t2 v2 ∧ GTy R r t3 v3 ∧ GTy R s t4 v4 ∧
      t = t1 ++ (t2 ++ (t3 ++ t4)) ∧ v = .list [v1, v2, v3, v4] := by
  rw [gty_seq_cons]
  simp only [gty_seq3, V.list.injEq]
  constructor
  · rintro ⟨t1, v1, _, _, h1, ⟨t2, v2, t3, v3, t4, v4, h2, h3, h4, rfl, rfl⟩, rfl, rfl⟩
    exact ⟨t1, v1, t2, v2, t3, v3, t4, v4, h1, h2, h3, h4, rfl, rfl⟩
  · rintro ⟨t1, v1, t2, v2, t3, v3, t4, v4, h1, h2, h3, h4, rfl, rfl⟩
    exact ⟨t1, v1, _, _, h1, ⟨t2, v2, t3, v3, t4, v4, h2, h3, h4, rfl, rfl⟩, rfl, rfl⟩

theorem gty_seq5 {p q r s u : Peg Rule} {t : Str} {v : V} : GTy R (.seq [p, q, r, s, u]) t v ↔
    ∃ t1 v1 t2 v2 t3 v3 t4 v4 t5 v5, GTy R p t1 v1 ∧ GTy R q t2 v2 ∧ GTy R r t3 v3 ∧ GTy R s t4 v4 ∧ GTy R u t5 v5 ∧
      t = t1 ++ (t2 ++ (t3 ++ (t4 ++ t5))) ∧ v = .list [v1, v2, v3, v4, v5] := by
  rw [gty_seq_cons]
  simp only [gty_seq4, V.list.injEq]
  constructor
  · rintro ⟨t1, v1, _, _, h1, ⟨t2, v2, t3, v3, t4, v4, t5, v5, h2, h3, h4, h5, rfl, rfl⟩, rfl, rfl⟩
    exact ⟨t1, v1, t2, v2, t3, v3, t4, v4, t5, v5, h1, h2, h3, h4, h5, rfl, rfl⟩
  · rintro ⟨t1, v1, t2, v2, t3, v3, t4, v4, t5, v5, h1, h2, h3, h4, h5, rfl, rfl⟩
    exact ⟨t1, v1, _, _, h1, ⟨t2, v2, t3, v3, t4, v4, t5, v5, h2, h3, h4, h5, rfl, rfl⟩, rfl, rfl⟩

theorem gty_seq6 {p q r s u w : Peg Rule} {t : Str} {v : V} : GTy R (.seq [p, q, r, s, u, w]) t v ↔
    ∃ t1 v1 t2 v2 t3 v3 t4 v4 t5 v5 t6 v6, GTy R p t1 v1 ∧ GTy R q t2 v2 ∧ GTy R r t3 v3 ∧ GTy R s t4 v4 ∧ GTy R u t5 v5 ∧ GTy R w t6 v6 ∧
      t = t1 ++ (t2 ++ (t3 ++ (t4 ++ (t5 ++ t6)))) ∧ v = .list [v1, v2, v3, v4, v5, v6] := by
  rw [gty_seq_cons]
  simp only [gty_seq5, V.list.injEq]
  constructor
  · rintro ⟨t1, v1, _, _, h1, ⟨t2, v2, t3, v3, t4, v4, t5, v5, t6, v6, h2, h3, h4, h5, h6, rfl, rfl⟩, rfl, rfl⟩
    exact ⟨t1, v1, t2, v2, t3, v3, t4, v4, t5, v5, t6, v6, h1, h2, h3, h4, h5, h6, rfl, rfl⟩
  · rintro ⟨t1, v1, t2, v2, t3, v3, t4, v4, t5, v5, t6, v6, h1, h2, h3, h4, h5, h6, rfl, rfl⟩
    exact ⟨t1, v1, _, _, h1, ⟨t2, v2, t3, v3, t4, v4, t5, v5, t6, v6, h2, h3, h4, h5, h6, rfl, rfl⟩, rfl, rfl⟩


section
variable [U : PyUnicode]

mutual
theorem node_gty (hr : ∀ k t vs v, GTy R (mqlGrammar k) t (.list vs) → visitRule k t vs = .ok v → R k t v) :
    ∀ {p : Peg Rule} {nd : Node Rule}, Fits p nd → ∀ v, visitNode nd = .ok v → GTy R p nd.text v
  | _, _, .lit l => by
    simp only [visitNode, visitNodes, ok_bind, Except.ok.injEq, forall_eq']
    exact .lit l
  | _, _, .re e t h => by
    simp only [visitNode, visitNodes, ok_bind, Except.ok.injEq, forall_eq']
    exact .re e t h
  | _, _, .seq ps nds h => by
    simp only [visitNode, bind_eq_ok]
    rintro v ⟨vs, hvs, h'⟩; cases h'; exact .seq _ _ _ (nodes_gty hr h _ hvs)
  | _, _, .alt p ps nd hp h => by
    simp only [visitNode, visitNodes, bind_eq_ok]
    rintro v ⟨vs, ⟨w, hw, us, hu, h1⟩, h'⟩; cases hu; cases h1; cases h'; exact .alt _ _ _ _ hp (node_gty hr h _ hw)
  | _, _, .star p nds h => by
    simp only [visitNode, bind_eq_ok]
    rintro v ⟨vs, hvs, h'⟩; cases h'; exact .star _ _ _ (reps_gty hr h _ hvs)
  | _, _, .optNone p => by
    simp only [visitNode, visitNodes, ok_bind, Except.ok.injEq, forall_eq']
    exact .optNone p
  | _, _, .optSome p nd h => by
    simp only [visitNode, visitNodes, bind_eq_ok]
    rintro v ⟨vs, ⟨w, hw, us, hu, h1⟩, h'⟩; cases hu; cases h1; cases h'; exact .optSome _ _ _ (node_gty hr h _ hw)
  | _, _, .rule k t cs h => by
    have h1 := node_gty hr h
    simp only [visitNode, bind_eq_ok] at h1 ⊢
    rintro v ⟨vs, hvs, hv⟩
    exact .rule _ _ _ (hr k t vs v (h1 _ ⟨vs, hvs, rfl⟩) hv)

theorem nodes_gty (hr : ∀ k t vs v, GTy R (mqlGrammar k) t (.list vs) → visitRule k t vs = .ok v → R k t v) :
    ∀ {ps : List (Peg Rule)} {nds : List (Node Rule)}, FitsAll ps nds → ∀ vs, visitNodes nds = .ok vs → GTys R ps (nodeTexts nds) vs
  | _, _, .nil => by
    simp only [visitNodes, Except.ok.injEq, forall_eq']
    exact .nil
  | _, _, .cons p ps nd nds h hs => by
    simp only [visitNodes, bind_eq_ok]
    rintro vs ⟨v, hv, us, hu, h'⟩
    cases h'
    rw [nodeTexts_cons]
    exact .cons _ _ _ _ _ _ (node_gty hr h _ hv) (nodes_gty hr hs _ hu)

theorem reps_gty (hr : ∀ k t vs v, GTy R (mqlGrammar k) t (.list vs) → visitRule k t vs = .ok v → R k t v) :
    ∀ {p : Peg Rule} {nds : List (Node Rule)}, FitsRep p nds → ∀ vs, visitNodes nds = .ok vs → GReps R p (nodeTexts nds) vs
  | _, _, .nil p => by
    simp only [visitNodes, Except.ok.injEq, forall_eq']
    exact .nil p
  | _, _, .cons p nd nds h hs => by
    simp only [visitNodes, bind_eq_ok]
    rintro vs ⟨v, hv, us, hu, h'⟩
    cases h'
    rw [nodeTexts_cons]
    exact .cons _ _ _ _ _ (node_gty hr h _ hv) (reps_gty hr hs _ hu)
end

end

end

end Verif
