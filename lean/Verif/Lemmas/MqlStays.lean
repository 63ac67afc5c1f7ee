import Verif.Lemmas.MqlOperand

/-!
# Expressions that do not get past a parenthesis
-/

namespace Verif

section
variable [U : PyUnicode] [S : RegexSpace]

/-- A sequence that begins with something that never matches, expressions and their parts that keep within the set `D` of
texts. -/
inductive Stays (D : Str → Prop) : Peg Rule → Prop
  | lit {l : Str} (h : ∀ r, D (l ++ r) → D r) : Stays D (.lit l)
  | re {e : Regex} (h : ∀ s t, D s → t ∈ e.run s → D t) : Stays D (.re e)
  | seq {ps : List (Peg Rule)} (h : ∀ p ∈ ps, Stays D p) : Stays D (.seq ps)
  | alt {ps : List (Peg Rule)} (h : ∀ p ∈ ps, Stays D p) : Stays D (.alt ps)
  | star {p : Peg Rule} (h : Stays D p) : Stays D (.star p)
  | opt {p : Peg Rule} (h : Stays D p) : Stays D (.opt p)
  | rule {k : Rule} (h : Stays D (mqlGrammar k)) : Stays D (.rule k)

omit U in
theorem seqWith_stays {D : Str → Prop} {f : Peg Rule → Str → Match (Node Rule)} : ∀ (ps : List (Peg Rule)),
    (∀ p ∈ ps, ∀ s nd r, f p s = .ok nd r → D s → D r) → ∀ s nds r, seqWith f ps s = .ok nds r → D s → D r := by
  intro ps
  induction ps with
  | nil => intro _ s nds r h; simp only [seqWith, Match.ok.injEq] at h; rw [h.2]; exact id
  | cons p ps ih =>
    intro hf s nds r h hs
    simp only [List.mem_cons, forall_eq_or_imp] at hf
    simp only [seqWith] at h
    cases hp : f p s with
    | out => simp [hp] at h
    | fail => simp [hp] at h
    | ok nd s' =>
      simp only [hp] at h
      cases hq : seqWith f ps s' with
      | out => simp [hq, Match.cons] at h
      | fail => simp [hq, Match.cons] at h
      | ok nds' r' =>
        simp only [hq, Match.cons, Match.ok.injEq] at h
        rw [← h.2]
        exact ih hf.2 s' nds' r' hq (hf.1 s nd s' hp hs)

omit U in
theorem altWith_stays {D : Str → Prop} {f : Peg Rule → Str → Match (Node Rule)} : ∀ (ps : List (Peg Rule)),
    (∀ p ∈ ps, ∀ s nd r, f p s = .ok nd r → D s → D r) → ∀ s nds r, altWith f ps s = .ok nds r → D s → D r := by
  intro ps
  induction ps with
  | nil => intro _ s nds r h; simp [altWith] at h
  | cons p ps ih =>
    intro hf s nds r h hs
    simp only [List.mem_cons, forall_eq_or_imp] at hf
    simp only [altWith] at h
    cases hp : f p s with
    | out => simp [hp] at h
    | fail => simp only [hp] at h; exact ih hf.2 s nds r h hs
    | ok nd s' =>
      simp only [hp, Match.ok.injEq] at h
      rw [← h.2]
      exact hf.1 s nd s' hp hs

omit U in
theorem starWith_stays {D : Str → Prop} {f : Str → Match (Node Rule)} (hf : ∀ s nd r, f s = .ok nd r → D s → D r) :
    ∀ k s nds r, starWith f k s = .ok nds r → D s → D r := by
  intro k
  induction k with
  | zero => intro s nds r h; simp only [starWith, Match.ok.injEq] at h; rw [h.2]; exact id
  | succ k ih =>
    intro s nds r h hs
    cases s with
    | nil => simp only [starWith, Match.ok.injEq] at h; rw [← h.2]; exact hs
    | cons c cs =>
      simp only [starWith] at h
      cases hp : f (c :: cs) with
      | out => simp [hp] at h
      | fail => simp only [hp, Match.ok.injEq] at h; rw [← h.2]; exact hs
      | ok nd s' =>
        simp only [hp] at h
        split at h
        · cases hq : starWith f k s' with
          | out => simp [hq, Match.cons] at h
          | fail => simp [hq, Match.cons] at h
          | ok nds' r' =>
            simp only [hq, Match.cons, Match.ok.injEq] at h
            rw [← h.2]
            exact ih s' nds' r' hq (hf _ nd s' hp hs)
        · simp only [Match.ok.injEq] at h
          rw [← h.2]
          exact hf _ nd s' hp hs

omit U in
theorem Stays.run {D : Str → Prop} {p : Peg Rule} (h : Stays D p) : ∀ n s nd r, pegRun mqlGrammar n p s = .ok nd r → D s → D r := by
  induction h with
  | @lit l h =>
    intro n s nd r hr hs
    cases n with
    | zero => simp [pegRun] at hr
    | succ n =>
      simp only [pegRun, matchLit] at hr
      split at hr
      · rename_i hp
        simp only [Match.map, Match.ok.injEq] at hr
        rw [List.isPrefixOf_iff_prefix] at hp
        obtain ⟨t, rfl⟩ := hp
        rw [← hr.2, List.drop_left]
        exact h t hs
      · simp [Match.map] at hr
  | @re e h =>
    intro n s nd r hr hs
    cases n with
    | zero => simp [pegRun] at hr
    | succ n =>
      simp only [pegRun, matchRe] at hr
      split at hr
      · simp [Match.map] at hr
      · rename_i t ts ht
        simp only [Match.map, Match.ok.injEq] at hr
        rw [← hr.2]
        exact h s t hs (by rw [ht]; simp)
  | @seq ps h ih =>
    intro n s nd r hr hs
    cases n with
    | zero => simp [pegRun] at hr
    | succ n =>
      simp only [pegRun] at hr
      cases hp : seqWith (pegRun mqlGrammar n) ps s with
      | out => simp [hp, Match.map] at hr
      | fail => simp [hp, Match.map] at hr
      | ok nds r' =>
        simp only [hp, Match.map, Match.ok.injEq] at hr
        rw [← hr.2]
        exact seqWith_stays ps (fun p hp s nd r => ih p hp n s nd r) s nds r' hp hs
  | @alt ps h ih =>
    intro n s nd r hr hs
    cases n with
    | zero => simp [pegRun] at hr
    | succ n =>
      simp only [pegRun] at hr
      cases hp : altWith (pegRun mqlGrammar n) ps s with
      | out => simp [hp, Match.map] at hr
      | fail => simp [hp, Match.map] at hr
      | ok nds r' =>
        simp only [hp, Match.map, Match.ok.injEq] at hr
        rw [← hr.2]
        exact altWith_stays ps (fun p hp s nd r => ih p hp n s nd r) s nds r' hp hs
  | @star p h ih =>
    intro n s nd r hr hs
    cases n with
    | zero => simp [pegRun] at hr
    | succ n =>
      simp only [pegRun] at hr
      cases hp : starWith (pegRun mqlGrammar n p) s.length s with
      | out => simp [hp, Match.map] at hr
      | fail => simp [hp, Match.map] at hr
      | ok nds r' =>
        simp only [hp, Match.map, Match.ok.injEq] at hr
        rw [← hr.2]
        exact starWith_stays (fun s nd r => ih n s nd r) _ s nds r' hp hs
  | @opt p h ih =>
    intro n s nd r hr hs
    cases n with
    | zero => simp [pegRun] at hr
    | succ n =>
      simp only [pegRun] at hr
      cases hp : optWith (pegRun mqlGrammar n p) s with
      | out => simp [hp, Match.map] at hr
      | fail => simp [hp, Match.map] at hr
      | ok nds r' =>
        simp only [hp, Match.map, Match.ok.injEq] at hr
        rw [← hr.2]
        cases s with
        | nil => simp only [optWith, Match.ok.injEq] at hp; rw [← hp.2]; exact hs
        | cons c cs =>
          simp only [optWith] at hp
          cases hq : pegRun mqlGrammar n p (c :: cs) with
          | out => simp [hq] at hp
          | fail => simp only [hq, Match.ok.injEq] at hp; rw [← hp.2]; exact hs
          | ok nd' r'' =>
            simp only [hq, Match.ok.injEq] at hp
            rw [← hp.2]
            exact ih n _ nd' r'' hq hs
  | @rule k h ih =>
    intro n s nd r hr hs
    cases n with
    | zero => simp [pegRun] at hr
    | succ n =>
      simp only [pegRun] at hr
      cases hp : pegRun mqlGrammar n (mqlGrammar k) s with
      | out => simp [hp, Match.map] at hr
      | fail => simp [hp, Match.map] at hr
      | ok nd' r' =>
        simp only [hp, Match.map, Match.ok.injEq] at hr
        rw [← hr.2]
        exact ih n s nd' r' hp hs

omit U in
/-- Every expression of the grammar matches or fails. -/
theorem pa_or_fails (k : Rule) (s : Str) : (∃ r, Pa (.rule k) s r) ∨ Fails (.rule k) s := by
  have h := pegRun_enough (r := k) (s := s) (Nat.le_refl (20 * s.length + 20))
  cases hr : pegRun mqlGrammar (20 * s.length + 20) (.rule k) s with
  | out => exact absurd hr h
  | fail => exact .inr ⟨_, hr⟩
  | ok nd r => exact .inl ⟨r, nd, _, hr⟩

end

end Verif
