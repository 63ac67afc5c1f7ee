import Verif.Lemmas.MqlCall

/-!
# Texts are parsed as they are to be read
-/

namespace Verif

open Spec (Arith Tree Link chainText Arg argsText addFilters addGroups optList)

section
variable [U : PyUnicode] [S : RegexSpace]

omit U S in
theorem isQuery_iff {q : MVal} : q.isQuery = true ↔ IsQuery q := by
  cases q <;> simp [MVal.isQuery, IsQuery]

/-- What is known of an operand without a sign. -/
structure Coef (t : Str) (x : MVal) : Prop where
  begins : Begins t
  opening : Opening t
  good : Good x
  term : (V.obj x).isTerm = true
  notMinus : NotAt (· == '-') t
  ev : ∀ R, Follow R → Ev (.rule .coefficient) (t ++ R) (.obj x) R

/-- What is known of an operand with or without a sign. -/
structure Signed (t : Str) (x : MVal) : Prop where
  begins : Begins t
  opening : Opening t
  good : Good x
  operand : Operand t x

omit U S in
theorem isQuery_term {x : MVal} (h : IsQuery x) : (V.obj x).isTerm = true := by
  cases x <;> first | rfl | cases h

omit U in
theorem Follow.no_key {R : Str} (h : Follow R) : NotAt isKeyChar R :=
  h.notAt fun c hc => ⟨(isKeyChar_bounds hc).1, (isKeyChar_bounds hc).2, by
    cases hf : isFollow c with
    | false => rfl
    | true => rcases isFollow_iff.1 hf with rfl | rfl | rfl | rfl | rfl | rfl <;> cases hc⟩

/-- A target with filters and columns. -/
theorem ev_filter {s b g R : Str} {q : MVal} {fs gs : List Val} (h : Ev (.rule .target) s (.obj q) (b ++ (g ++ R))) (hq : IsQuery q)
    (hgood : Good q) (hb : BlockText b fs) (hg : GroupText g gs) (hR : Follow R) :
    Good (addGroups gs (addFilters fs q)) ∧ Ev (.rule .filter) s (.obj (addGroups gs (addFilters fs q))) R := by
  obtain ⟨bv, hbev, hbp⟩ := ev_block hb (R := g ++ R) (fun _ => hg.notAt (by decide) (by decide) hR.no_brace)
  obtain ⟨gv, hgev, hgp⟩ := ev_group hg hR.no_key (.inr hR.no_by)
  have hk : Kids (mqlGrammar .filter) s [.obj q, bv, gv] R := Kids.seq (.cons h (.cons hbev (.cons hgev .nil)))
  obtain ⟨p, hp, hadd⟩ := hbp.add hq hgood
  have hgadd := hgp.add (hq.addFilters fs) (hgood.addFilters hbp.cond)
  refine ⟨(hgood.addFilters hbp.cond).addGroups hgp.1, hk.rule ?_⟩
  have hq' := isQuery_iff.2 hq
  simp only [visitRule, visitFilter, hp, ok_bind, V.asQuery, hq', if_true, hadd, hgadd]

/-- A call with columns. -/
theorem ev_target_call {t g R : Str} {q : MVal} {gs : List Val} (h : Call t q) (hg : GroupText g gs) (hk : NotAt isKeyChar R)
    (hby : Fails (.rule .groupBy) R) (hp : NotAt (· == '(') R) :
    Good (addGroups gs q) ∧ Ev (.rule .target) (t ++ (g ++ R)) (.obj (addGroups gs q)) R := by
  obtain ⟨gv, hgev, hgp⟩ := ev_group hg hk (.inr hby)
  have halts := h.ev (g ++ R) (hg.notAt (by decide) (by decide) hp)
  have hgadd := hgp.add h.query h.good
  have hq := isQuery_iff.2 h.query
  have hq' := isQuery_iff.2 (h.query.addGroups gs)
  have hk : Kids (mqlGrammar .function) (t ++ (g ++ R)) [.list [.obj q], gv] R := Kids.seq (.cons (Kids.alt halts).ev (.cons hgev .nil))
  have hf : Ev (.rule .function) (t ++ (g ++ R)) (.obj (addGroups gs q)) R :=
    hk.rule (by simp only [visitRule, visitFunction, V.item0, ok_bind, V.asQuery, hq, if_true, hgadd])
  have hname : ∀ d : Char, isNameChar d = false → NotAt (· == d) (t ++ (g ++ R)) := by
    intro d hd
    obtain ⟨n, r, hn, rfl⟩ := h.named
    rw [List.append_assoc]
    exact hn.notAt hd
  have hk' : Kids (mqlGrammar .target) (t ++ (g ++ R)) [.obj (addGroups gs q)] R :=
    Kids.alt (.there (fails_variable (hname _ rfl)) (.there (fails_nestedExpression (hname _ rfl)) (.here hf)))
  exact ⟨h.good.addGroups hgp.1, hk'.rule (by simp only [visitRule, visitTarget, unwrapTarget, ok_bind, targetQuery_query hq'])⟩

omit U S in
/-- What the texts that begin with a name have in common. -/
theorem named_parts {t r : Str} (h : ∃ n r, NameText n ∧ t = n ++ '(' :: r) : Begins (t ++ r) ∧ Opening (t ++ r) ∧
    NotAt (· == '-') (t ++ r) ∧ NotAt isDigit (t ++ r) ∧ NotAt (· == '"') (t ++ r) := by
  obtain ⟨n, r', hn, rfl⟩ := h
  have e : n ++ '(' :: r' ++ r = n ++ '(' :: (r' ++ r) := by simp
  rw [e]
  exact ⟨.inl ⟨n, _, hn, rfl⟩, hn.opening, hn.notAt rfl, notAt_append hn.ne hn.head, hn.notAt rfl⟩

theorem coef_plainCall {t g : Str} {x : MVal} {gs : List Val} (h : Call t x) (hg : GroupText g gs) : Coef (t ++ g) (addGroups gs x) := by
  obtain ⟨h1, h2, h3, _, _⟩ := named_parts (r := g) h.named
  have hgood : Good (addGroups gs x) := (ev_target_call h hg (R := []) .nil (fails_groupBy .nil) .nil).1
  refine ⟨h1, h2, hgood, isQuery_term (h.query.addGroups gs), h3, fun R hR => ?_⟩
  obtain ⟨_, _, _, h4, h5⟩ := named_parts (r := g ++ R) h.named
  rw [List.append_assoc]
  exact ev_coefficient_filter (ev_filter_plain (ev_target_call h hg hR.no_key hR.no_by hR.no_paren).2 (isQuery_iff.2 (h.query.addGroups gs))
    hR.no_brace (.inr hR.no_by)) h4 h5

theorem coef_filteredCall {t g b g' : Str} {x : MVal} {fs gs gs' : List Val} (h : Call t x) (hg : GroupText g gs) (hb : BlockText b fs)
    (hne : b ≠ []) (hg' : GroupText g' gs') : Coef (t ++ (g ++ (b ++ g'))) (addGroups gs' (addFilters fs (addGroups gs x))) := by
  obtain ⟨h1, h2, h3, _, _⟩ := named_parts (r := g ++ (b ++ g')) h.named
  obtain ⟨s, rfl⟩ := hb.head hne
  have hq := h.query.addGroups gs
  have key : ∀ R, Follow R → Good (addGroups gs' (addFilters fs (addGroups gs x))) ∧
      Ev (.rule .filter) (t ++ (g ++ ('{' :: s ++ (g' ++ R)))) (.obj (addGroups gs' (addFilters fs (addGroups gs x)))) R := by
    intro R hR
    obtain ⟨hgood, hev⟩ := ev_target_call h hg (R := '{' :: s ++ (g' ++ R)) (.cons rfl)
      (fails_groupBy_blanks (w := []) (by simp [Blanks]) (by decide) (by decide)) (notAt_cons (by decide))
    exact ev_filter hev hq hgood hb hg' hR
  refine ⟨h1, h2, (key [] NotAt.nil).1, isQuery_term ((hq.addFilters fs).addGroups gs'), h3, fun R hR => ?_⟩
  obtain ⟨_, _, _, h4, h5⟩ := named_parts (r := g ++ ('{' :: s ++ (g' ++ R))) h.named
  have e : t ++ (g ++ ('{' :: s ++ g')) ++ R = t ++ (g ++ ('{' :: s ++ (g' ++ R))) := by simp
  rw [e]
  exact ev_coefficient_filter (key R hR).2 h4 h5

theorem coef_paren {w w' t b g : Str} {x : MVal} {fs gs : List Val} (hw : Blanks w) (hw' : Blanks w') (hx : Expr t x) (hq : IsQuery x)
    (hb : BlockText b fs) (hg : GroupText g gs) : Coef ('(' :: (w ++ (t ++ (w' ++ ')' :: (b ++ g))))) (addGroups gs (addFilters fs x)) := by
  have hq' := isQuery_iff.2 hq
  have key : ∀ R, Follow R → Good (addGroups gs (addFilters fs x)) ∧
      Ev (.rule .filter) ('(' :: (w ++ (t ++ (w' ++ ')' :: (b ++ (g ++ R)))))) (.obj (addGroups gs (addFilters fs x))) R := by
    intro R hR
    have hn := ev_nestedExpression (R := b ++ (g ++ R)) hw (hx.begins.append _).visible hw' hq' (hx.ev _ (stop_close w' _ hw'))
    exact ev_filter (ev_target_nested hn hq' (notAt_cons (by decide))) hq hx.good hb hg hR
  refine ⟨.inr ⟨'(', _, rfl, by decide⟩, .inr ⟨[], _, rfl, by simp⟩, (key [] NotAt.nil).1, isQuery_term ((hq.addFilters fs).addGroups gs),
    notAt_cons (by decide), fun R hR => ?_⟩
  have e : '(' :: (w ++ (t ++ (w' ++ ')' :: (b ++ g)))) ++ R = '(' :: (w ++ (t ++ (w' ++ ')' :: (b ++ (g ++ R))))) := by simp
  rw [e]
  exact ev_coefficient_filter (key R hR).2 (.cons rfl) (notAt_cons (by decide))

theorem coef_number {t : Str} {f : PyFloat} (h : NumText t f) : Coef t (.val (.float f)) := by
  obtain ⟨c, r, hc, hd⟩ := h.head
  have hb := isDigit_bounds hd
  refine ⟨.inr ⟨c, r, hc, ?_, ?_, by omega, by omega⟩, h.opening, trivial, rfl, ?_, (operand_number h).1⟩
  · cases hl : isLowerChar c with
    | false => rfl
    | true => have := isLowerChar_bounds hl; omega
  · rintro rfl; cases hd
  · rw [hc]
    refine notAt_cons ?_
    rintro rfl
    cases hd

theorem Coef.signed {t : Str} {x : MVal} (h : Coef t x) : Signed t x :=
  ⟨h.begins, h.opening, h.good, .of_coefficient h.begins.ne h.begins.visible h.notMinus h.term h.ev⟩

theorem signed_minus {t : Str} {x y : MVal} (h : Coef t x) (hy : negateM x = some y) : Signed ('-' :: t) y := by
  refine ⟨.inr ⟨'-', t, rfl, by decide⟩, .cons (by decide) h.opening, ?_, operand_negate h.ev hy⟩
  unfold negateM at hy
  split at hy <;> simp only [Option.some.injEq, reduceCtorEq] at hy <;> subst hy
  · exact trivial
  · exact ⟨.inl rfl, .inl rfl⟩
  · exact ⟨.inl rfl, .inl rfl⟩

theorem links_opening {ls : List (Link MVal)} (h : ∀ l ∈ ls, Signed l.text l.value ∧ Blanks l.before ∧ Blanks l.after) :
    Opening (ls.flatMap Link.written) := by
  induction ls with
  | nil => exact .inl (by simp)
  | cons l ls ih =>
    simp only [List.mem_cons, forall_eq_or_imp] at h
    obtain ⟨⟨h1, h2, h3⟩, h⟩ := h
    rw [List.flatMap_cons, Link.written]
    refine .append (.append h2.opening (.cons ?_ (h3.opening.append h1.opening))) (ih h)
    cases l.op <;> decide

theorem expr_chain {t : Str} {x : MVal} {ls : List (Link MVal)} {tr : Tree MVal} (hx : Signed t x)
    (hl : ∀ l ∈ ls, Signed l.text l.value ∧ Blanks l.before ∧ Blanks l.after) (htr : tr.Tidy)
    (hflat : tr.flat = (x, ls.map fun l => (l.op, l.value))) : Expr (chainText t ls) tr.formula := by
  refine ⟨hx.begins.append _, hx.opening.append (links_opening hl), ?_, fun R hR => ?_⟩
  · cases tr with
    | leaf a =>
      simp only [Tree.flat, Prod.mk.injEq] at hflat
      rw [Tree.formula, hflat.1]
      exact hx.good
    | node op l r => exact ⟨.inl rfl, .inl rfl⟩
  · obtain ⟨tr', htr', hflat', hev⟩ := ev_chain hx.operand (fun l h => ⟨(hl l h).2.1, (hl l h).2.2, (hl l h).1.operand⟩) hR
    have : tr' = tr := htr'.unique htr (by rw [hflat', hflat])
    subst this
    exact hev

/-- What is known of a text of some kind. -/
def Known : Level → Str → MVal → Prop
  | .call => Call
  | .operand => Coef
  | .signed => Signed
  | .expr => Expr

/-- Texts are parsed as they are to be read. -/
theorem reads_known {k : Level} {t : Str} {x : MVal} (h : Reads k t x) : Known k t x := by
  induction h with
  | number h => exact coef_number h
  | aggregate hn hp hw hi => exact call_aggregate hn hp hw hi
  | function hn hp hw hw' hlast _ ha _ hb ih ihs => exact call_function hn hp hw hw' hlast ih ha fun a h => ⟨ihs a h, hb a h⟩
  | plainCall _ hg ih => exact coef_plainCall ih hg
  | filteredCall _ hg hb hne hg' ih => exact coef_filteredCall ih hg hb hne hg'
  | paren hw hw' _ hq hb hg ih => exact coef_paren hw hw' ih hq hb hg
  | plain _ ih => exact Coef.signed ih
  | minus _ hy ih => exact signed_minus ih hy
  | chain _ _ hb htr hflat ih ihl => exact expr_chain ih (fun l h => ⟨ihl l h, hb l h⟩) htr hflat

/-- The parser returns the value of the text. -/
theorem parseMql_reads {mql t : Str} {x : MVal} (hmql : stripP isSpace mql = t) (h : Reads .expr t x) (hq : IsQuery x) :
    parseMql mql = .ok x := by
  have hev := (reads_known h : Expr t x).ev [] ChainEnd.nil
  rw [List.append_nil, ← hmql] at hev
  rw [parseMql_of_ev hev, V.asQuery, isQuery_iff.2 hq, if_pos rfl]

end

end Verif
