import Verif.Spec.MqlFilter
import Verif.Lemmas.WF
import Verif.Lemmas.Literal
import Verif.Lemmas.Examples
import Verif.Model.Metrics

/-!
# C37: filters of metrics queries
-/

namespace Verif
open Spec

/-- The name starts with a letter or an underscore, as all column names do. -/
def NameHead (n : Str) : Prop := ∃ h u, n = h :: u ∧ (isAlpha h = true ∨ h = '_')

/-- Filters whose printed form is unambiguous: comparisons of a column without a colon in its name by `=` or `!=` with a
string or by `IN` or `NOT IN` with a sequence of strings, and Boolean combinations of at least two of them. -/
inductive TameFilter : Val → Prop
  | eq (c : ColumnObj) (o : Op) (s : Str) : (o = .eq ∨ o = .neq) → ':' ∉ c.name → NameHead c.name →
      TameFilter (.cond (.column c) o (.str s))
  | isIn (c : ColumnObj) (o : Op) (r : Val) (ss : List Str) : (o = .in_ ∨ o = .notIn) → ':' ∉ c.name →
      NameHead c.name →
      (r = .list (ss.map .str) ∨ r = .tuple (ss.map .str)) → TameFilter (.cond (.column c) o r)
  | bool (cls op k cs) : 2 ≤ cs.length → (∀ x ∈ cs, TameFilter x) → TameFilter (.boolCond cls op k cs)

theorem TameFilter.isCondition {v : Val} (h : TameFilter v) : v.isCondition = true := by cases h <;> rfl

theorem sep_inj {c : Char} {a b x y : Str} (ha : c ∉ a) (hb : c ∉ b) (h : a ++ c :: x = b ++ c :: y) :
    a = b ∧ x = y := by
  have := splitOnce_append (b := x) ha
  rw [h, splitOnce_append hb] at this
  simpa [eq_comm] using this

/-- Reading back texts that are joined with a separator. -/
theorem join_inj {α : Type} {T : α → Str → Prop} {S : α → α → Prop} {c : Char} {sep sep' : Str}
    (hs : ∃ d ds, sep = d :: ds ∧ d ≠ c) (hs' : ∃ d ds, sep' = d :: ds ∧ d ≠ c)
    (hsep : ∀ x y, sep ++ x = sep' ++ y → sep = sep') {r r' : Str} :
    ∀ {as bs : List α} {ps qs : List Str}, Spec.Pairwise T as ps → Spec.Pairwise T bs qs →
    (∀ a ∈ as, ∀ b, b ∈ bs → ∀ p q r r', T a p → T b q → p ++ r = q ++ r' → S a b ∧ r = r') →
    (∀ a, a ∈ as ∨ a ∈ bs → ∀ p r r', T a p → p ++ r ≠ c :: r') →
    joinWith sep ps ++ c :: r = joinWith sep' qs ++ c :: r' →
    Spec.Pairwise S as bs ∧ r = r' ∧ (2 ≤ as.length → sep = sep') := by
  intro as
  induction as with
  | nil =>
    intro bs ps qs hp hq hi hn h
    cases hp
    cases hq with
    | nil => simp [joinWith] at h; exact ⟨.nil, h, by simp⟩
    | @cons b q bs qs hb hq =>
      exfalso
      cases hq with
      | nil => simp only [joinWith, List.nil_append] at h; exact hn b (by simp) _ _ _ hb h.symm
      | cons _ _ =>
        simp only [joinWith, List.nil_append, List.append_assoc] at h
        exact hn b (by simp) _ _ _ hb h.symm
  | cons a as ih =>
    intro bs ps qs hp hq hi hn h
    cases hp with
    | @cons _ p _ ps ha hp =>
    cases hq with
    | nil =>
      exfalso
      cases hp with
      | nil => simp only [joinWith, List.nil_append] at h; exact hn a (by simp) _ _ _ ha h
      | cons _ _ =>
        simp only [joinWith, List.nil_append, List.append_assoc] at h
        exact hn a (by simp) _ _ _ ha h
    | @cons b q bs qs hb hq =>
      have key := fun r r' => hi a (by simp) b (by simp) p q r r' ha hb
      cases hp with
      | nil =>
        cases hq with
        | nil =>
          simp only [joinWith] at h
          obtain ⟨h1, h2⟩ := key _ _ h
          simp at h2
          exact ⟨.cons h1 .nil, h2, by simp⟩
        | cons _ _ =>
          exfalso
          simp only [joinWith, List.append_assoc] at h
          obtain ⟨_, h2⟩ := key _ _ h
          obtain ⟨d, ds, rfl, hd⟩ := hs'
          simp at h2
          exact hd h2.1.symm
      | @cons a2 p2 as ps ha2 hp =>
        cases hq with
        | nil =>
          exfalso
          simp only [joinWith, List.append_assoc] at h
          obtain ⟨_, h2⟩ := key _ _ h
          obtain ⟨d, ds, rfl, hd⟩ := hs
          simp at h2
          exact hd h2.1
        | @cons b2 q2 bs qs hb2 hq =>
          simp only [joinWith, List.append_assoc] at h
          obtain ⟨h1, h2⟩ := key _ _ h
          have he := hsep _ _ h2
          rw [he, List.append_cancel_left_eq] at h2
          rw [← he] at h2
          have := ih (bs := b2 :: bs) (.cons ha2 hp) (.cons hb2 hq)
            (fun x hx y hy => hi x (by simp only [List.mem_cons] at hx ⊢; exact .inr hx) y
              (by simp only [List.mem_cons] at hy ⊢; exact .inr hy))
            (fun x hx => hn x (by
              rcases hx with hx | hx
              · exact .inl (List.mem_cons_of_mem _ hx)
              · exact .inr (List.mem_cons_of_mem _ hx))) (by rw [he] at h2 ⊢; exact h2)
          exact ⟨.cons h1 this.1, this.2.1, fun _ => he⟩

/-- `t` is the MQL literal of the string. -/
def StrText (s t : Str) : Prop := t = strLit .mql s

theorem strText_inj (s s' : Str) {p q r r' : Str} (h : StrText s p) (h' : StrText s' q) (e : p ++ r = q ++ r') :
    s = s' ∧ r = r' := by
  cases h; cases h'
  have := read_strLit .mql s r
  rw [e, read_strLit] at this
  simpa [eq_comm] using this

theorem translateAll_strs (cfg : Cfg) : ∀ ss : List Str, translateAll cfg (ss.map .str) = .ok (ss.map (strLit cfg))
  | [] => rfl
  | s :: ss => by
    show translateAll cfg (.str s :: ss.map .str) = _
    rw [translateAll, translateAll_strs cfg ss]; rfl

theorem allScalar_strs : ∀ ss : List Str, allScalar (ss.map .str) = .ok true
  | [] => rfl
  | s :: ss => by
    show allScalar (.str s :: ss.map .str) = _
    simp [allScalar, isScalar, isLiteral, allScalar_strs ss]

theorem pairwise_strs : ∀ ss : List Str, Spec.Pairwise StrText ss (ss.map (strLit .mql))
  | [] => .nil
  | _ :: ss => .cons rfl (pairwise_strs ss)

theorem pairwise_eq {α : Type} {as bs : List α} (h : Spec.Pairwise Eq as bs) : as = bs := by
  induction h with
  | nil => rfl
  | cons h _ ih => rw [h, ih]

theorem seq_text {o : Op} (ho : o = .in_ ∨ o = .notIn) {r : Val} {ss : List Str}
    (hr : r = .list (ss.map .str) ∨ r = .tuple (ss.map .str)) :
    rhsMql .mql o r = .ok ('[' :: (joinWith c!", " (ss.map (strLit .mql)) ++ [']'])) := by
  rcases hr with rfl | rfl <;> rcases ho with rfl | rfl <;>
    simp [rhsMql, isUnary, Val.isCurried, Val.isColumn, isScalar, allScalar_strs, translate, translateAll_strs, arrayOpen,
      tupleOpen, seqClose, Cfg.mql]

theorem str_text {o : Op} (ho : o = .eq ∨ o = .neq) (s : Str) : rhsMql .mql o (.str s) = .ok (strLit .mql s) := by
  rcases ho with rfl | rfl <;> rfl

theorem rhs_inj {o : Op} {r s : Val} {ss ss' : List Str} {x y : Str}
    (h : joinWith c!", " (ss.map (strLit .mql)) ++ ']' :: x = joinWith c!", " (ss'.map (strLit .mql)) ++ ']' :: y)
    (hr : r = .list (ss.map .str) ∨ r = .tuple (ss.map .str)) (hs : s = .list (ss'.map .str) ∨ s = .tuple (ss'.map .str)) :
    SameRhs r s ∧ x = y := by
  have := join_inj (T := StrText) (S := Eq) (c := ']') (sep := c!", ") (sep' := c!", ") ⟨_, _, rfl, by decide⟩
    ⟨_, _, rfl, by decide⟩ (fun _ _ _ => rfl) (pairwise_strs ss) (pairwise_strs ss')
    (fun a _ b _ p q r r' hp hq e => strText_inj a b hp hq e)
    (by rintro a _ p r r' rfl; simp [strLit, Cfg.quote, Cfg.mql]) h
  cases pairwise_eq this.1
  exact ⟨.seq hr hs, this.2.1⟩

theorem head_ne {h : Char} (hh : isAlpha h = true ∨ h = '_') : h ≠ '!' ∧ h ≠ '(' ∧ h ≠ ')' ∧ h ≠ '}' := by
  rcases hh with hh | rfl
  · refine ⟨?_, ?_, ?_, ?_⟩ <;> rintro rfl <;> revert hh <;> decide
  · decide

theorem neg_head {o o' : Op} {n n' x y : Str} (hn : NameHead n)
    (hn' : NameHead n')
    (h : mqlNeg o ++ (n ++ x) = mqlNeg o' ++ (n' ++ y)) : mqlNeg o = mqlNeg o' ∧ n ++ x = n' ++ y := by
  obtain ⟨a, u, rfl, ha⟩ := hn
  obtain ⟨b, v, rfl, hb⟩ := hn'
  replace ha := (head_ne ha).1
  replace hb := (head_ne hb).1
  have h1 : ∀ o, mqlNeg o = ['!'] ∨ mqlNeg o = [] := by intro o; cases o <;> simp [mqlNeg]
  rcases h1 o with e | e <;> rcases h1 o' with e' | e' <;> rw [e, e'] at h ⊢
  · simpa using h
  · simp at h; exact absurd h.1.symm hb
  · simp at h; exact absurd h.1 ha
  · simpa using h

theorem all_pairwise : ∀ {cs : List Val} {ps : List Str}, (∀ c ∈ cs, c.isCondition = true) → condMqlAll .mql cs = .ok ps →
    Spec.Pairwise (fun c p => condMql .mql c = .ok p) cs ps
  | [], _, _, h => by simp only [condMqlAll, Except.ok.injEq] at h; subst h; exact .nil
  | c :: cs, ps, hc, h => by
    simp only [condMqlAll, hc c (by simp), if_true, bind_eq_ok, Except.ok.injEq] at h
    obtain ⟨t, ht, ts, hts, rfl⟩ := h
    exact .cons ht (all_pairwise (fun x hx => hc x (by simp [hx])) hts)

theorem colStr_mql (c : ColumnObj) : colStr .mql c = c.name := by
  unfold colStr; split <;> simp [Cfg.mql]

/-- The text of a comparison on a column. -/
theorem cond_text {c : ColumnObj} {o : Op} {r : Val} {t : Str} (h : condMql .mql (.cond (.column c) o r) = .ok t) :
    ∃ rs, rhsMql .mql o r = .ok rs ∧ t = mqlNeg o ++ (c.name ++ ':' :: rs) := by
  simp only [condMql, bind_eq_ok, Except.ok.injEq, translate, colStr_mql] at h
  obtain ⟨rs, hrs, ls, rfl, rfl⟩ := h
  exact ⟨rs, hrs, by simp⟩

/-- The text of a Boolean combination. -/
theorem bool_text {cls op k cs} {t : Str} (hc : ∀ c ∈ cs, TameFilter c) (h : condMql .mql (.boolCond cls op k cs) = .ok t) :
    ∃ ps, Spec.Pairwise (fun c p => condMql .mql c = .ok p) cs ps ∧
      t = '(' :: (joinWith ([' '] ++ op.value ++ [' ']) ps ++ [')']) := by
  simp only [condMql, bind_eq_ok, Except.ok.injEq] at h
  obtain ⟨ps, hps, rfl⟩ := h
  exact ⟨ps, all_pairwise (fun c hx => (hc c hx).isCondition) hps, by simp⟩

theorem cond_head (c : ColumnObj) (hn : NameHead c.name) (o : Op) (rs : Str) :
    ∃ x xs, mqlNeg o ++ (c.name ++ ':' :: rs) = x :: xs ∧ x ≠ '(' ∧ x ≠ ')' ∧ x ≠ '}' := by
  obtain ⟨a, u, hn, ha⟩ := hn
  have := head_ne ha
  rw [hn]
  cases o <;> simp only [mqlNeg, List.nil_append, List.cons_append] <;> refine ⟨_, _, rfl, ?_⟩ <;> simp [this]

/-- First character of the text of a tame filter. -/
theorem tame_head {v : Val} {t : Str} (h : TameFilter v) (ht : condMql .mql v = .ok t) :
    ∃ x xs, t = x :: xs ∧ x ≠ ')' ∧ x ≠ '}' := by
  cases h with
  | eq c o s _ _ hn =>
    obtain ⟨rs, _, rfl⟩ := cond_text ht
    obtain ⟨x, xs, h, _, h'⟩ := cond_head c hn o rs
    exact ⟨x, xs, h, h'⟩
  | isIn c o r ss _ _ hn _ =>
    obtain ⟨rs, _, rfl⟩ := cond_text ht
    obtain ⟨x, xs, h, _, h'⟩ := cond_head c hn o rs
    exact ⟨x, xs, h, h'⟩
  | bool cls op k cs _ hc =>
    obtain ⟨ps, _, rfl⟩ := bool_text hc ht
    exact ⟨_, _, rfl, by decide⟩

theorem mqlNeg_eq {o o' : Op} (h : mqlNeg o = mqlNeg o') :
    ((o = .eq ∨ o = .neq) → (o' = .eq ∨ o' = .neq) → o = o') ∧ ((o = .in_ ∨ o = .notIn) → (o' = .in_ ∨ o' = .notIn) → o = o') := by
  constructor <;> rintro (rfl | rfl) (rfl | rfl) <;> first | rfl | (simp [mqlNeg] at h)

/-- The text of a tame filter can be read back, whatever follows. -/
theorem tame_inj (v : Val) : ∀ w : Val, TameFilter v → TameFilter w → ∀ t t' r r' : Str, condMql .mql v = .ok t →
    condMql .mql w = .ok t' → t ++ r = t' ++ r' → SameComparison v w ∧ r = r' := by
  induction v using Val.childInd with
  | step v ih =>
    intro w hv hw t t' r r' ht ht' e
    have split : ∀ {c d : ColumnObj} {o o' : Op} {x y : Str}, NameHead c.name → NameHead d.name → ':' ∉ c.name → ':' ∉ d.name →
        mqlNeg o ++ (c.name ++ ':' :: x) = mqlNeg o' ++ (d.name ++ ':' :: y) →
        mqlNeg o = mqlNeg o' ∧ c.name = d.name ∧ x = y := by
      intro c d o o' x y h1 h2 h3 h4 h
      obtain ⟨h5, h6⟩ := neg_head h1 h2 h
      exact ⟨h5, sep_inj h3 h4 h6⟩
    have mixed : ∀ {c : ColumnObj} {o : Op} {rs x y : Str}, NameHead c.name →
        mqlNeg o ++ (c.name ++ ':' :: rs) ++ x ≠ '(' :: y := by
      intro c o rs x y h1 h
      obtain ⟨a, as, h2, h3, _⟩ := cond_head c h1 o rs
      rw [h2] at h; simp at h; exact h3 h.1
    cases hv with
    | eq c o s ho hc hn =>
      obtain ⟨rs, hrs, rfl⟩ := cond_text ht
      rw [str_text ho] at hrs; cases hrs
      cases hw with
      | eq d o' s' ho' hd hm =>
        obtain ⟨rs', hrs', rfl⟩ := cond_text ht'
        rw [str_text ho'] at hrs'; cases hrs'
        simp only [List.append_assoc, List.cons_append] at e
        obtain ⟨h1, h2, h3⟩ := split hn hm hc hd e
        obtain ⟨h4, h5⟩ := strText_inj s s' rfl rfl h3
        cases (mqlNeg_eq h1).1 ho ho'; subst h4
        exact ⟨.cond h2 (.str _), h5⟩
      | isIn d o' r' ss ho' hd hm hr =>
        obtain ⟨rs', hrs', rfl⟩ := cond_text ht'
        rw [seq_text ho' hr] at hrs'; cases hrs'
        simp only [List.append_assoc, List.cons_append] at e
        obtain ⟨h1, h2, h3⟩ := split hn hm hc hd e
        simp [strLit, Cfg.quote, Cfg.mql] at h3
      | bool cls op k cs _ hcs =>
        obtain ⟨ps, _, rfl⟩ := bool_text hcs ht'
        exact absurd e (mixed hn)
    | isIn c o rv ss ho hc hn hr =>
      obtain ⟨rs, hrs, rfl⟩ := cond_text ht
      rw [seq_text ho hr] at hrs; cases hrs
      cases hw with
      | eq d o' s' ho' hd hm =>
        obtain ⟨rs', hrs', rfl⟩ := cond_text ht'
        rw [str_text ho'] at hrs'; cases hrs'
        simp only [List.append_assoc, List.cons_append] at e
        obtain ⟨h1, h2, h3⟩ := split hn hm hc hd e
        simp [strLit, Cfg.quote, Cfg.mql] at h3
      | isIn d o' rv' ss' ho' hd hm hr' =>
        obtain ⟨rs', hrs', rfl⟩ := cond_text ht'
        rw [seq_text ho' hr'] at hrs'; cases hrs'
        simp only [List.append_assoc, List.cons_append] at e
        obtain ⟨h1, h2, h3⟩ := split hn hm hc hd e
        simp only [List.cons.injEq, true_and, List.nil_append] at h3
        obtain ⟨h4, h5⟩ := rhs_inj (o := o) h3 hr hr'
        cases (mqlNeg_eq h1).2 ho ho'
        exact ⟨.cond h2 h4, h5⟩
      | bool cls op k cs _ hcs =>
        obtain ⟨ps, _, rfl⟩ := bool_text hcs ht'
        exact absurd e (mixed hn)
    | bool cls op k cs hl hcs =>
      obtain ⟨ps, hps, rfl⟩ := bool_text hcs ht
      cases hw with
      | eq d o' s' ho' hd hm =>
        obtain ⟨rs', hrs', rfl⟩ := cond_text ht'
        exact absurd e.symm (mixed hm)
      | isIn d o' r' ss ho' hd hm hr =>
        obtain ⟨rs', hrs', rfl⟩ := cond_text ht'
        exact absurd e.symm (mixed hm)
      | bool cls' op' k' ds hl' hds =>
        obtain ⟨qs, hqs, rfl⟩ := bool_text hds ht'
        simp only [List.cons_append, List.append_assoc, List.cons.injEq, true_and, List.nil_append] at e
        have := join_inj (T := fun c p => condMql .mql c = .ok p) (S := SameComparison) (c := ')')
          ⟨' ', _, rfl, by decide⟩ ⟨' ', _, rfl, by decide⟩
          (by intro x y h; cases op <;> cases op' <;> simp [BooleanOp.value] at h ⊢) hps hqs
          (fun a ha b hb p q r r' h1 h2 h3 => ih a ha b (hcs a ha) (hds b hb) p q r r' h1 h2 h3)
          (by
            intro a ha p x y h1 h2
            obtain ⟨z, zs, rfl, hz⟩ := tame_head (ha.elim (hcs a) (hds a)) h1
            simp at h2; exact hz.1 h2.1) e
        obtain ⟨h1, h2, h3⟩ := this
        have : op = op' := by
          have := h3 hl
          cases op <;> cases op' <;> simp [BooleanOp.value] at this ⊢
        subst this
        exact ⟨.bool h1, h2⟩

section
variable [U : PyUnicode]

/-- **C37.** Whether a filter condition is a negated comparison can be read off its text: exactly the negated
comparisons start with an exclamation mark. This holds for all conditions. -/
theorem C37_negation_visible (l : Val) (o : Op) (r : Val) (hb : Built (.cond l o r)) (t : Str)
    (h : condMql .mql (.cond l o r) = .ok t) : t.head? = some '!' ↔ Negated o := by
  have hw := built_wf hb
  cases hw with
  | literal _ h => cases h
  | cond _ _ _ hl _ hcf _ _ =>
    simp only [condMql, bind_eq_ok, Except.ok.injEq] at h
    obtain ⟨rs, _, ls, hls, rfl⟩ := h
    have : ∃ a u, ls = a :: u ∧ a ≠ '!' := by
      cases hcf with
      | column c =>
        have := hl.column_inv.1.name
        simp only [translate, colStr_mql, Except.ok.injEq] at hls
        subst hls
        obtain ⟨a, u, hn, ha⟩ : NameHead c.name := by
          rcases columnNameRe_iff.1 this with h | ⟨b, h, e⟩
          · rcases h with ⟨a, u, e, ha, _⟩ | ⟨i, k, ⟨a, u, e, ha, _⟩, _, e'⟩
            · exact ⟨a, u, e, ha⟩
            · subst e; exact ⟨a, _, e', ha⟩
          · rcases h with ⟨a, u, rfl, ha, _⟩ | ⟨i, k, ⟨a, u, rfl, ha, _⟩, _, rfl⟩
            · exact ⟨a, _, e, ha⟩
            · exact ⟨a, _, e, ha⟩
        exact ⟨a, u, hn, (head_ne ha).1⟩
      | curried f n ik is pk ps al =>
        simp only [translate, bind_eq_ok, Except.ok.injEq] at hls
        obtain ⟨i, _, p, _, rfl⟩ := hls
        cases hl with
        | literal _ h => cases h
        | curried _ _ _ _ _ _ _ _ _ _ _ _ _ hn _ =>
          rcases hn with ⟨a, u, rfl, ha, _⟩ | ⟨b, ⟨a, u, rfl, ha, _⟩, rfl⟩
          · exact ⟨a, _, rfl, (head_ne (.inl ha)).1⟩
          · exact ⟨a, _, rfl, (head_ne (.inl ha)).1⟩
    obtain ⟨a, u, rfl, ha⟩ := this
    cases o <;> simp [mqlNeg, Negated, ha]
end

/-- **C37** (on a fragment). Two filters of the unambiguous fragment that print as the same text are the same comparison.
Missing: comparisons by `<`, `>`, `<=`, `>=`, `LIKE`, `IS NULL` and so on, for which the code violates the property (see
`C37_fails_for_other_operators`), and right-hand sides other than strings (for which
see `C37_same_text_same_scalars_partial`). -/
theorem C37_same_text_same_comparison_partial (v w : Val) (hv : TameFilter v) (hw : TameFilter w) (t : Str)
    (h : condMql .mql v = .ok t) (h' : condMql .mql w = .ok t) : SameComparison v w :=
  (tame_inj v w hv hw t t [] [] h h' rfl).1

/-- The same for the filters of a timeseries or formula: a list of filters. -/
theorem C37_filters_same_text_partial (vs ws : List Val) (hv : ∀ v ∈ vs, TameFilter v) (hw : ∀ w ∈ ws, TameFilter w) (t : Str)
    (h : filtersMql (.list vs) = .ok t) (h' : filtersMql (.list ws) = .ok t) : Spec.Pairwise SameComparison vs ws := by
  simp only [filtersMql, Val.given, if_true, iterItems, Val.seq?, ok_bind, bind_eq_ok, Except.ok.injEq] at h h'
  obtain ⟨ps, hps, rfl⟩ := h
  obtain ⟨qs, hqs, e⟩ := h'
  simp only [List.cons_append, List.nil_append, List.cons.injEq, true_and] at e
  refine (join_inj (T := fun c p => condMql .mql c = .ok p) (c := '}') (sep := c!" AND ") (sep' := c!" AND ")
    ⟨' ', _, rfl, by decide⟩ ⟨' ', _, rfl, by decide⟩ (fun _ _ _ => rfl)
    (all_pairwise (fun c hc => (hv c hc).isCondition) hps) (all_pairwise (fun c hc => (hw c hc).isCondition) hqs)
    (fun a ha b hb p q r r' h1 h2 h3 => tame_inj a b (hv a ha) (hw b hb) p q r r' h1 h2 h3) ?_ e.symm).1
  intro a ha p x y h1 h2
  obtain ⟨z, zs, rfl, hz⟩ := tame_head (ha.elim (hv a) (hw a)) h1
  simp at h2; exact hz.2 h2.1

section Examples
open Ex

/-- `(a:"x" OR !b:["y", "z"])`. -/
def someFilter : Val :=
  .boolCond .or .or .list [.cond (col c!"a") .eq (.str c!"x"), .cond (col c!"b") .notIn (.tuple [.str c!"y", .str c!"z"])]

example : condMql .mql someFilter = .ok c!"(a:\"x\" OR !b:[\"y\", \"z\"])" := rfl

example : TameFilter someFilter := by
  refine .bool _ _ _ _ (by decide) ?_
  intro x hx
  simp only [List.mem_cons, List.not_mem_nil, or_false] at hx
  rcases hx with rfl | rfl
  · exact .eq _ _ _ (.inl rfl) (by decide) ⟨_, _, rfl, by decide⟩
  · exact .isIn _ _ _ [c!"y", c!"z"] (.inr rfl) (by decide) ⟨_, _, rfl, by decide⟩ (.inr rfl)

/-- The same text from a list and a tuple: the same comparison. -/
example : SameComparison (.cond (col c!"b") .notIn (.tuple [.str c!"y"])) (.cond (col c!"b") .notIn (.list [.str c!"y"])) :=
  .cond rfl (.seq (.inr rfl) (.inl rfl))

example : condMql .mql (.cond (col c!"a") .neq (.str c!"x")) = .ok c!"!a:\"x\"" := rfl

/-- `a > "5"` and `a = "5"`. -/
theorem cond_built (o : Op) (ho : o = .gt ∨ o = .eq) : Built (.cond (col c!"a") o (.str c!"5")) :=
  .condition (U := asciiUnicode) (col c!"a") (.op o) (.str c!"5") _ (col_built _ rfl) (.op o) (.literal _ (.str _))
    (by rcases ho with rfl | rfl <;> rfl)

/-- The property does not hold for all filters: `a > "5"` and `a = "5"` print as the same text. -/
theorem C37_fails_for_other_operators : ∃ v w t, Built v ∧ Built w ∧ condMql .mql v = .ok t ∧ condMql .mql w = .ok t ∧
    ¬ SameComparison v w :=
  ⟨.cond (col c!"a") .gt (.str c!"5"), .cond (col c!"a") .eq (.str c!"5"), c!"a:\"5\"", cond_built _ (.inl rfl),
    cond_built _ (.inr rfl), rfl, rfl, by rintro ⟨⟩⟩

/-- Nor for `LIKE`: only the parser tells it from `=`, by the star at the end. -/
example : condMql .mql (.cond (col c!"a") .like (.str c!"foo*")) = condMql .mql (.cond (col c!"a") .eq (.str c!"foo*")) := rfl

/-- Nor for colons in column names. -/
example : condMql .mql (.cond (col c!"a:b") .eq (col c!"c")) = condMql .mql (.cond (col c!"a") .eq (col c!"b:c")) := rfl

end Examples

end Verif
