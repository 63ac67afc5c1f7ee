import Verif.Lemmas.MqlParse
import Verif.Spec.MqlArith

/-!
# Chains of arithmetic operators
-/

namespace Verif

open Spec (Arith Tree Link chainText)

section
variable [U : PyUnicode] [S : RegexSpace]

/-- The characters that may follow an operand, after blanks. -/
def isFollow (c : Char) : Bool := c == '+' || c == '-' || c == '*' || c == '/' || c == ')' || c == ','

/-- `R` is what may follow an operand: blanks and then an operator, a closing parenthesis, a comma or the end. -/
def Follow (R : Str) : Prop := NotAt (fun c => !isFollow c) (skip R)

/-- `R` is what may follow an arithmetic expression: blanks and then a closing parenthesis, a comma or the end. -/
def ChainEnd (R : Str) : Prop := NotAt (fun c => !(c == ')' || c == ',')) (skip R)

/-- The text `t` is parsed as an operand with the value `x` wherever an operand may be. -/
structure Operand (t : Str) (x : MVal) : Prop where
  ne : t ≠ []
  visible : NotAt S.isSpace t
  term : (V.obj x).isTerm = true
  ev : ∀ R, Follow R → Ev (.rule .unary) (t ++ R) (.obj x) R

omit U S in
theorem NotAt.mono {p q : Char → Bool} {s : Str} (h : NotAt p s) (hq : ∀ c, q c = true → p c = true) : NotAt q s := by
  intro c hc
  have := h c hc
  cases hqc : q c with
  | false => rfl
  | true => rw [hq c hqc] at this; cases this

omit U in
theorem ChainEnd.follow {R : Str} (h : ChainEnd R) : Follow R := by
  refine NotAt.mono h fun c hc => ?_
  simp only [isFollow, Bool.not_eq_true', Bool.or_eq_false_iff] at hc ⊢
  exact ⟨hc.1.2, hc.2⟩

omit U in
theorem ChainEnd.nil : ChainEnd ([] : Str) := NotAt.nil

omit U in
/-- What follows an operand does not begin with a visible character that is none of those that may follow. -/
theorem Follow.notAt {p : Char → Bool} {R : Str} (h : Follow R)
    (hp : ∀ c, p c = true → 33 ≤ c.toNat ∧ c.toNat < 127 ∧ isFollow c = false) : NotAt p R := by
  intro c hc
  cases hpc : p c with
  | false => rfl
  | true =>
    obtain ⟨h1, h2, h3⟩ := hp c hpc
    cases R with
    | nil => simp at hc
    | cons d R =>
      simp only [List.head?_cons, Option.mem_def, Option.some.injEq] at hc
      subst hc
      rw [Follow, skip_of_notAt (.cons (S.visible d h1 h2))] at h
      have := h d (by simp)
      simp [h3] at this

omit U in
/-- The same behind the blanks. -/
theorem Follow.notAt_skip {p : Char → Bool} {R : Str} (h : Follow R) (hp : ∀ c, p c = true → isFollow c = false) :
    NotAt p (skip R) := NotAt.mono h fun c hc => by rw [hp c hc]; rfl

omit U in
theorem follow_link (l : Link MVal) (R : Str) (hb : ∀ c ∈ l.before, S.isSpace c = true) : Follow (l.written ++ R) := by
  rw [Follow, Link.written, List.append_assoc, List.cons_append, skip_append hb]
  · exact .cons (by cases l.op <;> rfl)
  · exact .cons (S.visible _ (by cases l.op <;> decide) (by cases l.op <;> decide))

omit U S in
theorem char_visible (op : Arith) : 33 ≤ op.char.toNat ∧ op.char.toNat < 127 := by cases op <;> decide

/-- The rule of an operator. -/
def opRule : Arith → Rule
  | .plus | .minus => .exprOp
  | .times | .divide => .termOp

theorem ev_op (op : Arith) (r : Str) : Ev (.rule (opRule op)) (op.char :: r) (.str op.name) r := by
  cases op
  · exact ev_plus r
  · exact ev_minus r
  · exact ev_times r
  · exact ev_divide r

/-- A link is well written. -/
structure GoodLink (l : Link MVal) : Prop where
  before : ∀ c ∈ l.before, S.isSpace c = true
  after : ∀ c ∈ l.after, S.isSpace c = true
  operand : Operand l.text l.value

/-- The result for an operator and its right operand. -/
def linkV (op : Arith) (m : MVal) : V := .list [.list [], .str op.name, .list [], .obj m]

/-- The end of a list of operators and operands that the grammar repeats. -/
theorem star_stop {k p : Rule} {R : Str} (h : Fails (.rule k) (skip R)) : R = [] ∨ Fails (.seq [ws, .rule k, ws, .rule p]) R :=
  .inr (.seq (.pa (ev_ws R).pa (.here h)))

theorem ev_link {l : Link MVal} (h : GoodLink l) {p : Rule} {m : MVal} {t R : Str}
    (hp : Ev (.rule p) (l.text ++ t) (.obj m) R) :
    Ev (.seq [ws, .rule (opRule l.op), ws, .rule p]) (l.written ++ t) (linkV l.op m) R := by
  have e : l.written ++ t = l.before ++ (l.op.char :: (l.after ++ (l.text ++ t))) := by
    simp [Link.written, List.append_assoc]
  rw [e]
  refine (Kids.seq (.cons (ev_ws_some h.before (notAt_visible (char_visible l.op))) (.cons (ev_op l.op _)
    (.cons (ev_ws_some h.after ?_) (.cons hp .nil))))).ev
  intro c hc
  refine h.operand.visible c ?_
  cases ht : l.text with
  | nil => exact absurd ht h.operand.ne
  | cons d u => simpa [ht] using hc

/-- The tree of a product. -/
def termTree (t : Tree MVal) : List (Link MVal) → Tree MVal
  | [] => t
  | l :: ls => termTree (.node l.op t (.leaf l.value)) ls

omit U S in
theorem foldTerms_terms : ∀ (ls : List (Link MVal)) (t : Tree MVal),
    foldTerms (.obj t.formula) (ls.map fun l => linkV l.op l.value) = .ok (.obj (termTree t ls).formula) := by
  intro ls
  induction ls with
  | nil => intro t; rfl
  | cons l ls ih => intro t; exact ih (.node l.op t (.leaf l.value))

omit U S in
theorem written_length (l : Link MVal) (t : Str) : t.length < (l.written ++ t).length := by
  simp only [Link.written, List.length_append, List.length_cons]; omega

theorem follow_links {ls : List (Link MVal)} (h : ∀ l ∈ ls, GoodLink l) {R : Str} (hR : Follow R) :
    Follow (ls.flatMap Link.written ++ R) := by
  cases ls with
  | nil => exact hR
  | cons l ls =>
    rw [List.flatMap_cons, List.append_assoc]
    exact follow_link l _ (h l (by simp)).before

theorem star_terms : ∀ (ls : List (Link MVal)) (R : Str), (∀ l ∈ ls, GoodLink l) → (∀ l ∈ ls, l.op.level = 2) → Follow R →
    NotAt (fun c => c == '*' || c == '/') (skip R) →
    EvStar (.seq [ws, .rule .termOp, ws, .rule .unary]) (ls.flatMap Link.written ++ R) (ls.map fun l => linkV l.op l.value) R := by
  intro ls R
  induction ls with
  | nil => intro _ _ _ h; exact .stop (star_stop (fails_termOp h))
  | cons l ls ih =>
    intro hg hl hR h
    rw [List.flatMap_cons, List.append_assoc]
    simp only [List.mem_cons, forall_eq_or_imp] at hg hl
    have hop : opRule l.op = .termOp := by
      have := hl.1
      cases ho : l.op <;> simp_all [Arith.level, opRule]
    refine .cons ?_ (written_length l _) (ih hg.2 hl.2 hR h)
    rw [← hop]
    exact ev_link hg.1 (hg.1.operand.ev _ (follow_links hg.2 hR))

/-- A product is parsed. -/
theorem ev_term {t : Str} {x : MVal} (ho : Operand t x) {ls : List (Link MVal)} {R : Str} (hg : ∀ l ∈ ls, GoodLink l)
    (hl : ∀ l ∈ ls, l.op.level = 2) (hR : Follow R) (h : NotAt (fun c => c == '*' || c == '/') (skip R)) :
    Ev (.rule .term) (t ++ (ls.flatMap Link.written ++ R)) (.obj (termTree (.leaf x) ls).formula) R := by
  have hk : Kids (mqlGrammar .term) (t ++ (ls.flatMap Link.written ++ R)) [.obj x, .list (ls.map fun l => linkV l.op l.value)] R :=
    Kids.seq (.cons (ho.ev _ (follow_links hg hR)) (.cons (Kids.star (star_terms ls R hg hl hR h)).ev .nil))
  exact hk.rule (by
    simp only [visitRule, visitTerms, ho.term, if_true]
    exact foldTerms_terms ls (.leaf x))

omit U S in
theorem termTree_isTerm {t : Tree MVal} (h : (V.obj t.formula).isTerm = true) (ls : List (Link MVal)) :
    (V.obj (termTree t ls).formula).isTerm = true := by
  induction ls generalizing t with
  | nil => exact h
  | cons l ls ih => exact ih rfl

omit U S in
theorem termTree_flat (ls : List (Link MVal)) (t : Tree MVal) :
    (termTree t ls).flat = (t.flat.1, t.flat.2 ++ ls.map fun l => (l.op, l.value)) := by
  induction ls generalizing t with
  | nil => simp [termTree]
  | cons l ls ih => simp [termTree, ih, Tree.flat]

omit U S in
theorem termTree_tidy (ls : List (Link MVal)) (t : Tree MVal) (h : t.Tidy) (hl : ∀ l ∈ ls, l.op.level = 2) (ht : 2 ≤ t.level) :
    (termTree t ls).Tidy ∧ 2 ≤ (termTree t ls).level := by
  induction ls generalizing t with
  | nil => exact ⟨h, ht⟩
  | cons l ls ih =>
    simp only [List.mem_cons, forall_eq_or_imp] at hl
    refine ih _ ⟨h, trivial, by rw [hl.1]; exact ht, by rw [hl.1]; simp [Tree.level]⟩ hl.2 ?_
    simp [Tree.level, hl.1]

omit U S in
/-- A chain begins with a product. -/
theorem split_links (ls : List (Link MVal)) :
    ∃ a b, ls = a ++ b ∧ (∀ l ∈ a, l.op.level = 2) ∧ ∀ l ∈ b.head?, l.op.level = 1 := by
  induction ls with
  | nil => exact ⟨[], [], rfl, by simp, by simp⟩
  | cons l ls ih =>
    by_cases h : l.op.level = 2
    · obtain ⟨a, b, rfl, ha, hb⟩ := ih
      refine ⟨l :: a, b, rfl, ?_, hb⟩
      simp only [List.mem_cons, forall_eq_or_imp]
      exact ⟨h, ha⟩
    · refine ⟨[], l :: ls, rfl, by simp, ?_⟩
      simp only [List.head?_cons, Option.mem_def, Option.some.injEq, forall_eq']
      revert h
      cases l.op <;> simp [Arith.level]

omit U in
theorem ChainEnd.not_mul {R : Str} (h : ChainEnd R) : NotAt (fun c => c == '*' || c == '/') (skip R) := by
  refine NotAt.mono h fun c hc => ?_
  simp only [Bool.or_eq_true, beq_iff_eq] at hc
  rcases hc with rfl | rfl <;> rfl

omit U in
theorem ChainEnd.not_add {R : Str} (h : ChainEnd R) : NotAt (fun c => c == '+' || c == '-') (skip R) := by
  refine NotAt.mono h fun c hc => ?_
  simp only [Bool.or_eq_true, beq_iff_eq] at hc
  rcases hc with rfl | rfl <;> rfl

theorem not_mul_links {b : List (Link MVal)} (hg : ∀ l ∈ b, GoodLink l) (hh : ∀ l ∈ b.head?, l.op.level = 1) {R : Str} (hR : ChainEnd R) :
    NotAt (fun c => c == '*' || c == '/') (skip (b.flatMap Link.written ++ R)) := by
  cases b with
  | nil => exact hR.not_mul
  | cons l ls =>
    have h1 := hh l (by simp)
    rw [List.flatMap_cons, List.append_assoc, Link.written, List.append_assoc, List.cons_append,
      skip_append (hg l (by simp)).before (notAt_visible (char_visible l.op))]
    refine .cons ?_
    revert h1
    cases l.op <;> simp [Arith.level, Arith.char]

/-- A sum is parsed: after some terms, the rest of the chain. -/
theorem star_sums : ∀ (n : Nat) (ls : List (Link MVal)), ls.length ≤ n → (∀ l ∈ ls, GoodLink l) → (∀ l ∈ ls.head?, l.op.level = 1) →
    ∀ (R : Str), ChainEnd R → ∀ t : Tree MVal, t.Tidy → 1 ≤ t.level →
    ∃ vs, EvStar (.seq [ws, .rule .exprOp, ws, .rule .term]) (ls.flatMap Link.written ++ R) vs R ∧
      ∃ t' : Tree MVal, foldTerms (.obj t.formula) vs = .ok (.obj t'.formula) ∧ t'.Tidy ∧
        t'.flat = (t.flat.1, t.flat.2 ++ ls.map fun l => (l.op, l.value)) := by
  intro n
  induction n with
  | zero =>
    intro ls hn _ _ R hR t ht _
    cases ls with
    | nil => exact ⟨[], .stop (star_stop (fails_exprOp hR.not_add)), t, rfl, ht, by simp⟩
    | cons l ls => simp at hn
  | succ n ih =>
    intro ls hn hg hh R hR t ht h1
    cases ls with
    | nil => exact ⟨[], .stop (star_stop (fails_exprOp hR.not_add)), t, rfl, ht, by simp⟩
    | cons l ls =>
      simp only [List.mem_cons, forall_eq_or_imp] at hg
      simp only [List.head?_cons, Option.mem_def, Option.some.injEq, forall_eq'] at hh
      obtain ⟨a, b, rfl, ha, hb⟩ := split_links ls
      have hga : ∀ l ∈ a, GoodLink l := fun l hl => hg.2 l (by simp [hl])
      have hgb : ∀ l ∈ b, GoodLink l := fun l hl => hg.2 l (by simp [hl])
      have hterm := ev_term hg.1.operand hga ha (follow_links hgb hR.follow) (not_mul_links hgb hb hR)
      have htidy := termTree_tidy a (.leaf l.value) trivial ha (by simp [Tree.level])
      have hflat := termTree_flat a (.leaf l.value)
      generalize termTree (.leaf l.value) a = sub at hterm htidy hflat
      have hop : opRule l.op = .exprOp := by
        revert hh
        cases l.op <;> simp [Arith.level, opRule]
      obtain ⟨vs, hvs, t', hfold, htidy', hflat'⟩ := ih b (by simp only [List.length_cons, List.length_append] at hn; omega)
        hgb hb R hR (.node l.op t sub) ⟨ht, htidy.1, by rw [hh]; exact h1, by rw [hh]; omega⟩ (by simp [Tree.level, hh])
      refine ⟨linkV l.op sub.formula :: vs, ?_, t', hfold, htidy', ?_⟩
      · rw [List.flatMap_cons, List.flatMap_append, List.append_assoc, List.append_assoc]
        refine .cons (s' := b.flatMap Link.written ++ R) ?_ ?_ hvs
        · rw [← hop]
          exact ev_link hg.1 hterm
        · simp only [Link.written, List.length_append, List.length_cons]; omega
      · rw [hflat', Tree.flat, hflat]
        simp [Tree.flat]

/-- A chain is parsed as the tidy tree with its operators and operands. -/
theorem ev_chain {t : Str} {x : MVal} (ho : Operand t x) {ls : List (Link MVal)} (hg : ∀ l ∈ ls, GoodLink l) {R : Str} (hR : ChainEnd R) :
    ∃ tr : Tree MVal, tr.Tidy ∧ tr.flat = (x, ls.map fun l => (l.op, l.value)) ∧
      Ev (.rule .expression) (chainText t ls ++ R) (.obj tr.formula) R := by
  obtain ⟨a, b, rfl, ha, hb⟩ := split_links ls
  have hga : ∀ l ∈ a, GoodLink l := fun l hl => hg l (by simp [hl])
  have hgb : ∀ l ∈ b, GoodLink l := fun l hl => hg l (by simp [hl])
  have hterm := ev_term ho hga ha (follow_links hgb hR.follow) (not_mul_links hgb hb hR)
  have htidy := termTree_tidy a (.leaf x) trivial ha (by simp [Tree.level])
  have hflat := termTree_flat a (.leaf x)
  have hisT := termTree_isTerm (t := .leaf x) ho.term a
  generalize termTree (.leaf x) a = sub at hterm htidy hflat hisT
  obtain ⟨vs, hvs, t', hfold, htidy', hflat'⟩ := star_sums _ b (Nat.le_refl _) hgb hb R hR sub htidy.1 (by omega)
  refine ⟨t', htidy', ?_, ?_⟩
  · rw [hflat', hflat]
    simp [Tree.flat]
  · rw [chainText, List.flatMap_append, List.append_assoc, List.append_assoc]
    have hk : Kids (mqlGrammar .expression) _ [.obj sub.formula, .list vs] R :=
      Kids.seq (.cons hterm (.cons (Kids.star hvs).ev .nil))
    exact hk.rule (by simp only [visitRule, visitTerms, hisT, if_true]; exact hfold)

end

end Verif
