import Verif.Spec.Boolean
import Verif.Props.Total

namespace Verif
open Spec

/-! ### Scanning operands -/

/-- The reader's state after a text, if it does not stop inside. -/
def runOperand : Mode → Nat → Str → Option (Mode × Nat)
  | m, d, [] => some (m, d)
  | m, d, c :: s =>
    match operandStep m d c with
    | none => none
    | some (m', d') => runOperand m' d' s

theorem run_append {m m' d d' a b} (h : runOperand m d a = some (m', d')) :
    runOperand m d (a ++ b) = runOperand m' d' b := by
  induction a generalizing m d with
  | nil => simp only [runOperand, Option.some.injEq, Prod.mk.injEq] at h; obtain ⟨rfl, rfl⟩ := h; rfl
  | cons c s ih =>
    simp only [List.cons_append, runOperand] at h ⊢
    split at h
    · cases h
    · exact ih h

theorem span_run {m m' d d' a b} (h : runOperand m d a = some (m', d')) :
    spanOperand m d (a ++ b) = (a ++ (spanOperand m' d' b).1, (spanOperand m' d' b).2) := by
  induction a generalizing m d with
  | nil => simp only [runOperand, Option.some.injEq, Prod.mk.injEq] at h; obtain ⟨rfl, rfl⟩ := h; rfl
  | cons c s ih =>
    simp only [List.cons_append, runOperand, spanOperand] at h ⊢
    split at h
    · cases h
    · simp only [*, List.cons_append]

/-- The text is passed outside of quotes at any depth. -/
def Solid (t : Str) : Prop := ∀ d, runOperand .code d t = some (.code, d)

/-- The text is passed outside of quotes inside parentheses. -/
def Closed (t : Str) : Prop := ∀ d, runOperand .code (d + 1) t = some (.code, d + 1)

theorem Solid.closed {t : Str} (h : Solid t) : Closed t := fun _ => h _

theorem Solid.append {a b : Str} (ha : Solid a) (hb : Solid b) : Solid (a ++ b) := fun d => by
  rw [run_append (ha d), hb d]

theorem Closed.append {a b : Str} (ha : Closed a) (hb : Closed b) : Closed (a ++ b) := fun d => by
  rw [run_append (ha d), hb d]

theorem solid_nil : Solid [] := fun _ => rfl

/-- A character without meaning to the reader. -/
def dull (c : Char) : Bool :=
  c != ' ' && c != '(' && c != ')' && c != '\'' && c != '`' && c != '['

theorem step_dull {c : Char} (h : dull c = true) (d : Nat) : operandStep .code d c = some (.code, d) := by
  simp only [dull, Bool.and_eq_true, bne_iff_ne] at h
  simp [operandStep, h]

theorem solid_dull {t : Str} (h : ∀ c ∈ t, dull c = true) : Solid t := by
  intro d
  induction t with
  | nil => rfl
  | cons c s ih =>
    simp only [runOperand, step_dull (h c (by simp))]
    exact ih fun c hc => h c (by simp [hc])

theorem closed_dull {t : Str} (h : ∀ c ∈ t, dull c = true ∨ c = ' ') : Closed t := by
  intro d
  induction t with
  | nil => rfl
  | cons c s ih =>
    have : operandStep .code (d + 1) c = some (.code, d + 1) := by
      rcases h c (by simp) with h | rfl
      · exact step_dull h _
      · rfl
    simp only [runOperand, this]
    exact ih fun c hc => h c (by simp [hc])

theorem solid_paren {t : Str} (h : Closed t) : Solid (['('] ++ t ++ [')']) := by
  intro d
  rw [List.append_assoc, run_append (m' := .code) (d' := d + 1) (by rfl), run_append (h d)]
  rfl

theorem run_quoted {d : Nat} : ∀ s : Str, runOperand .quote d (s.flatMap (esc1 '\'')) = some (.quote, d)
  | [] => rfl
  | c :: s => by
    rw [List.flatMap_cons]
    have : runOperand .quote d (esc1 '\'' c) = some (.quote, d) := by
      unfold esc1
      split
      · rfl
      · split
        · rfl
        · split
          · rfl
          · rename_i h1 h2 _; simp [runOperand, operandStep, h1, h2]
    rw [run_append this, run_quoted s]

theorem solid_strLit (al : Bool) (s : Str) : Solid (strLit ⟨al, false⟩ s) := by
  intro d
  unfold strLit Cfg.quote
  simp only [Bool.false_eq_true, if_false]
  rw [escapeStr_eq _ (by decide) (by decide), List.append_assoc,
    run_append (m' := .quote) (d' := d) (by rfl), run_append (run_quoted s)]
  rfl

theorem run_quote_plain {d : Nat} : ∀ {s : Str}, (∀ c ∈ s, isoChar c = true) →
    runOperand .quote d s = some (.quote, d)
  | [], _ => rfl
  | c :: s, h => by
    have hc := h c (by simp)
    have h1 : c ≠ '\\' := by rintro rfl; exact absurd hc (by decide)
    have h2 : c ≠ '\'' := by rintro rfl; exact absurd hc (by decide)
    simp only [runOperand, operandStep, h1, h2, if_false]
    exact run_quote_plain fun c hc => h c (by simp [hc])

theorem solid_toDateTime {s : Str} (h : ∀ c ∈ s, isoChar c = true) : Solid (toDateTimeLit s) := by
  intro d
  unfold toDateTimeLit
  rw [List.append_assoc, run_append (m' := .quote) (d' := d + 1) (by rfl), run_append (run_quote_plain h)]
  rfl

theorem run_tick {d : Nat} : ∀ {s : Str}, '`' ∉ s → runOperand .tick d s = some (.tick, d)
  | [], _ => rfl
  | c :: s, h => by
    simp only [List.mem_cons, not_or] at h
    simp only [runOperand, operandStep, h.1, Ne.symm h.1, if_false]
    exact run_tick h.2

theorem solid_tick {s : Str} (h : '`' ∉ s) : Solid (['`'] ++ s ++ ['`']) := by
  intro d
  rw [List.append_assoc, run_append (m' := .tick) (d' := d) (by rfl), run_append (run_tick h)]
  rfl

theorem run_bracket {d : Nat} : ∀ {s : Str}, ']' ∉ s → runOperand .bracket d s = some (.bracket, d)
  | [], _ => rfl
  | c :: s, h => by
    simp only [List.mem_cons, not_or] at h
    simp only [runOperand, operandStep, h.1, Ne.symm h.1, if_false]
    exact run_bracket h.2

theorem closed_aliasClause {a : Option Str} (h : ∀ s, a = some s → '`' ∉ s) : Closed (aliasClause a) := by
  cases a with
  | none => exact solid_nil.closed
  | some s =>
    have := (closed_dull (t := c!" AS ") (by decide)).append (solid_tick (h s rfl)).closed
    simpa [aliasClause] using this

theorem closed_join {sep : Str} (hs : Closed sep) : ∀ {ps : List Str}, (∀ p ∈ ps, Closed p) → Closed (joinWith sep ps)
  | [], _ => solid_nil.closed
  | [p], h => h p (by simp)
  | p :: q :: ps, h => by
    rw [joinWith]
    exact ((h p (by simp)).append hs).append (closed_join hs (ps := q :: ps) fun x hx => h x (by simp [hx]))

theorem smooth_dull {s : Str} (h : Smooth s) : ∀ c ∈ s, dull c = true := by
  intro c hc
  have := h c hc
  simp only [List.mem_cons, List.not_mem_nil, or_false, not_or] at this
  simp [dull, this]

theorem smooth_solid {s : Str} (h : Smooth s) : Solid s := solid_dull (smooth_dull h)

theorem alnum_dull {c : Char} (h : isAlpha c = true ∨ isDigit c = true ∨ c = '_') : dull c = true := by
  have : ∀ x ∈ c!" ()'`[", isAlpha x = false ∧ isDigit x = false ∧ x ≠ '_' := by decide
  have hx : c ∉ c!" ()'`[" := fun hm => by
    have := this c hm
    rcases h with h | h | h
    · rw [this.1] at h; cases h
    · rw [this.2.1] at h; cases h
    · exact this.2.2 h
  simp only [List.mem_cons, List.not_mem_nil, or_false, not_or] at hx
  simp [dull, hx]

theorem floatChar_dull {c : Char} (h : floatChar c = true) : dull c = true := by
  have : ∀ x ∈ c!" ()'`[", floatChar x = false := by decide
  have hx : c ∉ c!" ()'`[" := fun hm => by rw [this c hm] at h; cases h
  simp only [List.mem_cons, List.not_mem_nil, or_false, not_or] at hx
  simp [dull, hx]

theorem solid_int (i : Int) : Solid (intStr i) :=
  solid_dull fun _ hc => by
    rcases intStr_chars hc with h | rfl
    · exact alnum_dull (.inr (.inl h))
    · decide

theorem solid_pyint (n : PyInt) : Solid n.str := by
  cases n with
  | int i => exact solid_int i
  | bool b => cases b <;> exact solid_dull (by decide)

theorem fixed_chars (k : Nat) (f : PyFloat) : ∀ c ∈ f.fixed k, floatChar c = true := by
  cases f with
  | fin d =>
    intro c hc
    have dig : ∀ c, isDigit c = true → floatChar c = true := by
      intro c h; simp [floatChar, h]
    simp only [PyFloat.fixed, Dbl.fixed, List.mem_append] at hc
    rcases hc with ((hc | hc) | hc) | hc
    · split at hc
      · simp only [List.mem_singleton] at hc; subst hc; decide
      · simp at hc
    · exact dig _ (natStr_digits hc)
    · simp only [List.mem_singleton] at hc; subst hc; decide
    · exact dig _ (padNat_digits hc)
  | inf neg => cases neg <;> (simp only [PyFloat.fixed]; decide)
  | nan => simp only [PyFloat.fixed]; decide

theorem closed_sample (s : Option PyFloat) : Closed (sampleClause s) := by
  cases s with
  | none => exact solid_nil.closed
  | some f =>
    have h : ∀ k, Closed (c!" SAMPLE " ++ f.fixed k) := fun k =>
      (closed_dull (by decide)).append (solid_dull fun c hc => floatChar_dull (fixed_chars k f c hc)).closed
    simp only [sampleClause]
    split <;> exact h _

theorem entityName_dull {n : Str} (h : OptNewline EntityName n) : ∀ c ∈ n, dull c = true := by
  have : ∀ b, EntityName b → ∀ c ∈ b, dull c = true := fun b hb c hc =>
    alnum_dull (by rcases hb.2 c hc with h | h <;> simp [h])
  rcases h with h | ⟨b, h, rfl⟩
  · exact this n h
  · intro c hc
    simp only [List.mem_append, List.mem_singleton] at hc
    rcases hc with hc | rfl
    · exact this b h c hc
    · decide

theorem identName_tick {n : Str} (h : OptNewline IdentName n) : '`' ∉ n := by
  have : ∀ b, IdentName b → '`' ∉ b := by
    rintro b ⟨x, u, rfl, hx, hu⟩ hm
    simp only [List.mem_cons] at hm
    rcases hm with rfl | hm
    · exact absurd hx (by decide)
    · exact absurd (hu _ hm) (by decide)
  rcases h with h | ⟨b, h, rfl⟩
  · exact this n h
  · simp [this b h]

theorem alias_tick {a : Option Str} (h : AliasOk a) : ∀ s, a = some s → '`' ∉ s := by
  intro s hs
  have : ∀ b, AliasText b → '`' ∉ b := fun b hb hm => absurd (hb _ hm) (by decide)
  rcases (h s hs).2 with h | ⟨b, h, rfl⟩
  · exact this s h
  · simp [this b h]

section
variable [U : PyUnicode]

theorem word_dull {c : Char} (h : U.isWord c = true ∨ c = '.' ∨ c = ':' ∨ c = '/' ∨ c = '@') : dull c = true := by
  rcases h with h | rfl | rfl | rfl | rfl
  · have : ∀ x ∈ c!" ()'`[", U.isWord x = false := by
      intro x hx
      simp only [List.mem_cons, List.not_mem_nil, or_false] at hx
      rcases hx with rfl | rfl | rfl | rfl | rfl | rfl <;> (rw [U.ascii _ (by decide)]; decide)
    have hx : c ∉ c!" ()'`[" := fun hm => by rw [this c hm] at h; cases h
    simp only [List.mem_cons, List.not_mem_nil, or_false, not_or] at hx
    simp [dull, hx]
  all_goals decide

theorem colIdent_solid {s : Str} (h : ColIdent s) : Solid s := by
  obtain ⟨x, u, rfl, hx, hu⟩ := h
  refine solid_dull fun c hc => ?_
  simp only [List.mem_cons] at hc
  rcases hc with rfl | hc
  · exact alnum_dull (by rcases hx with h | h <;> simp [h])
  · exact word_dull (hu c hc)

theorem colName_solid {s : Str} (h : OptNewline ColName s) : Solid s := by
  have key : ∀ b, ColName b → Solid b := by
    rintro b (h | ⟨i, k, hi, hk, rfl⟩)
    · exact colIdent_solid h
    · intro d
      have e : i ++ '[' :: k ++ [']'] = i ++ (['['] ++ (k ++ [']'])) := by simp
      rw [e, run_append (colIdent_solid hi d), run_append (m' := .bracket) (d' := d) (by rfl),
        run_append (run_bracket hk.2)]
      rfl
  rcases h with h | ⟨b, h, rfl⟩
  · exact key s h
  · exact (key b h).append (solid_dull (by decide))

theorem colStr_solid {cfg : Cfg} {c : ColumnObj} (h : ColOk c) (hs : SmoothColumn c) : Solid (colStr cfg c) := by
  have hn := colName_solid (columnNameRe_iff.1 h.name)
  unfold colStr
  split
  · rename_i e he
    split
    · obtain ⟨a, ha, _⟩ := h.alias e he
      rw [ha]
      exact ((smooth_solid (hs e he a ha)).append (solid_dull (by decide))).append hn
    · exact hn
  · exact hn

omit U in
theorem entityStr_solid {cfg : Cfg} {e : EntityObj} (h : EntOk e) (hs : SmoothAlias e) : Solid (entityStr cfg e) := by
  obtain ⟨n, a, sm, d⟩ := e
  have hn := (solid_dull (entityName_dull h.name)).closed
  have hp := fun {p : Str} (h1 : Closed p) => solid_paren ((h1.append hn).append (closed_sample sm))
  cases a with
  | none => simpa [entityStr] using hp solid_nil.closed
  | some a =>
    simp only [entityStr]
    split
    · simpa using hp ((smooth_solid (hs a rfl)).closed.append (closed_dull (t := c!": ") (by decide)))
    · simpa using hp solid_nil.closed

omit U in
theorem relStr_closed {cfg : Cfg} {r : RelObj} (h : RelOk r)
    (hs : SmoothAlias r.lhs ∧ SmoothAlias r.rhs ∧ Smooth r.name) : Closed (relStr cfg r) := by
  have e : ∀ d, runOperand .code (d + 1) (c!" -[" ++ r.name ++ c!"]-> ") = some (.code, d + 1) := by
    intro d
    have hb : ']' ∉ r.name := fun hm => absurd (hs.2.2 _ hm) (by decide)
    rw [List.append_assoc, run_append (m' := .bracket) (d' := d + 1) (by rfl), run_append (run_bracket hb)]
    rfl
  have := ((entityStr_solid (cfg := cfg) h.lhs hs.1).closed.append e).append (entityStr_solid (cfg := cfg) h.rhs hs.2.1).closed
  simpa [relStr] using this

omit U in
/-- What the reader needs to know about the text of a value. -/
def OperandText (v : Val) (t : Str) : Prop :=
  Closed t ∧ (ColOrFn v ∨ Scalar v → ∃ b a, t = b ++ aliasClause a ∧ Solid b ∧ ∀ s, a = some s → '`' ∉ s)

omit U in
theorem OperandText.of_solid {v : Val} {t : Str} (h : Solid t) : OperandText v t :=
  ⟨h.closed, fun _ => ⟨t, none, by simp [aliasClause], h, by simp⟩⟩

omit U in
theorem OperandText.of_closed {v : Val} {t : Str} (h : Closed t) (h1 : ¬ ColOrFn v) (h2 : ¬ Scalar v) :
    OperandText v t := ⟨h, fun h => absurd h (by simp [h1, h2])⟩

omit U in
theorem translateInits_mem {cfg : Cfg} : ∀ {xs : List Val} {ps : List Str}, translateInits cfg xs = .ok ps →
    ∀ p ∈ ps, ∃ x ∈ xs, translate cfg x = .ok p
  | [], ps, h, p, hp => by simp [translateInits] at h; subst h; simp at hp
  | x :: xs, ps, h, p, hp => by
    simp only [translateInits] at h
    split at h
    · simp only [bind_eq_ok] at h
      obtain ⟨t, ht, ts, hts, h⟩ := h
      simp only [Except.ok.injEq] at h; subst h
      simp only [List.mem_cons] at hp
      rcases hp with rfl | hp
      · exact ⟨x, by simp, ht⟩
      · obtain ⟨y, hy, hy'⟩ := translateInits_mem hts p hp
        exact ⟨y, by simp [hy], hy'⟩
    · obtain ⟨y, hy, hy'⟩ := translateInits_mem h p hp
      exact ⟨y, by simp [hy], hy'⟩

omit U in
theorem translateParams_mem {cfg : Cfg} : ∀ {xs : List Val} {ps : List Str}, translateParams cfg xs = .ok ps →
    ∀ p ∈ ps, ∃ x ∈ xs, translate cfg x = .ok p
  | [], ps, h, p, hp => by simp [translateParams] at h; subst h; simp at hp
  | x :: xs, ps, h, p, hp => by
    simp only [translateParams, bind_eq_ok] at h
    obtain ⟨u, _, h⟩ := h
    split at h
    · simp only [bind_eq_ok] at h
      obtain ⟨t, ht, ts, hts, h⟩ := h
      simp only [Except.ok.injEq] at h; subst h
      simp only [List.mem_cons] at hp
      rcases hp with rfl | hp
      · exact ⟨x, by simp, ht⟩
      · obtain ⟨y, hy, hy'⟩ := translateParams_mem hts p hp
        exact ⟨y, by simp [hy], hy'⟩
    · obtain ⟨y, hy, hy'⟩ := translateParams_mem h p hp
      exact ⟨y, by simp [hy], hy'⟩

omit U in
theorem not_scalar_expr {v : Val} (h : Expr v) : ¬ Scalar v := by
  rintro (h' | h') <;> cases h <;> cases h'

omit U in
theorem opValue_closed (o : Op) : Closed o.value := by
  cases o <;> exact closed_dull (by decide)

omit U in
theorem parenClause_solid {k : SeqKind} {ps : List Str} (h : ∀ p ∈ ps, Closed p) : Solid (parenClause k ps) := by
  unfold parenClause
  split
  · exact solid_nil
  · exact solid_paren (closed_join (closed_dull (by decide)) h)

omit U in
theorem rhsText_ok {o : Op} {r : Val} {t : Except Err Str} {rs : Str} (h : rhsText o r t = .ok rs) :
    (isUnary o = true ∧ rs = []) ∨ (isUnary o = false ∧ ∃ s, t = .ok s ∧ rs = ' ' :: s) := by
  unfold rhsText at h
  split at h
  · rename_i hu; cases h; exact .inl ⟨hu, rfl⟩
  · rename_i hu
    refine .inr ⟨by simpa using hu, ?_⟩
    split at h
    · simp only [bind_eq_ok, Except.ok.injEq] at h
      obtain ⟨s, hs, rfl⟩ := h; exact ⟨s, hs, rfl⟩
    · simp only [bind_eq_ok] at h
      obtain ⟨b, _, h⟩ := h
      split at h
      · simp only [bind_eq_ok, Except.ok.injEq] at h
        obtain ⟨s, hs, rfl⟩ := h; exact ⟨s, hs, rfl⟩
      · cases h

/-- The texts of built values with smooth names are balanced. -/
theorem wf_operandText (al : Bool) {v : Val} (h : WF v) : (∀ x, Part x v → SmoothNames x) →
    ∀ t, translate ⟨al, false⟩ v = .ok t → OperandText v t := by
  have kid : ∀ {v c : Val}, c ∈ v.children → (∀ x, Part x v → SmoothNames x) → ∀ x, Part x c → SmoothNames x :=
    fun hc hs x hx => hs x (part_iff.2 (.inr ⟨_, hc, hx⟩))
  have seqCase : ∀ (xs : List Val) (o : Str), Solid o →
      (∀ x ∈ xs, ∀ t, translate ⟨al, false⟩ x = .ok t → Closed t) → ∀ t,
      (do let _ ← allScalar xs
          let ps ← translateAll ⟨al, false⟩ xs
          Except.ok (o ++ c!"(" ++ joinWith c!", " ps ++ seqClose ⟨al, false⟩)) = Except.ok (ε := Err) t → Solid t := by
    intro xs o ho ih t h
    simp only [bind_eq_ok, seqClose, Bool.false_eq_true, if_false] at h
    obtain ⟨_, _, ps, hps, h⟩ := h
    simp only [Except.ok.injEq] at h; subst h
    have : Solid (['('] ++ joinWith c!", " ps ++ [')']) := solid_paren (closed_join (closed_dull (by decide)) fun p hp => by
      obtain ⟨x, hx, hx'⟩ := translateAll_mem hps p hp
      exact ih x hx p hx')
    simpa using ho.append this
  induction h with
  | literal v h =>
    intro _ t ht
    apply OperandText.of_solid
    cases h with
    | none => simp only [translate, Except.ok.injEq] at ht; subst ht; exact solid_dull (by decide)
    | bool b =>
      simp only [translate, Except.ok.injEq] at ht; subst ht
      cases b <;> exact solid_dull (by decide)
    | int i => simp only [translate, Except.ok.injEq] at ht; subst ht; exact solid_int i
    | float f =>
      simp only [translate, Except.ok.injEq] at ht; subst ht
      exact solid_dull fun c hc => floatChar_dull (repr_chars f c hc)
    | str s => simp only [translate, Except.ok.injEq] at ht; subst ht; exact solid_strLit al s
    | bytes bs =>
      simp only [translate] at ht
      split at ht <;> cases ht
      exact solid_strLit al _
    | date d =>
      simp only [translate, Except.ok.injEq] at ht; subst ht
      exact solid_toDateTime (dateIso_chars d)
    | datetime d =>
      simp only [translate, bind_eq_ok, Except.ok.injEq] at ht
      obtain ⟨u, _, rfl⟩ := ht
      exact solid_toDateTime (datetimeIso_chars u)
  | list xs _ ih =>
    intro hs t ht
    apply OperandText.of_solid
    exact seqCase xs c!"array" (solid_dull (by decide))
      (fun x hx t ht => (ih x hx (kid (v := .list xs) hx hs) t ht).1) t ht
  | tuple xs _ ih =>
    intro hs t ht
    apply OperandText.of_solid
    exact seqCase xs c!"tuple" (solid_dull (by decide))
      (fun x hx t ht => (ih x hx (kid (v := .tuple xs) hx hs) t ht).1) t ht
  | op | boolOp | direction | dataModel | other | extrapolate => intro _ t ht; simp [translate] at ht
  | limit n | offset n | granularity n =>
    intro _ t ht
    simp only [translate, Except.ok.injEq] at ht; subst ht
    exact .of_solid (solid_int _)
  | totals b =>
    intro _ t ht
    simp only [translate, Except.ok.injEq] at ht; subst ht
    apply OperandText.of_solid
    cases b <;> exact solid_dull (by decide)
  | column c hc _ =>
    intro hs t ht
    simp only [translate, Except.ok.injEq] at ht; subst ht
    exact .of_solid (colStr_solid hc (hs _ .here))
  | aliased c a hc _ ha =>
    intro hs t ht
    simp only [translate, Except.ok.injEq] at ht; subst ht
    exact .of_closed ((colStr_solid hc (hs _ .here)).closed.append (closed_aliasClause (alias_tick ha)))
      (by intro h; cases h) (not_scalar_expr (.aliased ..))
  | curried isFn n ik inits pk params a _ _ _ _ _ _ _ ha ih1 ih2 =>
    intro hs t ht
    simp only [translate, bind_eq_ok, Except.ok.injEq] at ht
    obtain ⟨i, hi, p, hp, rfl⟩ := ht
    have hn : Smooth n := hs _ .here
    have c1 : ∀ x ∈ i, Closed x := fun x hx => by
      obtain ⟨y, hy, hy'⟩ := translateInits_mem hi x hx
      exact (ih1 y hy (kid (List.mem_append_left _ hy) hs) x hy').1
    have c2 : ∀ x ∈ p, Closed x := fun x hx => by
      obtain ⟨y, hy, hy'⟩ := translateParams_mem hp x hx
      exact (ih2 y hy (kid (List.mem_append_right _ hy) hs) x hy').1
    have hb := ((smooth_solid hn).append (parenClause_solid (k := ik) c1)).append (parenClause_solid (k := pk) c2)
    exact ⟨hb.closed.append (closed_aliasClause (alias_tick ha)), fun _ => ⟨_, a, rfl, hb, alias_tick ha⟩⟩
  | ident n hn =>
    intro _ t ht
    simp only [translate, Except.ok.injEq] at ht; subst ht
    exact .of_solid (solid_tick (identName_tick hn))
  | lam k ids body hids _ _ ih =>
    intro hs t ht
    simp only [translate, bind_eq_ok, Except.ok.injEq] at ht
    obtain ⟨b, hb, rfl⟩ := ht
    have h1 : Closed (joinWith c!", " (ids.map fun i => ['`'] ++ i ++ ['`'])) :=
      closed_join (closed_dull (by decide)) fun p hp => by
        simp only [List.mem_map] at hp
        obtain ⟨i, hi, rfl⟩ := hp
        exact (solid_tick (identName_tick (hids i hi))).closed
    have h2 := ((solid_paren h1).closed.append (closed_dull (t := c!" -> ") (by decide))).append
      (ih (kid (v := .lam k ids body) (List.mem_singleton.2 rfl) hs) b hb).1
    refine .of_closed ?_ (by intro h; cases h) (not_scalar_expr (.lam ..))
    simpa using h2
  | cond l o r _ _ hl hu hr ih1 ih2 =>
    intro hs t ht
    simp only [translate, bind_eq_ok, Except.ok.injEq] at ht
    obtain ⟨rs, hrs, ls, hls, rfl⟩ := ht
    have h1 := (ih1 (kid (v := .cond l o r) (List.mem_cons_self ..) hs) ls hls).1
    have h2 : Closed rs := by
      rcases rhsText_ok hrs with ⟨_, rfl⟩ | ⟨_, s, hs', rfl⟩
      · exact solid_nil.closed
      · exact (closed_dull (t := [' ']) (by decide)).append
          (ih2 (kid (v := .cond l o r) (List.mem_cons_of_mem _ (List.mem_cons_self ..)) hs) s hs').1
    exact .of_closed (((h1.append (closed_dull (t := [' ']) (by decide))).append (opValue_closed o)).append h2)
      (by intro h; cases h) (not_scalar_expr (.cond ..))
  | boolCond cls o k cs _ _ _ _ _ ih =>
    intro hs t ht
    simp only [translate, bind_eq_ok, Except.ok.injEq] at ht
    obtain ⟨ps, hps, rfl⟩ := ht
    refine .of_solid (solid_paren (closed_join (by cases o <;> exact closed_dull (by decide)) fun p hp => ?_))
    obtain ⟨x, hx, hx'⟩ := translateAll_mem hps p hp
    exact (ih x hx (kid (v := .boolCond cls o k cs) hx hs) p hx').1
  | orderby e d _ _ ih =>
    intro hs t ht
    simp only [translate, bind_eq_ok, Except.ok.injEq] at ht
    obtain ⟨b, hb, rfl⟩ := ht
    refine .of_closed ?_ (by intro h; cases h) (not_scalar_expr (.orderby ..))
    refine ((ih (kid (v := .orderby e d) (List.mem_singleton.2 rfl) hs) b hb).1.append (closed_dull (by decide))).append ?_
    cases d <;> exact closed_dull (by decide)
  | limitby k cs n h1 _ _ _ _ =>
    intro hs t ht
    simp only [translate, Except.ok.injEq] at ht; subst ht
    refine .of_closed ?_ (by intro h; cases h) (not_scalar_expr (.limitby ..))
    refine ((solid_pyint n).closed.append (closed_dull (by decide))).append (closed_join (closed_dull (by decide)) ?_)
    intro p hp
    simp only [List.mem_map] at hp
    obtain ⟨c, hc, rfl⟩ := hp
    exact (colStr_solid (h1 c hc) (hs (.limitby k cs n) .here c hc)).closed
  | entity e he =>
    intro hs t ht
    simp only [translate, Except.ok.injEq] at ht; subst ht
    exact .of_solid (entityStr_solid he (hs _ .here))
  | storage s h =>
    intro _ t ht
    simp only [translate, Except.ok.injEq] at ht; subst ht
    have := (solid_dull (t := c!"STORAGE") (by decide)).append
      (solid_paren ((solid_dull (entityName_dull h.name)).closed.append (closed_sample s.sample)))
    exact .of_solid (by simpa [storageStr] using this)
  | rel r hr =>
    intro hs t ht
    simp only [translate, Except.ok.injEq] at ht; subst ht
    exact .of_closed (relStr_closed hr (hs (.rel r) .here)) (by intro h; cases h) (not_scalar_expr (.rel ..))
  | join k rels hr _ _ =>
    intro hs t ht
    simp only [translate, Except.ok.injEq] at ht; subst ht
    refine .of_closed (closed_join (closed_dull (by decide)) ?_) (by intro h; cases h) (not_scalar_expr (.join ..))
    intro p hp
    simp only [List.mem_map] at hp
    obtain ⟨r, hr', rfl⟩ := hp
    exact relStr_closed (hr r hr') (hs (.join k rels) .here r hr')

end

end Verif
