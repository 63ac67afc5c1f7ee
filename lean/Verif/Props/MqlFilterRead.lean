import Verif.Lemmas.MqlFilterRead

/-!
# C37: the text of a filter can be read back
-/

namespace Verif
open Spec

/-- The part of a column name before the subscript has no colon. -/
def Spec.ColonFree (n : Str) : Prop := ':' ∉ n.takeWhile (· != '[')

/-- Filters that compare columns with scalars, by any operator, and groups of them. (Not: functions on the left; columns, bytes
and datetimes with time zone on the right.) -/
inductive Spec.ScalarFilter : Val → Prop
  | cond (c : ColumnObj) (o : Op) (r : Val) : ColonFree c.name → Spec.Pure r → ScalarFilter (.cond (.column c) o r)
  | group (cls op k cs) : (∀ x ∈ cs, ScalarFilter x) → ScalarFilter (.boolCond cls op k cs)

/-- The same without the operators that print alike: `=` and `!=` with a scalar that is not a sequence, `IN` and `NOT IN` with a
sequence. -/
inductive Spec.UsualFilter : Val → Prop
  | eq (c : ColumnObj) (o : Op) (r : Val) : (o = .eq ∨ o = .neq) → ColonFree c.name → Spec.Pure r → ¬ IsSeq r →
      UsualFilter (.cond (.column c) o r)
  | isIn (c : ColumnObj) (o : Op) (r : Val) : (o = .in_ ∨ o = .notIn) → ColonFree c.name → Spec.Pure r → IsSeq r →
      UsualFilter (.cond (.column c) o r)
  | group (cls op k cs) : (∀ x ∈ cs, UsualFilter x) → UsualFilter (.boolCond cls op k cs)

theorem Spec.UsualFilter.scalar {v : Val} (h : UsualFilter v) : ScalarFilter v := by
  induction h with
  | eq c o r _ h1 h2 _ => exact .cond c o r h1 h2
  | isIn c o r _ h1 h2 _ => exact .cond c o r h1 h2
  | group cls op k cs _ ih => exact .group cls op k cs ih

/-- The same comparisons in the same combination, up to tuples in the place of lists. -/
inductive Spec.SameScalars : Val → Val → Prop
  | cond {c d : ColumnObj} {o : Op} {r s : Val} : c.name = d.name → untuple r = untuple s →
      SameScalars (.cond (.column c) o r) (.cond (.column d) o s)
  | group {cls cls' op k l cs ds} : Pairwise SameScalars cs ds → SameScalars (.boolCond cls op k cs) (.boolCond cls' op l ds)

section
variable [U : PyUnicode]

theorem word_ne {c d : Char} (h : U.isWord c = true ∨ c = '.' ∨ c = ':' ∨ c = '/' ∨ c = '@') (hd : d.toNat < 128)
    (hw : (isAlpha d || isDigit d || d == '_') = false) (h1 : d ≠ '.' ∧ d ≠ ':' ∧ d ≠ '/' ∧ d ≠ '@') : c ≠ d := by
  rintro rfl
  rcases h with h | h | h | h | h
  · rw [U.ascii _ hd, hw] at h; cases h
  · exact h1.1 h
  · exact h1.2.1 h
  · exact h1.2.2.1 h
  · exact h1.2.2.2 h

theorem colIdent_bracket {i : Str} (h : ColIdent i) : '[' ∉ i := by
  obtain ⟨a, u, rfl, ha, hu⟩ := h
  intro hm
  rcases List.mem_cons.1 hm with rfl | hm
  · rcases ha with ha | ha
    · revert ha; decide
    · cases ha
  · exact word_ne (hu _ hm) (by decide) (by decide) (by decide) rfl

/-- The name of a column is read back. -/
theorem readFilterName_column {c : ColumnObj} (h : WF (.column c)) (hf : ColonFree c.name) (rest : Str) :
    readFilterName (c.name ++ ':' :: rest) = some (c.name, rest) := by
  have key : ∀ (n : Str) (tail : Str), ':' ∉ tail → '[' ∉ tail → ColName n → ColonFree (n ++ tail) →
      readFilterName ((n ++ tail) ++ ':' :: rest) = some (n ++ tail, rest) := by
    intro n tail ht ht' hn hc
    unfold ColonFree at hc
    have hne : ∀ {i : Str}, '[' ∉ i → ∀ x ∈ i, (x != '[') = true := by
      intro i hi x hx
      have : x ≠ '[' := by rintro rfl; exact hi hx
      simpa using this
    rcases hn with hn | ⟨i, k, hi, hk, rfl⟩
    · have hb := colIdent_bracket hn
      rw [List.takeWhile_append_of_pos (hne hb)] at hc
      simp only [List.mem_append, not_or] at hc
      exact readFilterName_plain (by simp [hc.1, ht]) (by simp [hb, ht'])
    · have hb := colIdent_bracket hi
      have e : i ++ '[' :: k ++ [']'] ++ tail = i ++ '[' :: k ++ ']' :: tail := by simp
      rw [e] at hc ⊢
      rw [List.append_assoc, List.takeWhile_append_of_pos (hne hb)] at hc
      simp at hc
      exact readFilterName_subscript hc hb hk.2 ht
  rcases columnNameRe_iff.1 h.column_inv.1.name with h' | ⟨b, h', e⟩
  · have := key c.name [] (by simp) (by simp) h' (by simpa using hf)
    simpa using this
  · rw [e] at hf ⊢
    exact key b ['\n'] (by simp) (by simp) h' hf

theorem column_head {c : ColumnObj} (h : WF (.column c)) : ∃ a u, c.name = a :: u ∧ a ≠ '!' ∧ a ≠ '(' := by
  have : NameHead c.name := by
    rcases columnNameRe_iff.1 h.column_inv.1.name with h | ⟨b, h, e⟩
    · rcases h with ⟨a, u, e, ha, _⟩ | ⟨i, k, ⟨a, u, e, ha, _⟩, _, e'⟩
      · exact ⟨a, u, e, ha⟩
      · subst e; exact ⟨a, _, e', ha⟩
    · rcases h with ⟨a, u, rfl, ha, _⟩ | ⟨i, k, ⟨a, u, rfl, ha, _⟩, _, rfl⟩
      · exact ⟨a, _, e, ha⟩
      · exact ⟨a, _, e, ha⟩
  obtain ⟨a, u, e, ha⟩ := this
  exact ⟨a, u, e, (head_ne ha).1, (head_ne ha).2.1⟩

omit U in
theorem readFilterValue_spec {o : Op} {r : Val} (hr : Spec.Pure r) {t : Str} (h : rhsMql .mql o r = .ok t) {rest : Str} (hs : StopText rest) :
    readFilterValue (t ++ rest) = some (comparedWith o r, rest) := by
  unfold rhsMql at h
  by_cases ho : isUnary o = true
  · simp only [ho, if_true, Except.ok.injEq] at h
    subst h
    have : rest.head?.all stops = true := by
      cases rest with
      | nil => rfl
      | cons c r => simpa using hs c rfl
    have hc : comparedWith o r = none := by
      cases o <;> first | rfl | (simp [isUnary] at ho)
    simp [readFilterValue, this, hc]
  · have ho' : comparedWith o r = some (untuple r) := by
      cases o <;> first | rfl | (simp [isUnary] at ho)
    have h1 : r.isCurried = false ∧ r.isColumn = false := by cases hr <;> exact ⟨rfl, rfl⟩
    have h2 := (pure_translates true hr).1
    simp only [ho, h1, h2, ok_bind, if_true, Bool.false_eq_true, if_false] at h
    obtain ⟨⟨c, u, rfl, hc⟩, h3⟩ := pure_mqlText hr t h
    have h4 : ((c :: u) ++ rest).head?.all stops = false := by simpa using hc
    simp only [readFilterValue, h4, Bool.false_eq_true, if_false, ho']
    rw [h3 rest hs _ (by simp only [List.length_append]; omega)]
    rfl

/-- Texts of filters that are read as outlines, whatever follows. -/
def OutlineText (t : Str) (o : Outline) : Prop :=
  ∀ rest, StopText rest → ∀ f, t.length + 1 ≤ f → readFilterAt f (t ++ rest) = some (o, rest)

theorem cond_filterText {c : ColumnObj} {o : Op} {r : Val} (hw : WF (.column c)) (hf : ColonFree c.name) (hr : Spec.Pure r) {t : Str}
    (h : condMql .mql (.cond (.column c) o r) = .ok t) :
    ∃ x, OutlineOf (.cond (.column c) o r) x ∧ OutlineText t x := by
  obtain ⟨rs, hrs, rfl⟩ := cond_text h
  have hread : ∀ neg rest, StopText rest →
      readComparison neg (c.name ++ ':' :: rs ++ rest) = some (.comparison neg c.name (comparedWith o r), rest) := by
    intro neg rest hs
    have e : c.name ++ ':' :: rs ++ rest = c.name ++ ':' :: (rs ++ rest) := by simp
    rw [e]
    simp only [readComparison, readFilterName_column hw hf, readFilterValue_spec hr hrs hs, Option.bind_eq_bind, Option.bind_some]
  by_cases hn : Negated o
  · refine ⟨_, .negated c o r hn, ?_⟩
    intro rest hs f hf'
    obtain ⟨f, rfl⟩ : ∃ g, f = g + 1 := ⟨f - 1, by omega⟩
    have : mqlNeg o = ['!'] := by rcases hn with rfl | rfl | rfl <;> rfl
    rw [this]
    have e : ['!'] ++ (c.name ++ ':' :: rs) ++ rest = '!' :: (c.name ++ ':' :: rs ++ rest) := by simp
    rw [e, readFilterAt]
    · exact hread true rest hs
  · refine ⟨_, .plain c o r hn, ?_⟩
    intro rest hs f hf'
    obtain ⟨f, rfl⟩ : ∃ g, f = g + 1 := ⟨f - 1, by omega⟩
    have : mqlNeg o = [] := by cases o <;> first | rfl | (exact absurd (by simp [Negated]) hn)
    obtain ⟨a, u, ha, h1, h2⟩ := column_head hw
    have hr' := hread false rest hs
    rw [this, List.nil_append]
    rw [ha] at hr' ⊢
    simp only [List.cons_append] at hr' ⊢
    rw [readFilterAt]
    · exact hr'
    · intro s hs'; exact h2 (List.cons.inj hs').1
    · intro s hs'; exact h1 (List.cons.inj hs').1

/-- Corresponding texts and outlines. -/
inductive OutlineTexts : List Str → List Outline → Prop
  | nil : OutlineTexts [] []
  | cons (t o ts os) : OutlineText t o → OutlineTexts ts os → OutlineTexts (t :: ts) (o :: os)

/-- The texts after the first one, each after the joint. -/
def jointTail (op : BooleanOp) : List Str → Str
  | [] => []
  | t :: ts => [' '] ++ op.value ++ [' '] ++ t ++ jointTail op ts

omit U in
theorem joinWith_joint (op : BooleanOp) (t : Str) : ∀ ts : List Str,
    joinWith ([' '] ++ op.value ++ [' ']) (t :: ts) = t ++ jointTail op ts
  | [] => by simp [joinWith, jointTail]
  | t' :: ts => by
    rw [joinWith, joinWith_joint op t' ts]
    simp [jointTail]

omit U in
theorem jointTail_stop (op : BooleanOp) (ts : List Str) {rest : Str} (hr : StopText rest) : StopText (jointTail op ts ++ rest) := by
  cases ts with
  | nil => exact hr
  | cons t ts => intro c hc; cases hc; rfl

omit U in
theorem readJoint_value (op : BooleanOp) (s : Str) : readJoint ([' '] ++ op.value ++ [' '] ++ s) = some (op, s) := by
  cases op <;> simp [readJoint, readText, BooleanOp.value]

omit U in
theorem moreFilters_spec (op : BooleanOp) {ts : List Str} {os : List Outline} (h : OutlineTexts ts os) (rest : Str) :
    ∀ f, (jointTail op ts).length + 1 ≤ f → moreFilters f op (jointTail op ts ++ ')' :: rest) = some (os, rest) := by
  induction h with
  | nil =>
    intro f hf
    obtain ⟨f, rfl⟩ : ∃ g, f = g + 1 := ⟨f - 1, by omega⟩
    simp [moreFilters, jointTail, readText]
  | cons t o ts os ho _ ih =>
    intro f hf
    simp only [jointTail, List.length_append, List.length_cons, List.length_nil] at hf
    obtain ⟨f, rfl⟩ : ∃ g, f = g + 1 := ⟨f - 1, by omega⟩
    have e : jointTail op (t :: ts) ++ ')' :: rest = [' '] ++ op.value ++ [' '] ++ (t ++ (jointTail op ts ++ ')' :: rest)) := by
      simp [jointTail]
    have hp : readText c!")" ([' '] ++ op.value ++ [' '] ++ (t ++ (jointTail op ts ++ ')' :: rest))) = none := readText_ne (by decide)
    rw [e, moreFilters, hp]
    simp only [readJoint_value, Option.bind_eq_bind, Option.bind_some,
      ho _ (jointTail_stop op ts (rest := ')' :: rest) (by intro c hc; cases hc; rfl)) f (by omega), ih f (by omega), if_true]

theorem outline_text {v : Val} (hv : ScalarFilter v) : WF v → ∀ t, condMql .mql v = .ok t → ∃ o, OutlineOf v o ∧ OutlineText t o := by
  induction hv with
  | cond c o r hf hr =>
    intro hw t h
    cases hw with
    | literal _ h => cases h
    | cond _ _ _ hl _ _ _ _ => exact cond_filterText hl hf hr h
  | group cls op k cs hcs ih =>
    intro hw t h
    have hw' : 2 ≤ cs.length ∧ ∀ c ∈ cs, WF c := by
      cases hw with
      | literal _ h => cases h
      | boolCond _ _ _ _ h1 _ h2 => exact ⟨h2, h1⟩
    simp only [condMql, bind_eq_ok, Except.ok.injEq] at h
    obtain ⟨ps, hps, rfl⟩ := h
    have hall := all_pairwise (fun c hc => by cases hcs c hc <;> rfl) hps
    have : ∃ os, Spec.Pairwise OutlineOf cs os ∧ OutlineTexts ps os := by
      have hx : ∀ c ∈ cs, ∀ t, condMql .mql c = .ok t → ∃ o, OutlineOf c o ∧ OutlineText t o :=
        fun c hc => ih c hc (hw'.2 c hc)
      clear hps hw' ih hcs hw
      induction hall with
      | nil => exact ⟨[], .nil, .nil⟩
      | @cons c p cs ps h1 _ ih =>
        obtain ⟨o, h2, h3⟩ := hx c (by simp) p h1
        obtain ⟨os, h4, h5⟩ := ih fun d hd => hx d (by simp [hd])
        exact ⟨o :: os, .cons h2 h4, .cons _ _ _ _ h3 h5⟩
    obtain ⟨os, ho, ht⟩ := this
    refine ⟨.group op os, .group _ _ _ _ _ ho, ?_⟩
    have hlen : 2 ≤ os.length := by
      have : ∀ {as : List Val} {bs : List Outline}, Spec.Pairwise OutlineOf as bs → as.length = bs.length := by
        intro as bs h; induction h with
        | nil => rfl
        | cons _ _ ih => simp [ih]
      rw [← this ho]; exact hw'.1
    intro rest hs f hf
    cases ht with
    | nil => simp at hlen
    | cons t1 o1 ts os1 h1 hrest =>
      cases hrest with
      | nil => simp at hlen
      | cons t2 o2 ts2 os2 h2 h3 =>
        rw [joinWith_joint] at hf ⊢
        simp only [List.length_append, List.length_cons, List.length_nil] at hf
        obtain ⟨f, rfl⟩ : ∃ g, f = g + 1 := ⟨f - 1, by omega⟩
        have e : ['('] ++ (t1 ++ jointTail op (t2 :: ts2)) ++ [')'] ++ rest = '(' :: (t1 ++ (jointTail op (t2 :: ts2) ++ ')' :: rest)) := by
          simp
        have hj : readJoint (jointTail op (t2 :: ts2) ++ ')' :: rest) = some (op, t2 ++ (jointTail op ts2 ++ ')' :: rest)) := by
          have e : jointTail op (t2 :: ts2) ++ ')' :: rest = [' '] ++ op.value ++ [' '] ++ (t2 ++ (jointTail op ts2 ++ ')' :: rest)) := by
            simp [jointTail]
          rw [e, readJoint_value]
        rw [e, readFilterAt]
        simp only [Option.bind_eq_bind, Option.bind_some, hj,
          h1 _ (jointTail_stop op (t2 :: ts2) (rest := ')' :: rest) (by intro c hc; cases hc; rfl)) f (by omega),
          moreFilters_spec op (.cons _ _ _ _ h2 h3) rest f (by omega)]

/-- **C37** (reading back, on a fragment). The text of a filter on columns tells which columns are compared with which values and how
the comparisons are combined, and which of them are negated, whatever the operators. Missing: which of the operators on the same
side of the negation it is (the code violates the property, see `C37_fails_for_other_operators`), functions on the left, columns on
the right, bytes and datetimes with a time zone (which print like other values), and column names with colons. -/
theorem C37_reads_back_partial (v : Val) (hb : Built v) (hv : ScalarFilter v) (t : Str) (h : condMql .mql v = .ok t) :
    ∃ o, OutlineOf v o ∧ readFilterText t = some o := by
  obtain ⟨o, ho, ht⟩ := outline_text hv (built_wf hb) t h
  have := ht [] (by intro c hc; cases hc) (t.length + 1) (Nat.le_refl _)
  rw [List.append_nil] at this
  exact ⟨o, ho, by simp [readFilterText, this]⟩

omit U in
theorem readFilterList_spec {ts : List Str} {os : List Outline} (h : OutlineTexts ts os) (hne : ts ≠ []) :
    ∀ f, ts.length ≤ f → readFilterList f (joinWith c!" AND " ts ++ ['}']) = some (os, []) := by
  induction h with
  | nil => exact absurd rfl hne
  | cons t o ts os ho hts ih =>
    intro f hf
    obtain ⟨f, rfl⟩ : ∃ g, f = g + 1 := ⟨f - 1, by simp at hf; omega⟩
    cases hts with
    | nil =>
      have hp : readText c!"}" ['}'] = some [] := rfl
      simp only [joinWith, readFilterList]
      rw [ho ['}'] (by intro c hc; cases hc; rfl) _ (by simp only [List.length_append]; omega)]
      simp only [Option.bind_eq_bind, Option.bind_some, hp]
    | cons t' o' ts os ho' hts' =>
      have e : joinWith c!" AND " (t :: t' :: ts) ++ ['}'] = t ++ (c!" AND " ++ (joinWith c!" AND " (t' :: ts) ++ ['}'])) := by
        simp [joinWith]
      have hp : readText c!"}" (c!" AND " ++ (joinWith c!" AND " (t' :: ts) ++ ['}'])) = none := readText_ne (by decide)
      rw [e, readFilterList]
      rw [ho _ (by intro c hc; cases hc; rfl) _ (by simp only [List.length_append]; omega)]
      simp only [Option.bind_eq_bind, Option.bind_some, hp, readText_append, ih (by simp) f (by simp at hf ⊢; omega)]

/-- **C37** (the filters of a timeseries or formula, on the same fragment). Missing as above. -/
theorem C37_filters_read_back_partial (vs : List Val) (hb : ∀ v ∈ vs, Built v) (hv : ∀ v ∈ vs, ScalarFilter v) (t : Str)
    (h : filtersMql (.list vs) = .ok t) : ∃ os, Spec.Pairwise OutlineOf vs os ∧ readFilters t = some os := by
  simp only [filtersMql, Val.given, if_true, iterItems, Val.seq?, ok_bind, bind_eq_ok, Except.ok.injEq] at h
  obtain ⟨ps, hps, rfl⟩ := h
  have hall := all_pairwise (fun c hc => by cases hv c hc <;> rfl) hps
  have : ∃ os, Spec.Pairwise OutlineOf vs os ∧ OutlineTexts ps os := by
    clear hps
    induction hall with
    | nil => exact ⟨[], .nil, .nil⟩
    | @cons c p cs ps h1 _ ih =>
      obtain ⟨o, h2, h3⟩ := outline_text (hv c (by simp)) (built_wf (hb c (by simp))) p h1
      obtain ⟨os, h4, h5⟩ := ih (fun d hd => hb d (by simp [hd])) fun d hd => hv d (by simp [hd])
      exact ⟨o :: os, .cons h2 h4, .cons _ _ _ _ h3 h5⟩
  obtain ⟨os, h1, h2⟩ := this
  refine ⟨os, h1, ?_⟩
  cases h2 with
  | nil => rfl
  | cons t o ts os ho hts =>
    have hl : (t :: ts).length ≤ (joinWith c!" AND " (t :: ts) ++ ['}']).length + 1 := by
      have : ∀ ts : List Str, ts.length ≤ (joinWith c!" AND " ts).length + 1 := by
        intro ts
        induction ts with
        | nil => simp
        | cons t ts ih =>
          cases ts with
          | nil => simp
          | cons t' ts => simp only [joinWith, List.length_append, List.length_cons, List.length_nil] at ih ⊢; omega
      have := this (t :: ts)
      simp only [List.length_append, List.length_cons, List.length_nil] at this ⊢
      omega
    have hr := readFilterList_spec (.cons t o ts os ho hts) (by simp) _ hl
    have e : ['{'] ++ joinWith c!" AND " (t :: ts) ++ ['}'] = c!"{" ++ (joinWith c!" AND " (t :: ts) ++ ['}']) := by simp
    have hne : c!"{" ++ (joinWith c!" AND " (t :: ts) ++ ['}']) ≠ c!"{}" := by
      intro h
      have hj : joinWith c!" AND " (t :: ts) = [] := by
        have := congrArg List.length h
        simp only [List.length_append, List.length_cons, List.length_nil] at this
        exact List.eq_nil_of_length_eq_zero (by omega)
      have ht : t = [] := by
        cases ts with
        | nil => exact hj
        | cons t' ts => simp [joinWith] at hj
      have := ho [] (by intro c hc; cases hc) 1 (by simp [ht])
      rw [ht] at this
      simp [readFilterAt, readComparison, readFilterName, upTo] at this
    unfold readFilters
    rw [e, if_neg hne, readText_append]
    simp only [Option.bind_eq_bind, Option.bind_some, hr, if_true]

omit U in
theorem outline_same (v : Val) : ∀ w o, UsualFilter v → UsualFilter w → OutlineOf v o → OutlineOf w o → SameScalars v w := by
  induction v using Val.childInd with
  | step v ih =>
    intro w o hv hw h1 h2
    have hcmp : ∀ {c d : ColumnObj} {o o' : Op} {r s : Val}, UsualFilter (.cond (.column c) o r) → UsualFilter (.cond (.column d) o' s) →
        (Negated o ↔ Negated o') → c.name = d.name → comparedWith o r = comparedWith o' s →
        SameScalars (.cond (.column c) o r) (.cond (.column d) o' s) := by
      intro c d o o' r s hv hw hn hcd hrs
      have hseq : ∀ {r s : Val}, untuple r = untuple s → IsSeq r → ¬ IsSeq s → Spec.Pure s → False := by
        intro r s h hr hs hp
        cases hr <;> cases hp <;> first | cases h | exact hs (by constructor)
      cases hv with
      | eq _ _ _ ho _ hr hr' =>
        cases hw with
        | eq _ _ _ ho' _ hs hs' =>
          have e : o = o' := by
            rcases ho with rfl | rfl <;> rcases ho' with rfl | rfl <;> first | rfl | (simp [Negated] at hn)
          subst e
          exact .cond hcd (by rcases ho with rfl | rfl <;> simpa [comparedWith] using hrs)
        | isIn _ _ _ ho' _ hs hs' =>
          exfalso
          refine hseq (r := s) (s := r) ?_ hs' hr' hr
          rcases ho with rfl | rfl <;> rcases ho' with rfl | rfl <;> simpa [comparedWith, eq_comm] using hrs
      | isIn _ _ _ ho _ hr hr' =>
        cases hw with
        | eq _ _ _ ho' _ hs hs' =>
          exfalso
          refine hseq (r := r) (s := s) ?_ hr' hs' hs
          rcases ho with rfl | rfl <;> rcases ho' with rfl | rfl <;> simpa [comparedWith] using hrs
        | isIn _ _ _ ho' _ hs hs' =>
          have e : o = o' := by
            rcases ho with rfl | rfl <;> rcases ho' with rfl | rfl <;> first | rfl | (simp [Negated] at hn)
          subst e
          exact .cond hcd (by rcases ho with rfl | rfl <;> simpa [comparedWith] using hrs)
    cases h1 with
    | plain c o r hn =>
      generalize hx : Outline.comparison false c.name (comparedWith o r) = x at h2
      cases h2 with
      | plain d o' s hn' =>
        simp only [Outline.comparison.injEq, true_and] at hx
        exact hcmp hv hw ⟨fun h => absurd h hn, fun h => absurd h hn'⟩ hx.1 hx.2
      | negated => simp at hx
      | group => cases hx
    | negated c o r hn =>
      generalize hx : Outline.comparison true c.name (comparedWith o r) = x at h2
      cases h2 with
      | negated d o' s hn' =>
        simp only [Outline.comparison.injEq, true_and] at hx
        exact hcmp hv hw ⟨fun _ => hn', fun _ => hn⟩ hx.1 hx.2
      | plain => simp at hx
      | group => cases hx
    | group cls op k cs os hp =>
      cases h2 with
      | group cls' _ k' ds _ hp' =>
        cases hv with
        | group _ _ _ _ hcs =>
          cases hw with
          | group _ _ _ _ hds =>
            refine .group ?_
            have ih' : ∀ c ∈ cs, ∀ w o, UsualFilter c → UsualFilter w → OutlineOf c o → OutlineOf w o → SameScalars c w :=
              fun c hc => ih c hc
            clear ih
            induction hp generalizing ds with
            | nil => cases hp'; exact .nil
            | @cons c o cs os h1 _ ihp =>
              cases hp' with
              | @cons d _ ds _ h2 h3 =>
                exact .cons (ih' c (by simp) d o (hcs c (by simp)) (hds d (by simp)) h1 h2)
                  (ihp _ h3 (fun x hx => hcs x (by simp [hx])) (fun x hx => hds x (by simp [hx]))
                    (fun x hx => ih' x (by simp [hx])))

/-- **C37** (same text, on a fragment). Two filters that compare columns by `=` or `!=` with scalars and by `IN` or `NOT IN` with
sequences, and print as the same text, are the same comparisons, up to tuples in the place of lists. Missing as above. -/
theorem C37_same_text_same_scalars_partial (v w : Val) (hb : Built v) (hb' : Built w) (hv : UsualFilter v) (hw : UsualFilter w) (t : Str)
    (h : condMql .mql v = .ok t) (h' : condMql .mql w = .ok t) : SameScalars v w := by
  obtain ⟨o, h1, h2⟩ := C37_reads_back_partial v hb hv.scalar t h
  obtain ⟨o', h3, h4⟩ := C37_reads_back_partial w hb' hw.scalar t h'
  rw [h2] at h4
  cases h4
  exact outline_same v w o hv hw h1 h3

end

section Examples
open Ex
attribute [local instance] asciiUnicode

/-- `(tags[a:b] > 5 OR NOT c IN (true, [None, 0.5]))`. -/
private def mixedParts : List Val :=
  [.cond (.column ⟨c!"tags[a:b]", none, some c!"tags", some c!"a:b"⟩) .gt (.int 5),
    .cond (col c!"c") .notIn (.tuple [.bool true, .list [.none, .float (.fin ⟨false, 1, -1, by decide⟩)]])]

private def mixedFilter : Val := .boolCond .or .or .list mixedParts

private def mixedText : Str := c!"(tags[a:b]:5 OR !c:[TRUE, [NULL, 0.5]])"

example : condMql .mql mixedFilter = .ok mixedText := rfl

private theorem mixed_built : Built mixedFilter := by
  have b1 : Built (.column ⟨c!"tags[a:b]", none, some c!"tags", some c!"a:b"⟩) :=
    .column (.str c!"tags[a:b]") .none _ (.literal _ (.str _)) (.literal _ .none) rfl
  have b2 : Built (col c!"c") := .column (.str c!"c") .none _ (.literal _ (.str _)) (.literal _ .none) rfl
  have b3 : Built (.tuple [.bool true, .list [.none, .float (.fin ⟨false, 1, -1, by decide⟩)]]) := by
    refine .tuple _ fun x hx => ?_
    simp only [List.mem_cons, List.not_mem_nil, or_false] at hx
    rcases hx with rfl | rfl
    · exact .literal _ (.bool _)
    · refine .list _ fun x hx => ?_
      simp only [List.mem_cons, List.not_mem_nil, or_false] at hx
      rcases hx with rfl | rfl
      · exact .literal _ .none
      · exact .literal _ (.float _)
  refine .or (.list mixedParts) _ (.list _ fun x hx => ?_) rfl
  simp only [mixedParts, List.mem_cons, List.not_mem_nil, or_false] at hx
  rcases hx with rfl | rfl
  · exact .condition _ (.op .gt) (.int 5) _ b1 (.op _) (.literal _ (.int _)) rfl
  · exact .condition _ (.op .notIn) _ _ b2 (.op _) b3 rfl

private theorem mixed_scalar : ScalarFilter mixedFilter := by
  refine .group _ _ _ _ fun x hx => ?_
  simp only [mixedParts, List.mem_cons, List.not_mem_nil, or_false] at hx
  rcases hx with rfl | rfl
  · exact .cond _ _ _ (by unfold ColonFree; decide) (.int _)
  · refine .cond _ _ _ (by unfold ColonFree; decide) (.tuple _ fun x hx => ?_)
    simp only [List.mem_cons, List.not_mem_nil, or_false] at hx
    rcases hx with rfl | rfl
    · exact .bool _
    · refine .list _ fun x hx => ?_
      simp only [List.mem_cons, List.not_mem_nil, or_false] at hx
      rcases hx with rfl | rfl
      · exact .none
      · exact .float _

/-- The column with a colon inside its brackets, the negation and the nested lists are all found again. -/
example : ∃ o, OutlineOf mixedFilter o ∧ readFilterText mixedText = some o :=
  C37_reads_back_partial _ mixed_built mixed_scalar _ rfl

example : readFilterText mixedText = some (.group .or [.comparison false c!"tags[a:b]" (some (.int 5)),
    .comparison true c!"c" (some (.list [.bool true, .list [.none, .float (.fin ⟨false, 1, -1, by decide⟩)]]))]) := by rfl

/-- A list of two filters. -/
example : ∃ os, Spec.Pairwise OutlineOf [mixedFilter, mixedFilter] os ∧
    readFilters (c!"{" ++ mixedText ++ c!" AND " ++ mixedText ++ c!"}") = some os :=
  C37_filters_read_back_partial _ (by simp [mixed_built]) (by simp [mixed_scalar]) _ rfl

/-- `c != 5` and `c NOT IN (5,)` are of the fragment, and are told apart by their texts `!c:5` and `!c:[5]`. -/
example : UsualFilter (.cond (col c!"c") .neq (.int 5)) ∧ UsualFilter (.cond (col c!"c") .notIn (.tuple [.int 5])) :=
  ⟨.eq _ _ _ (.inr rfl) (by unfold ColonFree; decide) (.int _) (by rintro ⟨⟩),
    .isIn _ _ _ (.inr rfl) (by unfold ColonFree; decide) (.tuple _ (by simp; exact .int _)) (.tuple _)⟩

example : condMql .mql (.cond (col c!"c") .neq (.int 5)) = .ok c!"!c:5" ∧
    condMql .mql (.cond (col c!"c") .notIn (.tuple [.int 5])) = .ok c!"!c:[5]" := ⟨rfl, rfl⟩

end Examples

end Verif
