import Verif.Lemmas.QueryRead

/-!
# C57: whole queries can be read back from their text
-/

namespace Verif
open Spec

section
variable [U : PyUnicode]

/-! ### Conditions -/

/-- The text of an expression is read as a tree that says it. -/
theorem expr_whole {al : Bool} {v : Val} (h : WF v) (hr : ReadableVal v) {t : Str} (ht : translate ⟨al, false⟩ v = .ok t) :
    ∃ tr, readExpression t = some tr ∧ Says al v tr := by
  obtain ⟨tr, h1, h2⟩ := expr_reads al h hr t ht
  refine ⟨tr, ?_, h1⟩
  have := h2.reads [] ⟨.inl rfl, rfl⟩ (t.length + 1) (Nat.le_refl _)
  rw [List.append_nil] at this
  simp [readExpression, this]

omit U in
theorem readableCondition_smooth {v : Val} (h : ReadableCondition v) : Cond v ∧ SmoothVal v := by
  induction h with
  | cond l o r hl hr =>
    refine ⟨.cond .., fun x hx => ?_⟩
    rcases part_iff.1 hx with rfl | ⟨c, hc, hp⟩
    · trivial
    · simp only [Val.children, List.mem_cons, List.not_mem_nil, or_false] at hc
      rcases hc with rfl | rfl
      · exact hl.1 x hp
      · exact hr.1 x hp
  | group cls o k cs _ ih =>
    refine ⟨.boolCond .., fun x hx => ?_⟩
    rcases part_iff.1 hx with rfl | ⟨c, hc, hx⟩
    · trivial
    · exact (ih c hc).2 x hx

/-- The tree of the texts of a condition says the condition. -/
theorem saysCondition_of {al : Bool} {v : Val} (h : ReadableCondition v) : WF v → ∀ b, TreeOf ⟨al, false⟩ v b →
    SaysCondition al v b := by
  induction h with
  | cond l o r hl hr =>
    intro hw b hb
    have hwf : WF l ∧ WF r := by
      have := wf_cond_inv hw
      exact ⟨this.1, this.2.1⟩
    cases hb with
    | unary _ _ _ lt ho ht =>
      obtain ⟨tr, h1, h2⟩ := expr_whole hwf.1 hl ht
      exact .unary _ _ _ _ tr ho h1 h2
    | binary _ _ _ lt rt ho ho' ht ht' =>
      obtain ⟨tl, h1, h2⟩ := expr_whole hwf.1 hl ht
      obtain ⟨tr, h3, h4⟩ := expr_whole hwf.2 hr ht'
      exact .binary _ _ _ _ _ tl tr ho ho' h1 h2 h3 h4
  | group cls o k cs _ ih =>
    intro hw b hb
    have hwf := wf_bool_items hw
    cases hb with
    | group _ _ _ _ ts hts =>
      refine .group _ _ _ _ _ ?_
      have key : ∀ {cs : List Val} {ts : List BTree}, TreesOf ⟨al, false⟩ cs ts →
          (∀ c ∈ cs, ∀ b, TreeOf ⟨al, false⟩ c b → SaysCondition al c b) → SaysConditions al cs ts := by
        intro cs
        induction cs with
        | nil => intro ts h _; cases h; exact .nil
        | cons c cs ih =>
          intro ts h hc
          cases h with
          | cons _ _ t ts h1 h2 => exact .cons _ _ _ _ (hc c (by simp) t h1) (ih h2 fun c hm => hc c (by simp [hm]))
      exact key hts fun c hc b hb => ih c hc (hwf c hc) b hb

theorem conditions_read {al : Bool} : ∀ {xs : List Val} {ts : List Str}, (∀ x ∈ xs, WF x ∧ ReadableCondition x) →
    translateAll ⟨al, false⟩ xs = .ok ts → ∃ bs, SaysConditions al xs bs ∧ ReadAll ts bs
  | [], ts, _, h => by cases h; exact ⟨[], .nil, .nil⟩
  | x :: xs, ts, hx, h => by
    simp only [translateAll, bind_eq_ok, Except.ok.injEq] at h
    obtain ⟨t, ht, ts, hts, rfl⟩ := h
    obtain ⟨hw, hr⟩ := hx x (by simp)
    obtain ⟨hc, hs⟩ := readableCondition_smooth hr
    obtain ⟨b, h1, h2⟩ := cond_reads al hw hc hs t ht
    obtain ⟨bs, h3, h4⟩ := conditions_read (fun x hm => hx x (by simp [hm])) hts
    exact ⟨b :: bs, .cons _ _ _ _ (saysCondition_of hr hw b h1) h3, .cons _ _ _ _ h2 h4⟩

/-! ### Clauses -/

/-- A clause whose text can be read (`ReadableClause` with structurally sound instead of built values). -/
def FitClause (f : Field) (v : Val) : Prop :=
  v = .none ∨ match f with
  | .select | .groupby | .arrayJoin => ∃ k xs, SeqOf v k xs ∧ ∀ x ∈ xs, WF x ∧ ReadableVal x
  | .where_ | .having => ∃ k xs, SeqOf v k xs ∧ ∀ x ∈ xs, WF x ∧ ReadableCondition x
  | .orderby => ∃ k xs, SeqOf v k xs ∧ ∀ x ∈ xs, ∃ e d, x = .orderby e d ∧ WF x ∧ ReadableVal e
  | .limitby => ∃ k cs n, v = .limitby k cs n ∧ WF v ∧ ∀ c ∈ cs, SmoothColumn c ∧ NoComma (.column c)
  | .limit => ∃ n, v = .limit n
  | .offset => ∃ n, v = .offset n
  | .granularity => ∃ n, v = .granularity n
  | .totals => ∃ b, v = .totals b

theorem readable_fit {f : Field} {v : Val} (h : ReadableClause f v) : FitClause f v := by
  cases h with
  | none => exact .inl rfl
  | expressions _ _ k xs hf hs hx =>
    rcases hf with rfl | rfl | rfl <;> exact .inr ⟨k, xs, hs, fun x hm => ⟨built_wf (hx x hm).1, (hx x hm).2⟩⟩
  | conditions _ _ k xs hf hs hx =>
    rcases hf with rfl | rfl <;> exact .inr ⟨k, xs, hs, fun x hm => ⟨built_wf (hx x hm).1, (hx x hm).2⟩⟩
  | orderings _ k xs hs hx =>
    refine .inr ⟨k, xs, hs, fun x hm => ?_⟩
    obtain ⟨e, d, rfl, hb, hr⟩ := hx x hm
    exact ⟨e, d, rfl, built_wf hb, hr⟩
  | limitby k cs n hb hc => exact .inr ⟨k, cs, n, rfl, built_wf hb, hc⟩
  | limit n => exact .inr ⟨n, rfl⟩
  | offset n => exact .inr ⟨n, rfl⟩
  | granularity n => exact .inr ⟨n, rfl⟩
  | totals b => exact .inr ⟨b, rfl⟩

omit U in
theorem paired'_all {cfg : Cfg} : ∀ {xs : List Val} {ts : List Str}, ClauseText.Paired' cfg xs ts →
    translateAll cfg xs = .ok ts
  | [], [], _ => rfl
  | [], _ :: _, h => h.elim
  | _ :: _, [], h => h.elim
  | x :: xs, t :: ts, h => by
    simp only [ClauseText.Paired'] at h
    simp [translateAll, h.1, paired'_all h.2]

omit U in
/-- A list clause is read. -/
theorem list_reads {α : Type} {cfg : Cfg} {f : Field} {sep : Str} {b : Body} {t : Str} {R : List Val → α → Prop}
    {P : Val → Prop} {read : Str → Option (α × Str)} (hf : f.itemSep = some sep)
    (hv : f.get b = .none ∨ ∃ k xs, SeqOf (f.get b) k xs ∧ ∀ x ∈ xs, P x)
    (ht : f.isSet b = true → ClauseText cfg f (f.get b) t)
    (hread : ∀ xs ts, xs ≠ [] → (∀ x ∈ xs, P x) → translateAll cfg xs = .ok ts →
      ∃ x, R xs x ∧ ReadBy read Next (joinWith sep ts) x) :
    (f.isSet b = true → ∃ x, ReadBy read Next t x ∧ SaysList R (f.get b) (some x)) ∧
    (f.isSet b = false → SaysList R (f.get b) none) := by
  constructor
  · intro hs
    have htext := ht hs
    simp only [ClauseText, hf] at htext
    obtain ⟨k, xs, ts, hsq, hp, rfl⟩ := htext
    have hne : xs ≠ [] := by
      rintro rfl
      simp only [Field.isSet, hf] at hs
      generalize f.get b = v at hs hsq
      cases hsq <;> simp at hs
    have hall : ∀ x ∈ xs, P x := by
      rcases hv with hv | ⟨k', xs', hsq', hP⟩
      · rw [hv] at hsq; cases hsq
      · rw [hsq.unique hsq']; exact hP
    obtain ⟨x, h1, h2⟩ := hread xs ts hne hall (paired'_all hp)
    exact ⟨x, h2, .some _ k xs x hsq hne h1⟩
  · intro hs
    rcases hv with hv | ⟨k, xs, hsq, _⟩
    · rw [hv]; exact .none
    · refine .empty _ k ?_
      simp only [Field.isSet, hf] at hs
      generalize f.get b = v at hs hsq
      cases hsq with
      | list xs => cases xs <;> simp at hs; exact .list []
      | tuple xs => cases xs <;> simp at hs; exact .tuple []

omit U in
/-- A clause with one value is read. -/
theorem one_reads {cfg : Cfg} {f : Field} {b : Body} {t : Str} {R : Val → Str → Prop} (hf : f.itemSep = none)
    (ht : f.isSet b = true → ClauseText cfg f (f.get b) t)
    (hread : f.get b ≠ .none → translate cfg (f.get b) = .ok t → R (f.get b) t ∧ ExprWord t) :
    (f.isSet b = true → ∃ x, ReadBy readWord Next t x ∧ SaysOne R (f.get b) (some x)) ∧
    (f.isSet b = false → SaysOne R (f.get b) none) := by
  constructor
  · intro hs
    have htext := ht hs
    simp only [ClauseText, hf] at htext
    have hne : f.get b ≠ .none := by
      intro h
      simp [Field.isSet, hf, h] at hs
    obtain ⟨h1, h2⟩ := hread hne htext
    exact ⟨t, readWord_next h2, .some _ _ h1⟩
  · intro hs
    have : f.get b = .none := by
      simp only [Field.isSet, hf] at hs
      generalize f.get b = v at hs
      cases v <;> first | rfl | cases hs
    rw [this]; exact .none

theorem expressions_read {al : Bool} (xs : List Val) (ts : List Str) (hne : xs ≠ [])
    (hx : ∀ x ∈ xs, WF x ∧ ReadableVal x) (h : translateAll ⟨al, false⟩ xs = .ok ts) :
    ∃ trs, SaysAll al xs trs ∧ ReadBy readExpressions Next (joinWith c!", " ts) trs := by
  obtain ⟨trs, h1, h2⟩ := translateAll_trees h fun x hm t ht => expr_reads al (hx x hm).1 (hx x hm).2 t ht
  refine ⟨trs, h1, readExpressions_spec h2 ?_⟩
  rintro rfl
  cases h2
  cases h1
  exact hne rfl

theorem conditions_clause {al : Bool} (xs : List Val) (ts : List Str) (hne : xs ≠ [])
    (hx : ∀ x ∈ xs, WF x ∧ ReadableCondition x) (h : translateAll ⟨al, false⟩ xs = .ok ts) :
    ∃ t, (∃ bs, SaysConditions al xs bs ∧ t = group .and bs) ∧ ReadBy readConditions Next (joinWith c!" AND " ts) t := by
  obtain ⟨bs, h1, h2⟩ := conditions_read hx h
  refine ⟨_, ⟨bs, h1, rfl⟩, readConditions_spec h2 ?_⟩
  rintro rfl
  cases h2
  cases h1
  exact hne rfl

theorem orderings_read {al : Bool} : ∀ (xs : List Val) (ts : List Str),
    (∀ x ∈ xs, ∃ e d, x = .orderby e d ∧ WF x ∧ ReadableVal e) → translateAll ⟨al, false⟩ xs = .ok ts →
    ∃ trs, Paired (SaysOrdering al) xs trs ∧ Paired (ReadBy readOrdering OrderEnd) ts trs
  | [], ts, _, h => by cases h; exact ⟨[], .nil, .nil⟩
  | x :: xs, ts, hx, h => by
    simp only [translateAll, bind_eq_ok, Except.ok.injEq] at h
    obtain ⟨t, ht, ts, hts, rfl⟩ := h
    obtain ⟨e, d, rfl, hw, hr⟩ := hx x (by simp)
    obtain ⟨trs, h1, h2⟩ := orderings_read xs ts (fun x hm => hx x (by simp [hm])) hts
    simp only [translate, bind_eq_ok, Except.ok.injEq] at ht
    obtain ⟨te, hte, rfl⟩ := ht
    have hwe : WF e := by
      cases hw with
      | literal _ h => cases h
      | orderby _ _ h _ => exact h
    obtain ⟨tr, h3, h4⟩ := expr_reads al hwe hr te hte
    exact ⟨(tr, d) :: trs, .cons _ _ _ _ (.mk _ _ _ h3) h1, .cons _ _ _ _ (readOrdering_spec h4 d) h2⟩

omit U in
theorem boolWord (b : Bool) : SaysCount (.bool b) (boolStr b) ∧ ExprWord (boolStr b) := by
  cases b
  · exact ⟨.false, wordText_dull (by decide) (by decide) (by decide)⟩
  · exact ⟨.true, wordText_dull (by decide) (by decide) (by decide)⟩

/-- All clauses of a query are read. -/
theorem clauses_read {al : Bool} {b : Body} {txt : Field → Str} (hc : ∀ f : Field, FitClause f (f.get b))
    (ht : ∀ f : Field, f.isSet b = true → ClauseText ⟨al, false⟩ f (f.get b) (txt f)) {rest : Str} (hr : After [] rest) :
    ∃ ct, SaysClauses al b ct ∧ readClauses (clauseTail clauseOrder b txt ++ rest) = some (ct, rest) := by
  have ex : ∀ f : Field, f.itemSep = some c!", " → (f.get b = .none ∨ ∃ k xs, SeqOf (f.get b) k xs ∧ ∀ x ∈ xs, WF x ∧ ReadableVal x) →
      (f.isSet b = true → ∃ x, ReadBy readExpressions Next (txt f) x ∧ SaysList (SaysAll al) (f.get b) (some x)) ∧
      (f.isSet b = false → SaysList (SaysAll al) (f.get b) none) :=
    fun f hf hv => list_reads hf hv (ht f) expressions_read
  have co : ∀ f : Field, f.itemSep = some c!" AND " → (f.get b = .none ∨ ∃ k xs, SeqOf (f.get b) k xs ∧ ∀ x ∈ xs, WF x ∧ ReadableCondition x) →
      (f.isSet b = true → ∃ x, ReadBy readConditions Next (txt f) x ∧
        SaysList (fun xs t => ∃ ts, SaysConditions al xs ts ∧ t = group .and ts) (f.get b) (some x)) ∧
      (f.isSet b = false → SaysList (fun xs t => ∃ ts, SaysConditions al xs ts ∧ t = group .and ts) (f.get b) none) :=
    fun f hf hv => list_reads hf hv (ht f) conditions_clause
  obtain ⟨a1, b1⟩ := ex .select rfl (hc .select)
  obtain ⟨a2, b2⟩ := ex .groupby rfl (hc .groupby)
  obtain ⟨a3, b3⟩ := ex .arrayJoin rfl (hc .arrayJoin)
  obtain ⟨a4, b4⟩ := co .where_ rfl (hc .where_)
  obtain ⟨a5, b5⟩ := co .having rfl (hc .having)
  obtain ⟨a6, b6⟩ := list_reads (f := .orderby) (R := Paired (SaysOrdering al)) (read := readOrderings) rfl (hc .orderby)
    (ht .orderby) (by
      intro xs ts hne hx h
      obtain ⟨trs, h1, h2⟩ := orderings_read xs ts hx h
      refine ⟨trs, h1, readOrderings_spec h2 ?_⟩
      rintro rfl
      have e1 := paired_length h1
      have e2 := paired_length h2
      rw [← e2] at e1
      exact hne (List.eq_nil_of_length_eq_zero e1))
  obtain ⟨a8, b8⟩ := one_reads (f := .limit) (R := fun v w => ∃ n, v = .limit n ∧ readToken w = some (.int n.toInt)) rfl (ht .limit) (by
    intro h0 h
    obtain ⟨n, hn⟩ := (hc .limit).resolve_left h0
    rw [hn] at h ⊢
    simp only [translate, Except.ok.injEq] at h
    rw [← h]
    exact ⟨⟨n, rfl, readToken_int _⟩, int_exprWord _⟩)
  obtain ⟨a9, b9⟩ := one_reads (f := .offset) (R := fun v w => ∃ n, v = .offset n ∧ readToken w = some (.int n.toInt)) rfl (ht .offset) (by
    intro h0 h
    obtain ⟨n, hn⟩ := (hc .offset).resolve_left h0
    rw [hn] at h ⊢
    simp only [translate, Except.ok.injEq] at h
    rw [← h]
    exact ⟨⟨n, rfl, readToken_int _⟩, int_exprWord _⟩)
  obtain ⟨a10, b10⟩ := one_reads (f := .granularity) (R := fun v w => ∃ n, v = .granularity n ∧ readToken w = some (.int n.toInt)) rfl
    (ht .granularity) (by
    intro h0 h
    obtain ⟨n, hn⟩ := (hc .granularity).resolve_left h0
    rw [hn] at h ⊢
    simp only [translate, Except.ok.injEq] at h
    rw [← h]
    exact ⟨⟨n, rfl, readToken_int _⟩, int_exprWord _⟩)
  obtain ⟨a11, b11⟩ := one_reads (f := .totals) (R := fun v w => ∃ n, v = .totals n ∧ SaysCount (.bool n) w) rfl (ht .totals) (by
    intro h0 h
    obtain ⟨n, hn⟩ := (hc .totals).resolve_left h0
    rw [hn] at h ⊢
    simp only [translate, Except.ok.injEq] at h
    rw [← h]
    exact ⟨⟨n, rfl, (boolWord n).1⟩, (boolWord n).2⟩)
  have hl : Field.limit.isSet b = true → ExprWord (txt .limit) := by
    intro hs
    have h := ht .limit hs
    simp only [ClauseText, Field.itemSep] at h
    have h0 : b.limit ≠ .none := by
      intro h0
      simp [Field.isSet, Field.itemSep, Field.get, h0] at hs
    obtain ⟨n, hn⟩ := (hc .limit).resolve_left h0
    rw [show Field.get .limit b = _ from hn] at h
    simp only [translate, Except.ok.injEq] at h
    rw [← h]
    exact int_exprWord _
  have h7 : Field.limitby.isSet b = true → ∃ n ws, txt .limitby = n ++ c!" BY " ++ joinWith c!"," ws ∧ ExprWord n ∧
      (∀ w ∈ ws, ExprWord w) ∧ ws ≠ [] ∧ SaysOne (fun v t => ∃ k cs n, v = .limitby k cs n ∧ SaysCount n t.1 ∧
        t.2 = cs.map (columnWord al)) b.limitby (some (n, ws)) := by
    intro hs
    have h := ht .limitby hs
    simp only [ClauseText, Field.itemSep] at h
    have h0 : b.limitby ≠ .none := by
      intro h0
      simp [Field.isSet, Field.itemSep, Field.get, h0] at hs
    obtain ⟨k, cs, n, hn, hw, hcs⟩ := (hc .limitby).resolve_left h0
    have hn' : b.limitby = .limitby k cs n := hn
    rw [hn] at h hw
    have hw' : (∀ c ∈ cs, ColOk c) ∧ cs ≠ [] := by
      cases hw with
      | literal _ h => cases h
      | limitby _ _ _ h1 _ h2 _ _ => exact ⟨h1, h2⟩
    have hcol : ∀ c ∈ cs, ExprWord (colStr ⟨al, false⟩ c) ∧ colStr ⟨al, false⟩ c = columnWord al c :=
      fun c hm => column_exprWord (hw'.1 c hm) (hcs c hm).1 (hcs c hm).2
    simp only [translate, Except.ok.injEq] at h
    have hcount : SaysCount n n.str ∧ ExprWord n.str := by
      cases n with
      | int i => exact ⟨.int _ _ (readToken_int i), int_exprWord i⟩
      | bool b => exact boolWord b
    refine ⟨n.str, cs.map (columnWord al), ?_, hcount.2, ?_, by simpa using hw'.2, ?_⟩
    · rw [← h]
      congr 2
      exact List.map_congr_left fun c hm => (hcol c hm).2
    · intro w hm
      obtain ⟨c, hmc, rfl⟩ := List.mem_map.1 hm
      rw [← (hcol c hmc).2]
      exact (hcol c hmc).1
    · exact .some _ _ ⟨k, cs, n, hn', hcount.1, rfl⟩
  have h7' : Field.limitby.isSet b = false → SaysOne (fun v t => ∃ k cs n, v = .limitby k cs n ∧ SaysCount n t.1 ∧
        t.2 = cs.map (columnWord al)) b.limitby (none : Option (Str × List Str)) := by
    intro hs
    have : b.limitby = .none := by
      simp only [Field.isSet, Field.itemSep, Field.get] at hs
      generalize b.limitby = v at hs
      cases v <;> first | rfl | cases hs
    rw [this]; exact .none
  obtain ⟨o1, r1, q1⟩ := readClause_step .select [.groupby, .arrayJoin, .where_, .having, .orderby, .limitby, .limit, .offset, .granularity, .totals] hr (by decide) a1 b1
  obtain ⟨o2, r2, q2⟩ := readClause_step .groupby [.arrayJoin, .where_, .having, .orderby, .limitby, .limit, .offset, .granularity, .totals] hr (by decide) a2 b2
  obtain ⟨o3, r3, q3⟩ := readClause_step .arrayJoin [.where_, .having, .orderby, .limitby, .limit, .offset, .granularity, .totals] hr (by decide) a3 b3
  obtain ⟨o4, r4, q4⟩ := readClause_step .where_ [.having, .orderby, .limitby, .limit, .offset, .granularity, .totals] hr (by decide) a4 b4
  obtain ⟨o5, r5, q5⟩ := readClause_step .having [.orderby, .limitby, .limit, .offset, .granularity, .totals] hr (by decide) a5 b5
  obtain ⟨o6, r6, q6⟩ := readClause_step .orderby [.limitby, .limit, .offset, .granularity, .totals] hr (by decide) a6 b6
  obtain ⟨o7, r7, q7⟩ := readLimitBy_step rfl hr hl h7 h7'
  obtain ⟨o8, r8, q8⟩ := readClause_step .limit [.offset, .granularity, .totals] hr (by decide) a8 b8
  obtain ⟨o9, r9, q9⟩ := readClause_step .offset [.granularity, .totals] hr (by decide) a9 b9
  obtain ⟨o10, r10, q10⟩ := readClause_step .granularity [.totals] hr (by decide) a10 b10
  obtain ⟨o11, r11, q11⟩ := readClause_step .totals [] hr (by decide) a11 b11
  refine ⟨⟨o1, o2, o3, o4, o5, o6, o7, o8, o9, o10, o11⟩, ⟨q1, q2, q3, q4, q5, q6, q7, q8, q9, q10, q11⟩, ?_⟩
  have e1 : readClause c!" SELECT " readExpressions _ = _ := r1
  have e2 : readClause c!" BY " readExpressions _ = _ := r2
  have e3 : readClause c!" ARRAY JOIN " readExpressions _ = _ := r3
  have e4 : readClause c!" WHERE " readConditions _ = _ := r4
  have e5 : readClause c!" HAVING " readConditions _ = _ := r5
  have e6 : readClause c!" ORDER BY " readOrderings _ = _ := r6
  have e8 : readClause c!" LIMIT " readWord _ = _ := r8
  have e9 : readClause c!" OFFSET " readWord _ = _ := r9
  have e10 : readClause c!" GRANULARITY " readWord _ = _ := r10
  have e11 : readClause c!" TOTALS " readWord _ = some (o11, rest) := r11
  simp only [readClauses, clauseOrder, Option.bind_eq_bind, e1, e2, e3, e4, e5, e6, r7, e8, e9, e10, e11, Option.bind_some]

/-! ### Queries -/

/-- A query whose text can be read (`ReadableQuery` with structurally sound instead of built values). -/
inductive FitQuery : Query → Prop
  | base (m b) : WF m → SmoothNames m → (∀ f : Field, FitClause f (f.get b)) → FitQuery (.base m b)
  | nested (q b) : FitQuery q → (∀ f : Field, FitClause f (f.get b)) → FitQuery (.nested q b)

theorem readableQuery_fit {q : Query} (h : ReadableQuery q) : FitQuery q := by
  induction h with
  | base m b h1 h2 h3 => exact .base _ _ (built_wf h1) h2 fun f => readable_fit (h3 f)
  | nested q b _ h ih => exact .nested _ _ ih fun f => readable_fit (h f)

/-- What is printed for a query is read as a tree that says it. -/
theorem printed_reads {q : Query} (h : FitQuery q) : ∀ {t rest : Str}, Printed c!" " q t → MatchOk q → After [] rest →
    ∃ qt, SaysQuery q qt ∧ ∀ f, t.length + 1 ≤ f → readNested f (t ++ rest) = some (qt, rest) := by
  induction h with
  | base m b hw hs hc =>
    intro t rest hp hm hr
    cases hp with
    | base _ _ _ mt txt ht htxt =>
      obtain ⟨hu, src, h1, h2⟩ := readSource_spec hw hs hm ht
      obtain ⟨ct, h3, h4⟩ := clauses_read hc htxt hr
      refine ⟨_, .base _ _ _ _ _ h1 h3, fun f hf => ?_⟩
      obtain ⟨g, rfl⟩ : ∃ g, f = g + 1 := ⟨f - 1, by omega⟩
      have e : joinWith c!" " (clauseTexts (c!"MATCH " ++ mt) b txt) ++ rest =
          c!"MATCH " ++ (mt ++ (clauseTail clauseOrder b txt ++ rest)) := by
        simp only [clauseTexts, joinWith_tail, clauseTail, List.append_assoc]
      have hb : dropPrefix c!"{ " (mt ++ (clauseTail clauseOrder b txt ++ rest)) = none := by
        obtain ⟨u, rfl | rfl⟩ := hu <;> rfl
      rw [e, readNested, dropPrefix_append]
      simp only [Option.bind_eq_bind, Option.bind_some, hb,
        h2 _ (clauseTail_after clauseOrder b txt hr).next, h4]
  | nested q b _ hc ih =>
    intro t rest hp hm hr
    cases hp with
    | nested _ _ _ it txt hpi htxt =>
      obtain ⟨ct, h3, h4⟩ := clauses_read hc htxt hr
      obtain ⟨qt, h1, h2⟩ := ih (rest := c!" }" ++ (clauseTail clauseOrder b txt ++ rest)) hpi hm (.inr (.inl ⟨_, rfl⟩))
      refine ⟨_, .nested _ _ _ _ h1 h3, fun f hf => ?_⟩
      obtain ⟨g, rfl⟩ : ∃ g, f = g + 1 := ⟨f - 1, by omega⟩
      have e : joinWith c!" " (clauseTexts (c!"MATCH { " ++ it ++ c!" }") b txt) ++ rest =
          c!"MATCH " ++ (c!"{ " ++ (it ++ (c!" }" ++ (clauseTail clauseOrder b txt ++ rest)))) := by
        simp only [clauseTexts, joinWith_tail, clauseTail, List.append_assoc]
        rfl
      have hg : it.length + 1 ≤ g := by
        simp only [clauseTexts, joinWith_tail, List.length_append] at hf
        simp at hf
        omega
      rw [e, readNested, dropPrefix_append]
      simp only [Option.bind_eq_bind, Option.bind_some, dropPrefix_append, h2 g hg, h4]

omit U in
theorem readable_list {xs : List Val} (h : ∀ x ∈ xs, ReadableVal x) : ReadableVal (.list xs) := by
  constructor
  · intro x hx
    rcases part_iff.1 hx with rfl | ⟨c, hc, hp⟩
    · trivial
    · exact (h c hc).1 x hp
  · intro x hx
    rcases part_iff.1 hx with rfl | ⟨c, hc, hp⟩
    · exact ⟨trivial, .list _⟩
    · exact (h c hc).2 x hp

/-- What the optimiser puts in can be read if the original can. -/
theorem rewritten_readable {c c' : Val} (hw : WF c) (hr : ReadableCondition c) (h : Rewritten c c') :
    WF c' ∧ ReadableCondition c' := by
  refine ⟨(rewritten_sound hw (cond_element (readableCondition_smooth hr).1) h).1.1, ?_⟩
  rcases h with ⟨l, rs, hm, rfl⟩ | ⟨_, rfl⟩
  · obtain ⟨⟨cls, o, k, cs, r, rfl, hl⟩, hrs⟩ := mergeable_parts hm
    have inv : ∀ {l r : Val} {o : Op}, ReadableCondition (.cond l o r) → ReadableVal l ∧ ReadableVal r := by
      intro l r o h; cases h with | cond _ _ _ h1 h2 => exact ⟨h1, h2⟩
    have items : ∀ c ∈ cs, ReadableCondition c := by
      cases hr with | group _ _ _ _ h => exact h
    refine .cond _ _ _ (inv (items _ hl)).1 (readable_list fun r hrm => ?_)
    obtain ⟨_, _, _, _, _, hc, hl⟩ := hrs r hrm
    cases hc
    exact (inv (items _ hl)).2
  · exact hr

/-- **C57** (reading): the text of a serialised query is read as one query tree: what the query is on, every clause
with every item, and every subquery are in their places, and nothing else is there. The where clause of the outermost
query is the merged one. Missing: queries in which a function name, an entity alias or a relationship name contains
spaces, quotes, parentheses, brackets or commas (the property does not hold for them, see C56), and queries whose
clauses hold something else than the setters take. -/
theorem C57_reads_partial (q : Query) (hq : ReadableQuery q) (t : Str) (h : q.serialize = .ok t) :
    ∃ w qt, MergedWhere q.body.where_ w ∧ readQuery t = some qt ∧ SaysQuery (putWhere w q) qt := by
  have hfit := readableQuery_fit hq
  have hm : MatchOk q := by
    simp only [Query.serialize, bind_eq_ok] at h
    obtain ⟨_, hv, _⟩ := h
    exact validated_match hv
  obtain ⟨w, hp, hw, hset⟩ := C14_serialize q t h
  clear h hset
  have hfw : FitClause .where_ q.body.where_ := by
    cases hfit with
    | base m b _ _ hc => exact hc .where_
    | nested q b _ hc => exact hc .where_
  have key : MergedWhere q.body.where_ w ∧ FitClause .where_ w := by
    rcases hw with rfl | ⟨k, xs, new, hs, ho, rfl⟩
    · exact ⟨.inl rfl, hfw⟩
    · have hxs : ∀ x ∈ xs, WF x ∧ ReadableCondition x := by
        rcases hfw with h | ⟨k', xs', hs', h⟩
        · rw [h] at hs; cases hs
        · rw [hs.unique hs']; exact h
      obtain ⟨new', opt, h1, h2, hx⟩ := optimizeLoop_ok fun c hc => (hxs c hc).1
      have hnew : new' = new := by
        simp only [optimize, h1, ok_bind, Except.ok.injEq] at ho
        cases opt <;> simp at ho
        exact ho
      subst hnew
      refine ⟨.inr ⟨k, xs, new', hs, h2, rfl⟩, .inr ⟨_, _, .list new', ?_⟩⟩
      clear hs h1 ho hfw hp hx
      induction h2 with
      | nil => simp
      | cons a b as bs h _ ih =>
        simp only [List.mem_cons, forall_eq_or_imp] at hxs ⊢
        exact ⟨rewritten_readable hxs.1.1 hxs.1.2 h, ih hxs.2⟩
  have hput : FitQuery (putWhere w q) ∧ MatchOk (putWhere w q) := by
    have upd : ∀ b : Body, (∀ f : Field, FitClause f (f.get b)) → ∀ f : Field, FitClause f (f.get { b with where_ := w }) := by
      intro b h f
      cases f <;> first | exact key.2 | exact h .select | exact h .groupby | exact h .arrayJoin | exact h .having | exact h .orderby | exact h .limitby | exact h .limit | exact h .offset | exact h .granularity | exact h .totals
    cases hfit with
    | base m b h1 h2 h3 => exact ⟨.base _ _ h1 h2 (upd b h3), hm⟩
    | nested i b h1 h2 => exact ⟨.nested _ _ h1 (upd b h2), hm⟩
  obtain ⟨qt, h1, h2⟩ := printed_reads hput.1 hp hput.2 (.inl rfl : After [] [])
  refine ⟨w, qt, key.1, ?_, h1⟩
  have := h2 (t.length + 1) (Nat.le_refl _)
  rw [List.append_nil] at this
  simp [readQuery, this]

end

/-! ### Queries with the same text -/

theorem sameEntity_of {al : Bool} {e e' : EntityObj} {t : EntTree} (h : SaysEntity al e t) (h' : SaysEntity al e' t) :
    SameEntity al e e' := by
  refine ⟨fun ha => ?_, h.name.symm.trans h'.name, _, h.sample, h'.sample⟩
  subst ha
  have := h.nick.symm.trans h'.nick
  simpa using this

theorem sameLinks_of {rels : List RelObj} {ts : List LinkTree} (h : Paired SaysLink rels ts) :
    ∀ {rels' : List RelObj}, Paired SaysLink rels' ts → Paired SameLink rels rels' := by
  induction h with
  | nil => intro _ h'; cases h'; exact .nil
  | cons a b as bs h _ ih =>
    intro _ h'
    cases h' with
    | cons a' _ as' _ h' hs' =>
      exact .cons _ _ _ _ ⟨sameEntity_of h.lhs h'.lhs, h.name.symm.trans h'.name, sameEntity_of h.rhs h'.rhs⟩ (ih hs')

theorem sameSource_of {j j' : Bool} {m m' : Val} {t : SourceTree} (h : SaysSource j m t) (h' : SaysSource j' m' t) :
    SameSource j m m' ∧ j' = j ∧ (j = true ↔ ∃ k rels, m = .join k rels) ∧ (j' = true ↔ ∃ k rels, m' = .join k rels) := by
  cases h with
  | entity e t h => cases h' with | entity e' _ h' => exact ⟨.entity _ _ (sameEntity_of h h'), rfl, by simp, by simp⟩
  | storage s x h =>
    generalize hn : s.name = n at h'
    cases h' with | storage s' _ h' => exact ⟨.storage _ _ hn ⟨_, h, h'⟩, rfl, by simp, by simp⟩
  | join k rels ts h => cases h' with | join k' rels' _ h' => exact ⟨.join _ _ _ _ (sameLinks_of h h'), rfl, by simp, by simp⟩

theorem unambiguousCondition_cond {al : Bool} {l r : Val} {o : Op} (h : UnambiguousCondition al (.cond l o r)) :
    UnambiguousVal al l ∧ UnambiguousVal al r := by
  cases h with | cond _ _ _ h1 h2 => exact ⟨h1, h2⟩

theorem unambiguousCondition_group {al : Bool} {cls : BoolCls} {o : BooleanOp} {k : SeqKind} {cs : List Val}
    (h : UnambiguousCondition al (.boolCond cls o k cs)) : ∀ c ∈ cs, UnambiguousCondition al c := by
  cases h with | group _ _ _ _ h => exact h

mutual
theorem sameCondition_of {al : Bool} : ∀ {c c' : Val} {t t' : BTree}, SaysCondition al c t → SaysCondition al c' t' → t = t' →
    UnambiguousCondition al c → UnambiguousCondition al c' → SameCondition al c c'
  | _, _, _, _, .unary l o r lt tr ho hr hs, h', e, hu, hu' => by
    subst e
    cases h' with
    | unary l' _ r' _ tr' _ hr' hs' =>
      rw [hr] at hr'
      cases hr'
      exact .unary _ _ _ _ _ ho (same_of_says hs hs' rfl (unambiguousCondition_cond hu).1 (unambiguousCondition_cond hu').1)
  | _, _, _, _, .binary l o r lt rt tl tr _ _ hl hls hr hrs, h', e, hu, hu' => by
    subst e
    cases h' with
    | binary l' _ r' _ _ tl' tr' _ _ hl' hls' hr' hrs' =>
      rw [hl] at hl'
      rw [hr] at hr'
      cases hl'
      cases hr'
      exact .binary _ _ _ _ _ (same_of_says hls hls' rfl (unambiguousCondition_cond hu).1 (unambiguousCondition_cond hu').1)
        (same_of_says hrs hrs' rfl (unambiguousCondition_cond hu).2 (unambiguousCondition_cond hu').2)
  | _, _, _, _, .group cls o k cs ts h, h', e, hu, hu' => by
    subst e
    cases h' with
    | group cls' _ k' cs' _ h' =>
      exact .group _ _ _ _ _ _ _ (sameConditions_of h h' rfl (unambiguousCondition_group hu) (unambiguousCondition_group hu'))

theorem sameConditions_of {al : Bool} : ∀ {cs cs' : List Val} {ts ts' : List BTree}, SaysConditions al cs ts →
    SaysConditions al cs' ts' → ts = ts' → (∀ c ∈ cs, UnambiguousCondition al c) → (∀ c ∈ cs', UnambiguousCondition al c) →
    SameConditions al cs cs'
  | _, _, _, _, .nil, h', e, _, _ => by
    subst e
    cases h'
    exact .nil
  | _, _, _, _, .cons c cs t ts h hs, h', e, hu, hu' => by
    subst e
    cases h' with
    | cons c' cs' _ _ h' hs' =>
      exact .cons _ _ _ _ (sameCondition_of h h' rfl (hu _ (by simp)) (hu' _ (by simp)))
        (sameConditions_of hs hs' rfl (fun x hx => hu x (by simp [hx])) (fun x hx => hu' x (by simp [hx])))
end

/-- Conditions in a row make a group unless there is only one. -/
theorem group_cases (o : BooleanOp) (ts : List BTree) : (∃ t, ts = [t] ∧ group o ts = t) ∨ group o ts = .node o ts := by
  match ts with
  | [] => exact .inr rfl
  | [t] => exact .inl ⟨t, rfl, rfl⟩
  | _ :: _ :: _ => exact .inr rfl

theorem sameConjunction_of {al : Bool} {cs cs' : List Val} {ts ts' : List BTree} (h : SaysConditions al cs ts)
    (h' : SaysConditions al cs' ts') (e : group .and ts = group .and ts') (hu : ∀ c ∈ cs, UnambiguousCondition al c)
    (hu' : ∀ c ∈ cs', UnambiguousCondition al c) : SameConjunction al cs cs' := by
  rcases group_cases .and ts with ⟨t, rfl, ht⟩ | ht <;> rcases group_cases .and ts' with ⟨t', rfl, ht'⟩ | ht' <;>
    rw [ht, ht'] at e
  · exact .same _ _ (sameConditions_of h h' (by rw [e]) hu hu')
  · subst e
    cases h with
    | cons c _ _ _ h hs =>
      cases hs
      cases h with
      | group cls _ k cs _ h =>
        exact .left _ _ _ _ (sameConditions_of h h' rfl (unambiguousCondition_group (hu _ (List.mem_cons_self ..))) hu')
  · subst e
    cases h' with
    | cons c _ _ _ h' hs =>
      cases hs
      cases h' with
      | group cls _ k cs _ h' =>
        exact .right _ _ _ _ (sameConditions_of h h' rfl hu (unambiguousCondition_group (hu' _ (List.mem_cons_self ..))))
  · cases e
    exact .same _ _ (sameConditions_of h h' rfl hu hu')

theorem sameList_of {α : Type} {R : List Val → α → Prop} {Q : List Val → List Val → Prop} {v v' : Val} {t : Option α}
    (h : SaysList R v t) (h' : SaysList R v' t)
    (hq : ∀ k k' xs xs' x, SeqOf v k xs → SeqOf v' k' xs' → R xs x → R xs' x → Q xs xs') : SameList Q v v' := by
  cases h with
  | some _ k xs x hs _ hx =>
    cases h' with
    | some _ k' xs' _ hs' _ hx' => exact .items _ _ _ _ _ _ hs hs' (hq _ _ _ _ _ hs hs' hx hx')
  | none =>
    cases h' with
    | none => exact .missing _ _ (.inl rfl) (.inl rfl)
    | empty _ k' hs' => exact .missing _ _ (.inl rfl) (.inr ⟨_, hs'⟩)
  | empty _ k hs =>
    cases h' with
    | none => exact .missing _ _ (.inr ⟨_, hs⟩) (.inl rfl)
    | empty _ k' hs' => exact .missing _ _ (.inr ⟨_, hs⟩) (.inr ⟨_, hs'⟩)

theorem sameOrderings_of {al : Bool} {xs : List Val} {ts : List (STree × Direction)} (h : Paired (SaysOrdering al) xs ts) :
    ∀ {xs' : List Val}, Paired (SaysOrdering al) xs' ts → (∀ e d, .orderby e d ∈ xs → UnambiguousVal al e) →
      (∀ e d, .orderby e d ∈ xs' → UnambiguousVal al e) → Paired (SameOrdering al) xs xs' := by
  induction h with
  | nil => intro _ h' _ _; cases h'; exact .nil
  | cons a b as bs h _ ih =>
    intro _ h' hu hu'
    cases h' with
    | cons a' _ as' _ h' hs' =>
      refine .cons _ _ _ _ ?_ (ih hs' (fun e d he => hu e d (by simp [he])) (fun e d he => hu' e d (by simp [he])))
      cases h with
      | mk e d t h =>
        cases h' with
        | mk e' _ _ h' =>
          exact .mk _ _ _ (same_of_says h h' rfl (hu e d (by simp)) (hu' e' d (by simp)))

theorem saysCount_inj {n n' : PyInt} {w : Str} (h : SaysCount n w) (h' : SaysCount n' w) : n = n' := by
  have h1 : readToken c!"True" = none := by rfl
  have h2 : readToken c!"False" = none := by rfl
  cases h with
  | int i w h =>
    generalize hn : PyInt.int i = n at *
    cases h' with
    | int i' _ h' => rw [h] at h'; cases h'; exact hn.symm
    | true => rw [h1] at h; cases h
    | false => rw [h2] at h; cases h
  | true =>
    generalize hw : c!"True" = w at h'
    cases h' with
    | int i' _ h' => rw [← hw, h1] at h'; cases h'
    | true => rfl
    | false => cases hw
  | false =>
    generalize hw : c!"False" = w at h'
    cases h' with
    | int i' _ h' => rw [← hw, h2] at h'; cases h'
    | true => cases hw
    | false => rfl

theorem sameNumber_of {mk : PyInt → Val} {v v' : Val} {t : Option Str}
    (h : SaysOne (fun v w => ∃ n : PyInt, v = mk n ∧ readToken w = some (.int n.toInt)) v t)
    (h' : SaysOne (fun v w => ∃ n : PyInt, v = mk n ∧ readToken w = some (.int n.toInt)) v' t) : SameNumber mk v v' := by
  cases h with
  | none => cases h'; exact .none
  | some _ _ h =>
    cases h' with
    | some _ _ h' =>
      obtain ⟨n, rfl, h⟩ := h
      obtain ⟨n', rfl, h'⟩ := h'
      rw [h] at h'
      simp only [Option.some.injEq, Val.int.injEq] at h'
      exact .some _ _ h'

theorem sameClauses_of {al : Bool} {b b' : Body} {t : ClauseTrees} (h : SaysClauses al b t) (h' : SaysClauses al b' t)
    (hu : UnambiguousClauses al b) (hu' : UnambiguousClauses al b') : SameClauses al b b' where
  select := sameList_of h.select h'.select fun _ _ _ _ _ hs hs' hx hx' => sameAll_of_says hx hx' rfl (hu.select _ _ hs) (hu'.select _ _ hs')
  groupby := sameList_of h.groupby h'.groupby fun _ _ _ _ _ hs hs' hx hx' =>
    sameAll_of_says hx hx' rfl (hu.groupby _ _ hs) (hu'.groupby _ _ hs')
  arrayJoin := sameList_of h.arrayJoin h'.arrayJoin fun _ _ _ _ _ hs hs' hx hx' =>
    sameAll_of_says hx hx' rfl (hu.arrayJoin _ _ hs) (hu'.arrayJoin _ _ hs')
  where_ := sameList_of h.where_ h'.where_ fun _ _ _ _ _ hs hs' ⟨_, hx, e⟩ ⟨_, hx', e'⟩ =>
    sameConjunction_of hx hx' (e.symm.trans e') (hu.where_ _ _ hs) (hu'.where_ _ _ hs')
  having := sameList_of h.having h'.having fun _ _ _ _ _ hs hs' ⟨_, hx, e⟩ ⟨_, hx', e'⟩ =>
    sameConjunction_of hx hx' (e.symm.trans e') (hu.having _ _ hs) (hu'.having _ _ hs')
  orderby := sameList_of h.orderby h'.orderby fun _ _ _ _ _ hs hs' hx hx' =>
    sameOrderings_of hx hx' (hu.orderby _ _ hs) (hu'.orderby _ _ hs')
  limitby := by
    have h1 := h.limitby
    have h2 := h'.limitby
    generalize t.limitby = x at h1 h2
    generalize b.limitby = v at h1
    generalize b'.limitby = v' at h2
    cases h1 with
    | none => cases h2; exact .none
    | some _ x h1 =>
      cases h2 with
      | some _ _ h2 =>
        obtain ⟨k, cs, n, rfl, h1, h3⟩ := h1
        obtain ⟨k', cs', n', rfl, h2, h4⟩ := h2
        cases saysCount_inj h1 h2
        exact .some _ _ _ _ _ (h3.symm.trans h4)
  limit := sameNumber_of h.limit h'.limit
  offset := sameNumber_of h.offset h'.offset
  granularity := sameNumber_of h.granularity h'.granularity
  totals := by
    have h1 := h.totals
    have h2 := h'.totals
    generalize t.totals = x at h1 h2
    generalize b.totals = v at h1
    generalize b'.totals = v' at h2
    cases h1 with
    | none => cases h2; rfl
    | some _ x h1 =>
      cases h2 with
      | some _ _ h2 =>
        obtain ⟨n, rfl, h1⟩ := h1
        obtain ⟨n', rfl, h2⟩ := h2
        cases saysCount_inj h1 h2
        rfl

theorem sameQuery_of {q : Query} {t : QTree} (h : SaysQuery q t) : ∀ {q' : Query}, SaysQuery q' t → UnambiguousQuery q →
    UnambiguousQuery q' → SameQuery q q' := by
  induction h with
  | base j m b mt ct h1 h2 =>
    intro q' h' hu hu'
    cases h' with
    | base j' m' b' _ _ h1' h2' =>
      obtain ⟨h, rfl, hj, hj'⟩ := sameSource_of h1 h1'
      cases hu with
      | base i _ _ hi hu =>
        cases hu' with
        | base i' _ _ hi' hu' =>
          cases (Bool.eq_iff_iff.2 (hi.trans hj.symm) : i = j')
          cases (Bool.eq_iff_iff.2 (hi'.trans hj'.symm))
          exact .base _ _ _ _ _ h (sameClauses_of h2 h2' hu hu')
  | nested q b qt ct _ h2 ih =>
    intro q' h' hu hu'
    cases h' with
    | nested q' b' _ _ h1' h2' =>
      cases hu with
      | nested _ _ hq hu =>
        cases hu' with
        | nested _ _ hq' hu' => exact .nested _ _ _ _ (ih h1' hq hq') (sameClauses_of h2 h2' hu hu')

/-- Merging keeps a condition unambiguous. -/
theorem rewritten_unambiguous {al : Bool} {c c' : Val} (hr : UnambiguousCondition al c) (h : Rewritten c c') :
    UnambiguousCondition al c' := by
  rcases h with ⟨l, rs, hm, rfl⟩ | ⟨_, rfl⟩
  · obtain ⟨⟨cls, o, k, cs, r, rfl, hl⟩, hrs⟩ := mergeable_parts hm
    have items := unambiguousCondition_group hr
    refine .cond _ _ _ (unambiguousCondition_cond (items _ hl)).1 fun x hx => ?_
    rcases part_iff.1 hx with rfl | ⟨r, hrm, hp⟩
    · trivial
    · obtain ⟨_, _, _, _, _, hc, hl⟩ := hrs r hrm
      cases hc
      exact (unambiguousCondition_cond (items _ hl)).2 x hp
  · exact hr

theorem merged_clauses {al : Bool} {b : Body} {w : Val} (hw : MergedWhere b.where_ w) (h : UnambiguousClauses al b) :
    UnambiguousClauses al { b with where_ := w } := by
  refine { h with where_ := fun k xs hs => ?_ }
  rcases hw with rfl | ⟨k', ys, new, hy, hn, rfl⟩
  · exact h.where_ _ _ hs
  · cases hs
    have hys := h.where_ _ _ hy
    clear hy h
    induction hn with
    | nil => simp
    | cons a b as bs h _ ih =>
      simp only [List.mem_cons, forall_eq_or_imp] at hys ⊢
      exact ⟨rewritten_unambiguous hys.1 h, ih hys.2⟩

theorem merged_unambiguous {q : Query} {w : Val} (hw : MergedWhere q.body.where_ w) (hu : UnambiguousQuery q) :
    UnambiguousQuery (putWhere w q) := by
  cases hu with
  | base j m b hj h => exact .base _ _ _ hj (merged_clauses hw h)
  | nested i b hi h => exact .nested _ _ hi (merged_clauses hw h)

/-- **C57** (what a text means): if two queries are serialised to the same text, they are the same query at every
level, after merging in the where clause: on the same thing, with the same clauses. They differ at most in what SnQL
cannot express. Missing: see `C57_reads_partial`. -/
theorem C57_same_text_partial [U : PyUnicode] (q q' : Query) (hq : ReadableQuery q) (hq' : ReadableQuery q')
    (hu : UnambiguousQuery q) (hu' : UnambiguousQuery q') (t : Str) (h : q.serialize = .ok t) (h' : q'.serialize = .ok t) :
    ∃ w w', MergedWhere q.body.where_ w ∧ MergedWhere q'.body.where_ w' ∧ SameQuery (putWhere w q) (putWhere w' q') := by
  obtain ⟨w, qt, h1, h2, h3⟩ := C57_reads_partial q hq t h
  obtain ⟨w', qt', h1', h2', h3'⟩ := C57_reads_partial q' hq' t h'
  rw [h2] at h2'
  cases h2'
  exact ⟨w, w', h1, h1', sameQuery_of h3 h3' (merged_unambiguous h1 hu) (merged_unambiguous h1' hu')⟩

section Examples
local instance : PyUnicode := asciiUnicode

/-- A quarter. -/
private def quarter : Dbl := ⟨false, 1, -2, by decide⟩

/-- `(e: events SAMPLE 0.250000)`. -/
private def events : EntityObj := ⟨c!"events", some c!"e", some (.fin quarter), none⟩

/-- `(g: groups)`. -/
private def groups : EntityObj := ⟨c!"groups", some c!"g", none, none⟩

/-- A column of an entity. -/
private def colOf (e : Option EntityObj) : Val := .column ⟨c!"a", e, none, none⟩

/-- `a = n`. -/
private def compare (e : Option EntityObj) (n : Int) : Val := .cond (colOf e) .eq (.int n)

/-- A join. -/
private def joined : Val := .join .list [⟨events, c!"has", groups⟩]

/-- A query on a join. -/
private def innerQuery : Query :=
  .base joined { select := .list [colOf (some events)], having := .list [compare (some events) 3], limit := .limit (.int 10) }

/-- A query on that query, with equalities that are merged. -/
private def outerQuery : Query :=
  .nested innerQuery {
    select := .list [colOf none]
    where_ := .list [.boolCond .or .or .list [compare none 1, compare none 2]]
    orderby := .list [.orderby (colOf none) .desc] }

/-- Their text. -/
private def outerText : Str :=
  c!"MATCH { MATCH (e: events SAMPLE 0.250000) -[has]-> (g: groups) SELECT e.a HAVING e.a = 3 LIMIT 10 } " ++
    c!"SELECT a WHERE a IN array(1, 2) ORDER BY a DESC"

private theorem events_built : Built (.entity events) :=
  .entity (.str c!"events") (.str c!"e") (.float (.fin quarter)) .none _ (.literal _ (.str _)) (.literal _ (.str _))
    (.literal _ (.float _)) (.literal _ .none) rfl

private theorem groups_built : Built (.entity groups) :=
  .entity (.str c!"groups") (.str c!"g") .none .none _ (.literal _ (.str _)) (.literal _ (.str _)) (.literal _ .none)
    (.literal _ .none) rfl

private theorem joined_built : Built joined :=
  .join (.list [.rel ⟨events, c!"has", groups⟩]) _ (.list _ (by
    intro x hx
    simp only [List.mem_singleton] at hx
    subst hx
    exact .relationship (.entity events) (.str c!"has") (.entity groups) _ events_built (.literal _ (.str _))
      groups_built rfl)) rfl

private theorem joined_smooth : SmoothNames joined := by
  intro r hr
  simp only [List.mem_singleton] at hr
  subst hr
  refine ⟨fun a ha => ?_, fun a ha => ?_, ?_⟩
  · cases ha; unfold Smooth; decide
  · cases ha; unfold Smooth; decide
  · show Smooth c!"has"; unfold Smooth; decide

/-- The entities of the columns in the example. -/
private inductive Owner : Option EntityObj → Prop
  | none : Owner none
  | events : Owner (some events)

private theorem col_built {e : Option EntityObj} (h : Owner e) : Built (colOf e) := by
  cases h with
  | none => exact .column (.str c!"a") .none _ (.literal _ (.str _)) (.literal _ .none) rfl
  | events => exact .column (.str c!"a") (.entity events) _ (.literal _ (.str _)) events_built rfl

private theorem col_readable {e : Option EntityObj} (h : Owner e) : ReadableVal (colOf e) := by
  refine readableVal_iff.2 ⟨⟨?_, ?_, .column _⟩, by simp [colOf, Val.children]⟩
  · intro e' he a ha
    cases h with
    | none => cases he
    | events => cases he; cases ha; unfold Smooth; decide
  · intro e' a he ha
    cases h with
    | none => cases he
    | events => cases he; cases ha; decide

private theorem col_unambiguous {e : Option EntityObj} (h : Owner e) (al : Bool) : UnambiguousVal al (colOf e) := by
  refine unambiguousVal_iff.2 ⟨?_, by simp [colOf, Val.children]⟩
  intro v
  have : readToken (columnWord al ⟨c!"a", e, none, none⟩) = none := by cases h <;> cases al <;> rfl
  rw [this]
  simp

private theorem int_readable (n : Int) : ReadableVal (.int n) :=
  readableVal_iff.2 ⟨⟨trivial, trivial, .literal _ (.int _)⟩, by simp [Val.children]⟩

private theorem int_unambiguous (al : Bool) (n : Int) : UnambiguousVal al (.int n) :=
  unambiguousVal_iff.2 ⟨trivial, by simp [Val.children]⟩

private theorem compare_built {e : Option EntityObj} (h : Owner e) (n : Int) : Built (compare e n) :=
  .condition (colOf e) (.op .eq) (.int n) _ (col_built h) (.op _) (.literal _ (.int _)) rfl

private theorem compare_readable {e : Option EntityObj} (h : Owner e) (n : Int) : ReadableCondition (compare e n) :=
  .cond _ _ _ (col_readable h) (int_readable n)

private theorem compare_unambiguous {e : Option EntityObj} (h : Owner e) (al : Bool) (n : Int) :
    UnambiguousCondition al (compare e n) :=
  .cond _ _ _ (col_unambiguous h al) (int_unambiguous al n)

private theorem inner_readable : ReadableQuery innerQuery := by
  refine .base _ _ joined_built joined_smooth fun f => ?_
  cases f
  case select =>
    refine .expressions _ _ _ _ (.inl rfl) (.list _) ?_
    simp only [List.mem_singleton, forall_eq]
    exact ⟨col_built .events, col_readable .events⟩
  case having =>
    refine .conditions _ _ _ _ (.inr rfl) (.list _) ?_
    simp only [List.mem_singleton, forall_eq]
    exact ⟨compare_built .events 3, compare_readable .events 3⟩
  case limit => exact .limit _
  all_goals exact .none _

private theorem outer_readable : ReadableQuery outerQuery := by
  refine .nested _ _ inner_readable fun f => ?_
  cases f
  case select =>
    refine .expressions _ _ _ _ (.inl rfl) (.list _) ?_
    simp only [List.mem_singleton, forall_eq]
    exact ⟨col_built .none, col_readable .none⟩
  case where_ =>
    refine .conditions _ _ _ _ (.inl rfl) (.list _) ?_
    simp only [List.mem_singleton, forall_eq]
    refine ⟨.or (.list [compare none 1, compare none 2]) _ (.list _ ?_) rfl, .group _ _ _ _ ?_⟩ <;>
      simp only [List.mem_cons, List.not_mem_nil, or_false, forall_eq_or_imp, forall_eq]
    · exact ⟨compare_built .none 1, compare_built .none 2⟩
    · exact ⟨compare_readable .none 1, compare_readable .none 2⟩
  case orderby =>
    refine .orderings _ _ _ (.list _) ?_
    simp only [List.mem_singleton, forall_eq]
    exact ⟨_, _, rfl, .orderby (colOf none) (.direction .desc) _ (col_built .none) (.direction _) rfl, col_readable .none⟩
  all_goals exact .none _

private theorem outer_unambiguous : UnambiguousQuery outerQuery := by
  refine .nested _ _ (.base true _ _ ⟨fun _ => ⟨_, _, rfl⟩, fun _ => rfl⟩ ?_) ?_
  all_goals
    constructor <;> intro k xs hs <;> cases hs <;> simp only [List.mem_singleton, forall_eq]
  · exact col_unambiguous .events _
  · exact compare_unambiguous .events _ 3
  · exact col_unambiguous .none _
  · refine .group _ _ _ _ ?_
    simp only [List.mem_cons, List.not_mem_nil, or_false, forall_eq_or_imp, forall_eq]
    exact ⟨compare_unambiguous .none _ 1, compare_unambiguous .none _ 2⟩
  · intro e d h
    cases h
    exact col_unambiguous .none _

/-- The hypotheses of `C57_reads_partial` and `C57_same_text_partial` hold for a query on a query on a join, with
equalities that are merged. -/
example : ReadableQuery outerQuery ∧ UnambiguousQuery outerQuery ∧ outerQuery.serialize = .ok outerText :=
  ⟨outer_readable, outer_unambiguous, rfl⟩

set_option maxRecDepth 4000 in
/-- What is read there. -/
example : readQuery outerText = some (.nested
    (.base (.join [⟨⟨some c!"e", c!"events", some c!"0.250000"⟩, c!"has", ⟨some c!"g", c!"groups", none⟩⟩])
      ⟨some [.word c!"e.a"], none, none, none, some (.leaf c!"e.a" .eq (some c!"3")), none, none, some c!"10", none, none, none⟩)
    ⟨some [.word c!"a"], none, none, some (.leaf c!"a" .in_ (some c!"array(1, 2)")), none,
      some [(.word c!"a", .desc)], none, none, none, none, none⟩) := by rfl

/-- A function without arguments. -/
private def call (n : Str) : Val := .curried true n .absent [] .list [] none

/-- **C57** does not hold for all function names: a function may be called `ff() BY gg`, and then a query without a
groupby clause has the same text as a query with one. Both are valid and built by constructors. -/
theorem C57_fails_for_function_names : ∃ m b b' t, Built m ∧ (∀ f : Field, Built (f.get b) ∧ Built (f.get b')) ∧
    (Query.base m b).serialize = .ok t ∧ (Query.base m b').serialize = .ok t ∧
    ¬ ∃ w w', MergedWhere b.where_ w ∧ MergedWhere b'.where_ w' ∧
      SameQuery (putWhere w (.base m b)) (putWhere w' (.base m b')) := by
  refine ⟨.entity ⟨c!"events", none, none, none⟩, { select := .list [call c!"ff"], groupby := .list [call c!"gg"] },
    { select := .list [call c!"ff() BY gg"] }, c!"MATCH (events) SELECT ff() BY gg()", ?_, ?_, rfl, rfl, ?_⟩
  · exact .entity (.str c!"events") .none .none .none _ (.literal _ (.str _)) (.literal _ .none) (.literal _ .none)
      (.literal _ .none) rfl
  · have one : ∀ n, mkFunction (.str n) (.list []) .none = .ok (call n) → Built (.list [call n]) := fun n h =>
      .list _ (by
        simp only [List.mem_singleton, forall_eq]
        exact .function (.str n) (.list []) .none _ (.literal _ (.str _)) (.list _ (by simp)) (.literal _ .none) h)
    intro f
    cases f
    case select => exact ⟨one _ rfl, one _ rfl⟩
    case groupby => exact ⟨one _ rfl, .literal _ .none⟩
    all_goals exact ⟨.literal _ .none, .literal _ .none⟩
  · rintro ⟨w, w', _, _, h⟩
    cases h with
    | base j _ _ _ _ _ h =>
      have h : SameList (SameAll j) (.list [call c!"gg"]) .none := h.groupby
      cases h with
      | missing h =>
        rcases h with h | ⟨k, h⟩
        · cases h
        · cases h
      | items k k' xs xs' _ h => cases h

end Examples

end Verif
