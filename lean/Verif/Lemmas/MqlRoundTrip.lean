import Verif.Lemmas.MqlReads
import Verif.Lemmas.MqlNumber
import Verif.Props.MqlFilter

/-!
# The printed text of a query is read as its normal form
-/

namespace Verif

open Spec

theorem joinWith_flat (sep t : Str) (ts : List Str) : joinWith sep (t :: ts) = t ++ ts.flatMap (sep ++ ·) := by
  induction ts generalizing t with
  | nil => simp [joinWith]
  | cons u us ih => rw [joinWith, ih]; simp

theorem groups_false {α : Type} (x : α) (xs : List α) : groups x (xs.map fun y => (false, y)) = [x :: xs] := by
  induction xs generalizing x with
  | nil => rfl
  | cons y ys ih => rw [List.map_cons, groups, ih]

theorem groups_true {α : Type} (x : α) (xs : List α) : groups x (xs.map fun y => (true, y)) = (x :: xs).map ([·]) := by
  induction xs generalizing x with
  | nil => rfl
  | cons y ys ih => rw [List.map_cons, groups, ih]; simp

theorem orOfAnds_false (x : Val) (xs : List Val) : orOfAnds x (xs.map fun y => (false, y)) = conj (x :: xs) := by
  rw [orOfAnds, groups_false]; rfl

theorem orOfAnds_true (x : Val) (xs : List Val) : orOfAnds x (xs.map fun y => (true, y)) = disj (x :: xs) := by
  rw [orOfAnds, groups_true, List.map_map]
  congr 1
  exact List.map_id'' (fun _ => rfl) _

section
variable [S : RegexSpace]

theorem blank_blanks : Blanks [' '] := by
  intro c hc
  simp only [List.mem_singleton] at hc
  rw [hc]; exact S.blank

theorem nil_blanks : Blanks [] := by intro c hc; cases hc

theorem Spec.FilterFor.isCondition {c d : Val} (h : FilterFor c d) : c.isCondition = true := by cases h <;> rfl

/-- The texts of several filters. -/
theorem filters_texts {ps : List (Val × Val)} (joint : Str) (isOr : Bool)
    (h : ∀ p ∈ ps, p.1.isCondition = true ∧ ∃ t, condMql .mql p.1 = .ok t ∧ FilterText t p.2) :
    ∃ ls : List FilterLink, condMqlAll .mql (ps.map (·.1)) = .ok (ls.map (·.text)) ∧ ls.map (·.value) = ps.map (·.2) ∧
      (∀ l ∈ ls, FilterText l.text l.value ∧ l.joint = joint ∧ l.isOr = isOr) := by
  induction ps with
  | nil => exact ⟨[], rfl, rfl, by simp⟩
  | cons p ps ih =>
    simp only [List.mem_cons, forall_eq_or_imp] at h
    obtain ⟨⟨hc, t, ht, hr⟩, h⟩ := h
    obtain ⟨ls, h1, h2, h3⟩ := ih h
    refine ⟨⟨joint, isOr, t, p.2⟩ :: ls, ?_, ?_, ?_⟩
    · simp only [List.map_cons, condMqlAll, hc, if_true, ht, h1, ok_bind]
    · simp [h2]
    · intro l hl
      rcases List.mem_cons.1 hl with rfl | hl
      · exact ⟨hr, rfl, rfl⟩
      · exact h3 l hl

omit S in
theorem filterChain_join {t joint : Str} {ls : List FilterLink} (h : ∀ l ∈ ls, l.joint = joint) :
    filterChain t ls = joinWith joint (t :: ls.map (·.text)) := by
  rw [joinWith_flat, filterChain]
  congr 1
  induction ls with
  | nil => rfl
  | cons l ls ih =>
    simp only [List.mem_cons, forall_eq_or_imp] at h
    rw [List.map_cons, List.flatMap_cons, List.flatMap_cons, ih h.2, h.1]

omit S in
theorem links_values {b : Bool} {ls : List FilterLink} (h : ∀ l ∈ ls, l.isOr = b) :
    (ls.map fun l => (l.isOr, l.value)) = (ls.map (·.value)).map fun v => (b, v) := by
  rw [List.map_map]
  refine List.map_congr_left fun l hl => ?_
  simp [h l hl]

theorem compare_text {c : ColumnObj} {neg : Bool} {kind : ValueKind} {r v : Val} {t : Str} (hk : KeyText c.name)
    (hr : rhsMql .mql (compareOp neg kind) r = .ok t) (ht : FilterValueText t kind v) :
    ∃ t, condMql .mql (.cond (.column c) (compareOp neg kind) r) = .ok t ∧
      FilterText t (.cond (keyColumn c.name) (compareOp neg kind) v) := by
  refine ⟨_, ?_, FilterText.compare (neg := neg) (w := []) (w' := []) hk nil_blanks nil_blanks ht⟩
  have : mqlNeg (compareOp neg kind) = if neg then ['!'] else [] := by cases neg <;> cases kind <;> rfl
  simp only [condMql, hr, ok_bind, translate, colStr_mql, this]
  simp

theorem itemsText_strs {ss : List Str} (h : ∀ s ∈ ss, SafeText s) :
    ItemsText ((ss.map (strLit .mql)).flatMap (c!", " ++ ·) ++ [']']) ss := by
  induction ss with
  | nil => exact ItemsText.nil (w := []) nil_blanks
  | cons s ss ih =>
    simp only [List.mem_cons, forall_eq_or_imp] at h
    have := ItemsText.cons (w := []) (w' := [' ']) nil_blanks blank_blanks (ItemText.quoted h.1) (ih h.2)
    rw [quoteText_eq h.1] at this
    simpa using this

omit S in
theorem compareOp_unary (neg : Bool) (kind : ValueKind) : isUnary (compareOp neg kind) = false := by
  cases neg <;> cases kind <;> rfl

/-- Filters are printed as they are to be read. -/
theorem filter_text {c d : Val} (h : FilterFor c d) : ∃ t, condMql .mql c = .ok t ∧ FilterText t d := by
  induction h with
  | @text c neg s hk h hp =>
    refine compare_text hk ?_ (.quoted h hp)
    rw [quoteText_eq h]
    cases neg <;> rfl
  | @pattern c neg u hk h hs =>
    refine compare_text hk ?_ (.quotedPattern h)
    have hsafe : SafeText (u ++ ['*']) := by
      refine ⟨by simp [hs], ?_⟩
      simp only [List.mem_append, not_or]
      refine ⟨fun hn => ?_, by decide⟩
      have := (h.2 _ hn).2
      rw [S.newline] at this
      cases this
    rw [quoteText_eq hsafe]
    cases neg <;> rfl
  | @list c neg v ss hk hne hv h =>
    cases ss with
    | nil => exact absurd rfl hne
    | cons s ss =>
      have ht : FilterValueText ('[' :: (joinWith c!", " ((s :: ss).map (strLit .mql)) ++ [']'])) .list (.list ((s :: ss).map .str)) := by
        simp only [List.mem_cons, forall_eq_or_imp] at h
        have := FilterValueText.list (w := []) nil_blanks (ItemText.quoted h.1) (itemsText_strs h.2)
        rw [quoteText_eq h.1] at this
        rw [List.map_cons, joinWith_flat]
        simpa using this
      refine compare_text hk ?_ ht
      cases neg
      · exact seq_text (.inl rfl) hv
      · exact seq_text (.inr rfl) hv
  | @and cls k ps hne h ih =>
    cases ps with
    | nil => exact absurd rfl hne
    | cons p ps =>
      have ih' := fun q hq => And.intro (h q hq).isCondition (ih q hq)
      simp only [List.mem_cons, forall_eq_or_imp] at ih'
      obtain ⟨⟨hc, t, ht, hr⟩, ih'⟩ := ih'
      obtain ⟨ls, h1, h2, h3⟩ := filters_texts c!" AND " false ih'
      refine ⟨['('] ++ filterChain t ls ++ [')'], ?_, ?_⟩
      · rw [filterChain_join fun l hl => (h3 l hl).2.1]
        simp only [condMql, List.map_cons, condMqlAll, hc, if_true, ht, h1, ok_bind]
        rfl
      · have := FilterText.group (w := []) (w' := []) nil_blanks nil_blanks hr (fun l hl => (h3 l hl).1) (fun l hl => by
          rw [(h3 l hl).2.1, (h3 l hl).2.2]
          exact JointText.and (w := [' ']) (w' := [' ']) (word := c!"AND") blank_blanks (by simp) (.inl rfl) blank_blanks)
        rw [links_values fun l hl => (h3 l hl).2.2, orOfAnds_false, h2] at this
        simpa using this
  | @or cls k ps hne h ih =>
    cases ps with
    | nil => exact absurd rfl hne
    | cons p ps =>
      have ih' := fun q hq => And.intro (h q hq).isCondition (ih q hq)
      simp only [List.mem_cons, forall_eq_or_imp] at ih'
      obtain ⟨⟨hc, t, ht, hr⟩, ih'⟩ := ih'
      obtain ⟨ls, h1, h2, h3⟩ := filters_texts c!" OR " true ih'
      refine ⟨['('] ++ filterChain t ls ++ [')'], ?_, ?_⟩
      · rw [filterChain_join fun l hl => (h3 l hl).2.1]
        simp only [condMql, List.map_cons, condMqlAll, hc, if_true, ht, h1, ok_bind]
        rfl
      · have := FilterText.group (w := []) (w' := []) nil_blanks nil_blanks hr (fun l hl => (h3 l hl).1) (fun l hl => by
          rw [(h3 l hl).2.1, (h3 l hl).2.2]
          exact JointText.or (w := [' ']) (w' := [' ']) (word := c!"OR") blank_blanks (by simp) (.inl rfl) blank_blanks (by simp))
        rw [links_values fun l hl => (h3 l hl).2.2, orOfAnds_true, h2] at this
        simpa using this

omit S in
theorem seqOf_iter {v : Val} {xs : List Val} (h : SeqFor v xs) : iterItems v = .ok xs ∧ v.given = true ∧ v.truthy = !xs.isEmpty := by
  rcases h with rfl | rfl <;> refine ⟨rfl, rfl, ?_⟩ <;> cases xs <;> rfl

theorem filters_text {v : Val} {fs : List Val} (h : FiltersFor v fs) : ∃ t, filtersMql v = .ok t ∧ BlockText t fs ∧
    (t = [] ∨ ∃ s, t = s ++ ['}']) ∧ (t = [] → fs = []) := by
  cases h with
  | none => exact ⟨[], rfl, .none, .inl rfl, fun _ => rfl⟩
  | empty hv =>
    obtain ⟨h1, h2, _⟩ := seqOf_iter hv
    exact ⟨c!"{}", by simp only [filtersMql, h1, h2, if_true, ok_bind]; rfl, .empty, .inr ⟨['{'], rfl⟩, fun _ => rfl⟩
  | @some _ ps hne hv h =>
    cases ps with
    | nil => exact absurd rfl hne
    | cons p ps =>
      obtain ⟨i1, i2, _⟩ := seqOf_iter hv
      have h' := fun q hq => And.intro (h q hq).isCondition (filter_text (h q hq))
      simp only [List.mem_cons, forall_eq_or_imp] at h'
      obtain ⟨⟨hc, t, ht, hr⟩, h'⟩ := h'
      obtain ⟨ls, h1, h2, h3⟩ := filters_texts c!" AND " false h'
      refine ⟨['{'] ++ filterChain t ls ++ ['}'], ?_, ?_, .inr ⟨_, rfl⟩, by simp⟩
      · rw [filterChain_join fun l hl => (h3 l hl).2.1]
        simp only [filtersMql, i1, i2, if_true, List.map_cons, condMqlAll, hc, ht, h1, ok_bind]
      · have := BlockText.some (w := []) (w' := []) nil_blanks nil_blanks hr (fun l hl => (h3 l hl).1) (fun l hl => by
          rw [(h3 l hl).2.1, (h3 l hl).2.2]
          exact JointText.and (w := [' ']) (w' := [' ']) (word := c!"AND") blank_blanks (by simp) (.inl rfl) blank_blanks)
        rw [links_values fun l hl => (h3 l hl).2.2, orOfAnds_false, h2] at this
        simpa using this

omit S in
theorem translateAll_columns (cs : List ColumnObj) : translateAll .mql (cs.map .column) = .ok (cs.map (·.name)) := by
  induction cs with
  | nil => rfl
  | cons c cs ih => simp only [List.map_cons, translateAll, translate, colStr_mql, ih, ok_bind]

theorem keysText_names {ks : List Str} (h : ∀ k ∈ ks, KeyText k) : KeysText (ks.flatMap (c!", " ++ ·) ++ [')']) ks := by
  induction ks with
  | nil => exact KeysText.nil (w := []) nil_blanks
  | cons k ks ih =>
    simp only [List.mem_cons, forall_eq_or_imp] at h
    have := KeysText.cons (w := []) (w' := [' ']) nil_blanks blank_blanks h.1 (ih h.2)
    simpa using this

theorem groupby_text {v : Val} {gs : List Val} (h : GroupFor v gs) : ∃ t, groupbyMql v = .ok t ∧ GroupText t gs ∧
    (t = [] ∨ ∃ s, t = s ++ [')']) := by
  cases h with
  | none => exact ⟨[], rfl, .none, .inl rfl⟩
  | @some _ cs hne hv h =>
    obtain ⟨h1, h2, _⟩ := seqOf_iter hv
    refine ⟨c!" by (" ++ joinWith c!", " (cs.map (·.name)) ++ [')'], ?_, ?_, .inr ⟨_, rfl⟩⟩
    · simp only [groupbyMql, h1, h2, if_true, translateAll_columns, ok_bind]
    cases cs with
    | nil => exact absurd rfl hne
    | cons c cs =>
      simp only [List.mem_cons, forall_eq_or_imp] at h
      have := GroupText.many (w := [' ']) (w' := [' ']) (w'' := []) blank_blanks blank_blanks nil_blanks h.1
        (keysText_names (ks := cs.map (·.name)) (by simpa using h.2))
      rw [List.map_cons, joinWith_flat]
      simpa [Function.comp_def] using this

/-- The parameters of an aggregate, given the texts of each. -/
theorem paramsText_texts {ts : List Str} {vs : List Val} (h : Pairwise ParamText ts vs) (hne : ts ≠ []) :
    ParamsText (['('] ++ joinWith c!", " ts ++ [')']) (.list vs) := by
  cases h with
  | nil => exact absurd rfl hne
  | @cons t v ts vs h hs =>
    have tail : ParamsTail (ts.flatMap (c!", " ++ ·) ++ [')']) vs := by
      clear hne
      induction hs with
      | nil => exact ParamsTail.nil (w := []) nil_blanks
      | @cons t v ts vs h hs ih =>
        have := ParamsTail.cons (w := []) (w' := [' ']) nil_blanks blank_blanks h ih
        simpa using this
    have := ParamsText.some (w := []) nil_blanks h tail
    rw [joinWith_flat]
    simpa using this

theorem param_quoted {v w : Val} (h : ParamFor true v w) : ∃ t, translate .mql v = .ok t ∧ ParamText t w := by
  cases h with
  | int n => exact ⟨natStr n, rfl, .number (numText_nat n)⟩
  | float d hn he => exact ⟨_, rfl, .number (unsigned_text hn he)⟩
  | @quoted s h => exact ⟨strLit .mql s, rfl, by rw [← quoteText_eq h]; exact .quoted h⟩

theorem param_plain [PyRepr] {v w : Val} (h : ParamFor false v w) : ParamText (pyStr (.val v)) w := by
  cases h with
  | int n => exact .number (numText_nat n)
  | float d hn he => exact .number (unsigned_text hn he)
  | bare h hd => exact .bare h hd

theorem params_quoted {v w : Val} (h : ParamsFor true v w) : ∃ t, aggregateParamsMql v = .ok t ∧ ParamsText t w := by
  cases h with
  | none => exact ⟨[], rfl, .none⟩
  | empty hv => exact ⟨[], by simp [aggregateParamsMql, (seqOf_iter hv).2.2], .none⟩
  | @some _ ps hne hv h =>
    obtain ⟨h1, _, h3⟩ := seqOf_iter hv
    have : ∃ ts, translateAll .mql (ps.map (·.1)) = .ok ts ∧ Pairwise ParamText ts (ps.map (·.2)) := by
      clear hne hv h1 h3
      induction ps with
      | nil => exact ⟨[], rfl, .nil⟩
      | cons p ps ih =>
        simp only [List.mem_cons, forall_eq_or_imp] at h
        obtain ⟨ts, i1, i2⟩ := ih h.2
        obtain ⟨t, j1, j2⟩ := param_quoted h.1
        exact ⟨t :: ts, by simp only [List.map_cons, translateAll, j1, i1, ok_bind], .cons j2 i2⟩
    obtain ⟨ts, h4, h5⟩ := this
    refine ⟨_, ?_, paramsText_texts h5 ?_⟩
    · have : ps.isEmpty = false := by cases ps <;> simp_all
      simp [aggregateParamsMql, h1, h3, this, h4, ok_bind]
    · rintro rfl
      cases ps with
      | nil => exact hne rfl
      | cons p ps => simp only [List.map_cons] at h5; cases h5

theorem params_plain [PyRepr] {v w : Val} (h : ParamsFor false v w) : ∃ t, formulaParamsMql v = .ok t ∧ ParamsText t w := by
  cases h with
  | none => exact ⟨[], rfl, .none⟩
  | empty hv => exact ⟨[], by simp [formulaParamsMql, (seqOf_iter hv).2.2], .none⟩
  | @some _ ps hne hv h =>
    obtain ⟨h1, _, h3⟩ := seqOf_iter hv
    refine ⟨['('] ++ joinWith c!", " ((ps.map (·.1)).map fun x => pyStr (.val x)) ++ [')'], ?_, paramsText_texts ?_ ?_⟩
    · have : ps.isEmpty = false := by cases ps <;> simp_all
      simp [formulaParamsMql, h1, h3, this, ok_bind]
    · clear hne hv h1 h3
      induction ps with
      | nil => exact .nil
      | cons p ps ih =>
        simp only [List.mem_cons, forall_eq_or_imp] at h
        exact .cons (param_plain h.1) (ih h.2)
    · simpa using hne

theorem params_none [PyRepr] {v : Val} (h : ParamsFor false v .none) : formulaParamsMql v = .ok [] := by
  generalize hw : Val.none = w at h
  cases h with
  | none => rfl
  | empty hv => simp [formulaParamsMql, (seqOf_iter hv).2.2]
  | some _ _ _ => cases hw

theorem metric_text {m o : MetricObj} (h : MetricFor m o) : ∃ t, metricMql m = .ok t ∧ MetricText t o := by
  cases h with
  | mri h hs => exact ⟨_, rfl, .mri h hs⟩
  | pub h => exact ⟨_, rfl, .pub h⟩

/-- A call with filters and columns behind it. -/
theorem reads_suffix {t f g : Str} {x : MVal} {fs gs : List Val} (h : Reads .call t x) (hf : BlockText f fs) (hg : GroupText g gs)
    (h0 : f = [] → fs = []) : Reads .operand (t ++ f ++ g) (addGroups gs (addFilters fs x)) := by
  by_cases he : f = []
  · subst he
    rw [h0 rfl]
    have hx : addFilters [] x = x := by
      cases x <;> simp only [addFilters]
      · rename_i t; obtain ⟨m, a, p, f, g⟩ := t; cases f <;> simp [prepend]
      · rename_i f g; cases f <;> simp [prepend]
    rw [hx, List.append_nil]
    exact .plainCall h hg
  · have : Reads .operand (t ++ ([] ++ (f ++ g))) (addGroups gs (addFilters fs (addGroups [] x))) := .filteredCall h .none hf he hg
    have hx : addGroups [] x = x := by
      cases x <;> simp only [addGroups]
      · rename_i t; obtain ⟨m, a, p, f, g⟩ := t; cases g <;> simp [prepend]
      · rename_i f g; cases g <;> simp [prepend]
    rw [hx] at this
    simpa using this

omit S in
theorem prepend_none (xs : List Val) : prepend xs .none = optList xs := by cases xs <;> rfl

/-- The text and value of a query, with what is needed to see that no blanks surround it. -/
def Printed [PyRepr] (q x : MVal) : Prop :=
  ∃ t, paramMql q = .ok t ∧ Reads .signed t x

theorem reads_expr {t : Str} {x : MVal} (h : Reads .signed t x) : Reads .expr t x := by
  have := Reads.chain (ls := []) (tr := .leaf x) h (by simp) (by simp) trivial rfl
  simpa [chainText, Spec.Tree.formula] using this

theorem printed_all [PyRepr] {ps : List (MVal × MVal)} (h : ∀ p ∈ ps, Printed p.1 p.2) :
    ∃ ts : List (Str × MVal), paramsMqlAll (ps.map (·.1)) = .ok (ts.map (·.1)) ∧ ts.map (·.2) = ps.map (·.2) ∧
      ∀ t ∈ ts, Reads .signed t.1 t.2 := by
  induction ps with
  | nil => exact ⟨[], rfl, rfl, by simp⟩
  | cons p ps ih =>
    simp only [List.mem_cons, forall_eq_or_imp] at h
    obtain ⟨⟨t, ht, hr⟩, h⟩ := h
    obtain ⟨ts, h1, h2, h3⟩ := ih h
    refine ⟨(t, p.2) :: ts, by simp only [List.map_cons, paramsMqlAll, ht, h1, ok_bind], by simp [h2], ?_⟩
    intro u hu
    rcases List.mem_cons.1 hu with rfl | hu
    · exact hr
    · exact h3 u hu

omit S in
theorem params_seq [PyRepr] {xs : MVal} {l : List MVal} (h : xs = .list l ∨ xs = .tuple l) : paramsMql xs = paramsMqlAll l := by
  rcases h with rfl | rfl <;> rfl

omit S in
theorem nest_spec (op : Arith) (xs : List MVal) (tr : Spec.Tree MVal) (ht : tr.Tidy) (hl : op.level ≤ tr.level) :
    (xs.foldl (fun a b => Spec.Tree.node op a (.leaf b)) tr).Tidy ∧
    (xs.foldl (fun a b => Spec.Tree.node op a (.leaf b)) tr).flat = (tr.flat.1, tr.flat.2 ++ xs.map fun x => (op, x)) ∧
    (xs.foldl (fun a b => Spec.Tree.node op a (.leaf b)) tr).formula = leftNested op tr.formula xs := by
  induction xs generalizing tr with
  | nil => simp [ht, leftNested]
  | cons x xs ih =>
    have hop : op.level < 3 := by cases op <;> decide
    obtain ⟨h1, h2, h3⟩ := ih (.node op tr (.leaf x)) ⟨ht, trivial, hl, hop⟩ (Nat.le_refl _)
    refine ⟨h1, ?_, ?_⟩
    · rw [List.foldl_cons, h2]; simp [Spec.Tree.flat]
    · rw [List.foldl_cons, h3]; rfl

omit S in
theorem leftNested_query {op : Arith} {x : MVal} {xs : List MVal} (h : xs ≠ []) : IsQuery (leftNested op x xs) := by
  have : ∀ xs : List MVal, ∀ x, IsQuery x → IsQuery (leftNested op x xs) := by
    intro xs
    induction xs with
    | nil => intro x h; exact h
    | cons y ys ih => intro x _; exact ih _ trivial
  cases xs with
  | nil => exact absurd rfl h
  | cons y ys => exact this ys _ trivial

/-- Arithmetic is printed as it is to be read. -/
theorem arith_reads {op : Arith} {t : Str × MVal} {ts : List (Str × MVal)} (h : ∀ u ∈ t :: ts, Reads .signed u.1 u.2) :
    Reads .expr (joinWith [' ', op.char, ' '] ((t :: ts).map (·.1))) (leftNested op t.2 (ts.map (·.2))) := by
  obtain ⟨h1, h2, h3⟩ := nest_spec op (ts.map (·.2)) (.leaf t.2) trivial (by cases op <;> simp [Arith.level, Spec.Tree.level])
  have := Reads.chain (t := t.1) (x := t.2) (ls := ts.map fun u => ⟨[' '], op, [' '], u.1, u.2⟩) (h t (by simp))
    (by simp only [List.mem_map]; rintro l ⟨u, hu, rfl⟩; exact h u (by simp [hu]))
    (by simp only [List.mem_map]; rintro l ⟨u, hu, rfl⟩; exact ⟨blank_blanks, blank_blanks⟩) h1
    (by rw [h2]; simp [Spec.Tree.flat, Function.comp_def])
  rw [h3] at this
  rw [List.map_cons, joinWith_flat]
  have e : chainText t.1 (ts.map fun u => (⟨[' '], op, [' '], u.1, u.2⟩ : Link MVal)) =
      t.1 ++ (ts.map (·.1)).flatMap ([' ', op.char, ' '] ++ ·) := by
    simp [chainText, List.flatMap_map, Link.written]
  rw [e] at this
  exact this

omit S in
theorem infixOf_name (op : Arith) : infixOf op.name = some [op.char] := by cases op <;> rfl

omit S in
theorem infixOf_none {n : Str} (h : ∀ op : Arith, n ≠ op.name) : infixOf n = none := by
  have h1 := h .plus; have h2 := h .minus; have h3 := h .times; have h4 := h .divide
  simp only [Arith.name] at h1 h2 h3 h4
  simp only [infixOf, h1, h2, h3, h4, if_false]

theorem normalForm_query {q x : MVal} (h : NormalForm q x) (hq : IsQuery q) : IsQuery x := by
  cases h with
  | number h => cases hq
  | timeseries => trivial
  | arithmetic hne => exact ((leftNested_query (by simpa using hne)).addFilters _).addGroups _
  | function => trivial
  | negation => trivial

theorem normalForm_aggregated {q x : MVal} (h : NormalForm q x) (hq : Aggregated q) : Aggregated x := by
  cases h with
  | number h => trivial
  | timeseries => exact hq
  | @arithmetic op xs a f g p ps fs gs hne hxs h hs ha hf hg =>
    have : IsQuery (leftNested op p.2 (ps.map (·.2))) ∧ ∀ t, leftNested op p.2 (ps.map (·.2)) ≠ .ts t := by
      have key : ∀ xs : List MVal, ∀ x, (∀ t, x ≠ .ts t) → ∀ t, leftNested op x xs ≠ .ts t := by
        intro xs
        induction xs with
        | nil => intro x h; exact h
        | cons y ys ih => intro x _; exact ih _ (by simp)
      refine ⟨leftNested_query (by simpa using hne), ?_⟩
      cases ps with
      | nil => exact absurd rfl hne
      | cons p' ps => exact key (ps.map (·.2)) (.formula ..) (by simp)
    generalize leftNested op p.2 (ps.map (·.2)) = y at this
    cases y with
    | ts t => exact absurd rfl (this.2 t)
    | formula => trivial
    | _ => cases this.1
  | function => trivial
  | negation => trivial

/-- Queries are printed as they are to be read. -/
theorem printed [PyRepr] {q x : MVal} (h : NormalForm q x) : Printed q x := by
  induction h with
  | number h =>
    rcases number_text h with ⟨t, h1, _, h3⟩ | ⟨t, y, h1, rfl, _, h3⟩
    · exact ⟨t, by rw [paramMql, h3]; all_goals simp, .plain (.number h1)⟩
    · exact ⟨'-' :: t, by rw [paramMql, h3]; all_goals simp, .minus (.number h1) rfl⟩
  | @timeseries m o a ps ps' f g fs gs hm ha hp hf hg =>
    obtain ⟨tm, m1, m2⟩ := metric_text hm
    obtain ⟨tp, p1, p2⟩ := params_quoted hp
    obtain ⟨tf, f1, f2, _, f4⟩ := filters_text hf
    obtain ⟨tg, g1, g2, _⟩ := groupby_text hg
    have hc := Reads.aggregate (w := []) ha p2 nil_blanks (.plain m2)
    have hr := reads_suffix hc f2 g2 f4
    simp only [addFilters, addGroups, optList, prepend_none] at hr
    refine ⟨_, ?_, .plain hr⟩
    · have : (a ++ tp).isEmpty = false := by
        have := ha.ne
        cases a <;> simp_all
      simp only [paramMql, timeseriesMql, m1, p1, f1, g1, ok_bind, pyStr, this, Bool.false_eq_true, if_false]
      simp
  | @arithmetic op xs a f g p ps fs gs hne hxs h hs ha hf hg ih ihs =>
    obtain ⟨tf, f1, f2, _, f4⟩ := filters_text hf
    obtain ⟨tg, g1, g2, _⟩ := groupby_text hg
    obtain ⟨ts, h1, h2, h3⟩ := printed_all (ps := p :: ps) (by
      simp only [List.mem_cons, forall_eq_or_imp]; exact ⟨ih, ihs⟩)
    cases ts with
    | nil => cases h2
    | cons t ts =>
      have hr := arith_reads (op := op) h3
      simp only [List.map_cons, List.cons.injEq] at h2
      rw [h2.1, h2.2] at hr
      have := Reads.paren (w := []) (w' := []) nil_blanks nil_blanks hr (leftNested_query (by simpa using hne)) f2 g2
      refine ⟨_, ?_, .plain this⟩
      simp only [paramMql, params_seq hxs, h1, ok_bind, formulaHead, infixOf_name, f1, g1]
      simp
  | @function n xs a a' f g p ps fs gs hn hi hneg hxs h hagg hs ha hf hg ih ihs =>
    obtain ⟨tp, p1, p2⟩ := params_plain ha
    obtain ⟨tf, f1, f2, _, f4⟩ := filters_text hf
    obtain ⟨tg, g1, g2, _⟩ := groupby_text hg
    obtain ⟨ts, h1, h2, h3⟩ := printed_all (ps := p :: ps) (by
      simp only [List.mem_cons, forall_eq_or_imp]; exact ⟨ih, ihs⟩)
    cases ts with
    | nil => cases h2
    | cons t ts =>
      simp only [List.map_cons, List.cons.injEq] at h2
      have hc := Reads.function (w := []) (w' := []) (as := ts.map fun u => ⟨[], [' '], u.1, u.2⟩) hn p2 nil_blanks nil_blanks
        (fun _ => rfl) (reads_expr (h3 t (by simp))) (by rw [h2.1]; exact normalForm_aggregated h hagg)
        (by simp only [List.mem_map]; rintro l ⟨u, hu, rfl⟩; exact reads_expr (h3 u (by simp [hu])))
        (by simp only [List.mem_map]; rintro l ⟨u, hu, rfl⟩; exact ⟨nil_blanks, blank_blanks⟩)
      have hr := reads_suffix hc f2 g2 f4
      have e : (.formula (.str n) (.list ((p :: ps).map (·.2))) a' (optList fs) (optList gs) : MVal) = addGroups gs (addFilters fs
          (.formula (.str n) (.list (t.2 :: (ts.map fun u => (⟨[], [' '], u.1, u.2⟩ : Arg)).map (·.value))) a' .none .none)) := by
        simp [addFilters, addGroups, prepend_none, ← h2.1, ← h2.2, Function.comp_def]
      refine ⟨_, ?_, .plain (e ▸ hr)⟩
      · simp only [List.map_cons] at h1 hxs
        simp only [paramMql, params_seq hxs, h1, ok_bind, formulaHead, infixOf_none hi, p1, f1, g1, prefixName, hneg, if_false,
          List.map_cons, joinWith_flat]
        simp [argsText, List.flatMap_map]
  | @negation xs a f x x' hxs h hq ha hf ih =>
    obtain ⟨tf, f1, f2, _, f4⟩ := filters_text hf
    obtain ⟨t, t1, t2⟩ := ih
    have hp := Reads.paren (w := []) (w' := []) nil_blanks nil_blanks (reads_expr t2) (normalForm_query h hq) f2 .none
    have hx : addGroups [] (addFilters [] x') = x' := by
      have := normalForm_query h hq
      cases x' with
      | ts t => obtain ⟨m, a, p, f, g⟩ := t; cases f <;> cases g <;> simp [addFilters, addGroups, prepend]
      | formula n p a f g => cases f <;> cases g <;> simp [addFilters, addGroups, prepend]
      | _ => cases this
    rw [hx] at hp
    have hn : negateM x' = some (.formula (.str c!"negate") (.list [x']) .none .none .none) := by
      have := normalForm_query h hq
      cases x' with
      | ts t => rfl
      | formula n p a f g => rfl
      | _ => cases this
    refine ⟨_, ?_, .minus hp hn⟩
    have hi : infixOf c!"negate" = none := by decide
    simp only [paramMql, params_seq hxs, paramsMqlAll, t1, ok_bind, formulaHead, hi, params_none ha, f1, groupbyMql, Val.given,
      prefixName, Bool.false_eq_true, if_false, if_true, joinWith]
    simp

end

end Verif
