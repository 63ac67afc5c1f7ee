import Verif.Lemmas.MqlFunction

/-!
# Metrics
-/

namespace Verif

section
variable [U : PyUnicode] [S : RegexSpace]

omit U S in
theorem isMriStop_iff {x : Char} : isMriStop x = true ↔ x ∈ mriStops := by
  simp only [isMriStop, mriStops, Bool.or_eq_true, beq_iff_eq, List.mem_cons, List.not_mem_nil, or_false, or_assoc]

omit U S in
theorem mriClass {c : Char} {a m : Str} (h : c ∉ a) (hm : ∀ x ∈ m, x ∉ mriStops) (ha : ∀ x ∈ a, x ∈ m) :
    ∀ x ∈ a, (!(x == c || isMriStop x)) = true := by
  intro x hx
  have h1 : x ≠ c := by rintro rfl; exact h hx
  have h2 : isMriStop x = false := by
    rw [← Bool.not_eq_true, isMriStop_iff]
    exact hm x (ha x hx)
  simp [h1, h2]

omit U S in
theorem seq_head {a b : Regex} {s m t : Str} (ha : (a.run s).head? = some m) (hb : (b.run m).head? = some t) :
    ((Regex.seq a b).run s).head? = some t := head_flatMap ha hb

omit U S in
theorem chr_head (c : Char) (r : Str) : ((Regex.chr c).run (c :: r)).head? = some r := by
  simp [Regex.chr, Regex.run]

omit U S in
theorem unquotedMriRe_head {m r : Str} (h : MriText m) (hr : ∃ d t, r = d :: t ∧ isMriStop d = true) :
    (unquotedMriRe.run (m ++ r)).head? = some r := by
  obtain ⟨a, b, c, d, rfl, ha, hb, hc, hd, hna, hnb, hnc, hall⟩ := h
  have ha' := mriClass hna hall (fun x hx => by simp [hx])
  have hb' := mriClass hnb hall (fun x hx => by simp [hx])
  have hc' := mriClass hnc hall (fun x hx => by simp [hx])
  have hd' : ∀ x ∈ d, (!isMriStop x) = true := fun x hx => by
    have : isMriStop x = false := by
      rw [← Bool.not_eq_true, isMriStop_iff]
      exact hall x (by simp [hx])
    simp [this]
  obtain ⟨x, t, rfl, hx⟩ := hr
  simp only [List.append_assoc, List.cons_append]
  refine seq_head (plus_head ha ha' (.cons (by decide))) (seq_head (chr_head _ _) ?_)
  refine seq_head (plus_head hb hb' (.cons (by decide))) (seq_head (chr_head _ _) ?_)
  refine seq_head (plus_head hc hc' (.cons (by decide))) (seq_head (chr_head _ _) ?_)
  exact plus_head hd hd' (.cons (by rw [hx]; rfl))

omit U S in
/-- There is no MRI if there is no colon before the first character that an MRI cannot contain. -/
theorem unquotedMriRe_fail {a R : Str} {d : Char} (ha : ':' ∉ a) (hd : isMriStop d = true) : unquotedMriRe.run (a ++ d :: R) = [] := by
  refine run_eq_nil fun t ht => ?_
  obtain ⟨m, hm, h⟩ := mem_run_seq.1 ht
  obtain ⟨u, hu, _, hu'⟩ := (mem_run_plus (OneChar.cls _)).1 hm
  obtain ⟨m', hm', _⟩ := mem_run_seq.1 h
  rw [mem_run_chr] at hm'
  subst hm'
  have hdc : d ≠ ':' := by rintro rfl; cases hd
  rcases List.append_eq_append_iff.1 hu with ⟨as, h1, h2⟩ | ⟨as, h1, h2⟩
  · cases as with
    | nil => simp only [List.nil_append, List.cons.injEq] at h2; exact hdc h2.1
    | cons x as =>
      simp only [List.cons_append, List.cons.injEq] at h2
      have := hu' d (by rw [h1, ← h2.1]; simp)
      simp [hd] at this
  · cases as with
    | nil => simp only [List.nil_append, List.cons.injEq] at h2; exact hdc h2.1.symm
    | cons x as =>
      simp only [List.cons_append, List.cons.injEq] at h2
      rw [← h2.1] at h1
      exact ha (by rw [h1]; simp)

omit U S in
theorem publicGroup_step {w r : Str} (hw : w ≠ []) (hl : ∀ x ∈ w, isLowerChar x = true) (hr : NotAt isLowerChar r) :
    ((Regex.seq (.chr '.') (Regex.cls isLowerChar).plus).run ('.' :: (w ++ r))).head? = some r :=
  seq_head (chr_head _ _) (plus_head hw hl hr)

omit U S in
theorem starRun_head_stop {f : Str → List Str} {s : Str} (h : f s = []) (n : Nat) : (starRun f n s).head? = some s := by
  cases n with
  | zero => rfl
  | succ n => simp [starRun, h]

omit U S in
theorem starRun_head_step {f : Str → List Str} {s s' t : Str} {n : Nat} (h : (f s).head? = some s') (hl : s'.length < s.length)
    (ht : (starRun f n s').head? = some t) : (starRun f (n + 1) s).head? = some t := by
  cases hf : f s with
  | nil => simp [hf] at h
  | cons x xs =>
    rw [hf] at h
    simp only [List.head?_cons, Option.some.injEq] at h
    subst h
    simp only [starRun, hf]
    simp only [List.filter_cons, hl, decide_true, if_true, List.flatMap_cons]
    cases hs : starRun f n x with
    | nil => simp [hs] at ht
    | cons y ys => rw [hs] at ht; simpa using ht

omit U S in
theorem publicGroups_head {r : Str} (hr : NotAt (fun c => isLowerChar c || c == '.') r) : ∀ (rest : List Str) (n : Nat),
    (∀ w ∈ rest, w ≠ [] ∧ ∀ x ∈ w, isLowerChar x = true) → (rest.flatMap (fun w => '.' :: w) ++ r).length ≤ n →
    (starRun (Regex.seq (.chr '.') (Regex.cls isLowerChar).plus).run n (rest.flatMap (fun w => '.' :: w) ++ r)).head? = some r := by
  have hr1 : NotAt isLowerChar r := NotAt.mono hr fun c hc => by rw [hc]; rfl
  intro rest
  induction rest with
  | nil =>
    intro n _ _
    refine starRun_head_stop ?_ n
    refine run_eq_nil fun t ht => ?_
    obtain ⟨m, hm, _⟩ := mem_run_seq.1 ht
    rw [mem_run_chr] at hm
    simp only [List.flatMap_nil, List.nil_append] at hm
    have := hr '.' (by rw [hm]; simp)
    simp at this
  | cons w rest ih =>
    intro n hw hn
    simp only [List.mem_cons, forall_eq_or_imp] at hw
    rw [List.flatMap_cons] at hn ⊢
    simp only [List.append_assoc, List.cons_append, List.length_cons, List.length_append] at hn ⊢
    cases n with
    | zero => omega
    | succ n =>
      refine starRun_head_step (publicGroup_step hw.1.1 hw.1.2 ?_) ?_ (ih n hw.2 ?_)
      · cases rest with
        | nil => exact hr1
        | cons w' rest => exact .cons (by decide)
      · simp only [List.length_cons, List.length_append]; omega
      · simp only [List.length_append]; omega

omit U S in
theorem publicNameRe_head {m r : Str} (h : PublicText m) (hr : NotAt (fun c => isLowerChar c || c == '.') r) :
    (publicNameRe.run (m ++ r)).head? = some r := by
  obtain ⟨a, rest, rfl, ⟨ha, ha'⟩, hrest⟩ := h
  rw [List.append_assoc]
  refine seq_head (plus_head ha ha' ?_) ?_
  · cases rest with
    | nil => exact NotAt.mono hr fun c hc => by rw [hc]; rfl
    | cons w rest => exact .cons (by decide)
  · simp only [Regex.run]
    exact publicGroups_head hr rest _ hrest (Nat.le_refl _)

omit U S in
theorem isLowerChar_bounds {c : Char} (h : isLowerChar c = true) : 95 ≤ c.toNat ∧ c.toNat ≤ 122 := by
  simp only [isLowerChar, Bool.or_eq_true, Bool.and_eq_true, decide_eq_true_eq, beq_iff_eq] at h
  rcases h with h | rfl
  · have h1 : 97 ≤ c.toNat := h.1
    have h2 : c.toNat ≤ 122 := h.2
    omega
  · decide

omit U S in
theorem PublicText.mem {m : Str} (h : PublicText m) : ∀ x ∈ m, isLowerChar x = true ∨ x = '.' := by
  obtain ⟨a, rest, rfl, ⟨_, ha⟩, hrest⟩ := h
  intro x hx
  simp only [List.mem_append, List.mem_flatMap, List.mem_cons] at hx
  rcases hx with hx | ⟨w, hw, rfl | hx⟩
  · exact .inl (ha x hx)
  · exact .inr rfl
  · exact .inl ((hrest w hw).2 x hx)

omit U S in
theorem PublicText.ne {m : Str} (h : PublicText m) : m ≠ [] := by
  obtain ⟨a, rest, rfl, ⟨ha, _⟩, _⟩ := h
  simp [ha]

omit U S in
theorem MriText.ne {m : Str} (h : MriText m) : m ≠ [] := by
  obtain ⟨a, b, c, d, rfl, ha, _⟩ := h
  simp [ha]

omit U S in
theorem MriText.mem {m : Str} (h : MriText m) : ∀ x ∈ m, isMriStop x = false := by
  obtain ⟨a, b, c, d, _, _, _, _, _, _, _, _, hall⟩ := h
  intro x hx
  rw [← Bool.not_eq_true, isMriStop_iff]
  exact hall x hx

omit U in
theorem MetricText.ne {m : Str} {o : MetricObj} (h : MetricText m o) : m ≠ [] := by
  cases h with
  | mri h _ => exact h.ne
  | pub h => exact h.ne

omit U in
theorem MetricText.visible {m : Str} {o : MetricObj} (h : MetricText m o) : NotAt S.isSpace m := by
  cases h with
  | mri _ h => exact h
  | pub h =>
    intro c hc
    rcases h.mem c (List.mem_of_mem_head? hc) with h | rfl
    · have := isLowerChar_bounds h
      exact S.visible c (by omega) (by omega)
    · exact S.visible _ (by decide) (by decide)

omit U in
/-- The metric contains no quotes and no parentheses. -/
theorem MetricText.free {m : Str} {o : MetricObj} (h : MetricText m o) : ∀ x ∈ m, isFree x = true := by
  intro x hx
  cases h with
  | mri h _ =>
    have := h.mem x hx
    simp only [isMriStop, Bool.or_eq_false_iff] at this
    simp [isFree, this]
  | pub h =>
    rcases h.mem x hx with h | rfl
    · have := isLowerChar_bounds h
      simp only [isFree, Bool.not_eq_true', Bool.or_eq_false_iff, beq_eq_false_iff_ne, ne_eq]
      refine ⟨⟨⟨?_, ?_⟩, ?_⟩, ?_⟩ <;> (rintro rfl; revert this; decide)
    · rfl

omit U in
theorem MetricText.validate {m : Str} {o : MetricObj} (h : MetricText m o) : o.validate = .ok () := by
  cases h <;> rfl

/-- A metric before a closing parenthesis or an opening brace. -/
theorem ev_metric {m r : Str} {o : MetricObj} {d : Char} (h : MetricText m o) (hd : d = ')' ∨ d = '{') :
    Ev (.rule .metric) (m ++ d :: r) (.list [.obj (.metric o)]) (d :: r) := by
  have hd1 : isMriStop d = true := by rcases hd with rfl | rfl <;> rfl
  have hd2 : (isLowerChar d || d == '.') = false := by rcases hd with rfl | rfl <;> rfl
  have hbt : NotAt (· == '`') (m ++ d :: r) := by
    refine notAt_append h.ne fun c hc => ?_
    have hc := List.mem_of_mem_head? hc
    simp only [beq_eq_false_iff_ne, ne_eq]
    rintro rfl
    cases h with
    | mri h _ => have := h.mem _ hc; cases this
    | pub h => rcases h.mem _ hc with h | h <;> cases h
  have hq : Fails (.rule .quotedMri) (m ++ d :: r) := .rule (.seq (.here (fails_backtick hbt)))
  cases h with
  | mri h hs =>
    have h1 : Kids (mqlGrammar .unquotedMri) (m ++ d :: r) [] (d :: r) := Kids.re (unquotedMriRe_head h ⟨_, _, rfl, hd1⟩)
    have hk : Kids (mqlGrammar .metric) (m ++ d :: r) _ (d :: r) := Kids.alt (.there hq (.here (h1.rule' rfl)))
    exact hk.rule rfl
  | pub h =>
    have hq' : Fails (.rule .quotedPublicName) (m ++ d :: r) := .rule (.seq (.here (fails_backtick hbt)))
    have hm : Fails (.rule .unquotedMri) (m ++ d :: r) := by
      refine .rule (.re (unquotedMriRe_fail ?_ hd1))
      intro hc
      rcases h.mem _ hc with h | h <;> cases h
    have h1 : Kids (mqlGrammar .unquotedPublicName) (m ++ d :: r) [] (d :: r) := Kids.re (publicNameRe_head h (.cons hd2))
    have hk : Kids (mqlGrammar .metric) (m ++ d :: r) _ (d :: r) :=
      Kids.alt (.there hq (.there hm (.there hq' (.here (h1.rule' rfl)))))
    exact hk.rule rfl

end

end Verif
