import Verif.Lemmas.MqlMethods
import Verif.Lemmas.MqlFilterChain

/-!
# The outcome of every rule of the grammar
-/

namespace Verif

open Spec

section
variable [U : PyUnicode] [S : RegexSpace]

theorem pty_seq2 {p q : Peg Rule} {t : Str} {v : V} : PTy (.seq [p, q]) t v ↔
    ∃ t1 v1 t2 v2, PTy p t1 v1 ∧ PTy q t2 v2 ∧ t = t1 ++ t2 ∧ v = .list [v1, v2] := by
  simp only [pty_seq, ptys_cons, ptys_nil]
  constructor
  · rintro ⟨_, ⟨t1, v1, h1, _, _, ⟨t2, v2, h2, _, _, ⟨rfl, rfl⟩, rfl, rfl⟩, rfl, rfl⟩, rfl⟩
    exact ⟨t1, v1, t2, v2, h1, h2, by simp, rfl⟩
  · rintro ⟨t1, v1, t2, v2, h1, h2, rfl, rfl⟩
    exact ⟨_, ⟨t1, v1, h1, _, _, ⟨t2, v2, h2, _, _, ⟨rfl, rfl⟩, rfl, rfl⟩, by simp, rfl⟩, rfl⟩

theorem pty_seq_cons {p : Peg Rule} {ps : List (Peg Rule)} {t : Str} {v : V} : PTy (.seq (p :: ps)) t v ↔
    ∃ t1 v1 t2 us, PTy p t1 v1 ∧ PTy (.seq ps) t2 (.list us) ∧ t = t1 ++ t2 ∧ v = .list (v1 :: us) := by
  simp only [pty_seq, ptys_cons]
  constructor
  · rintro ⟨_, ⟨t1, v1, h1, _, _, h2, rfl, rfl⟩, rfl⟩
    exact ⟨t1, v1, _, _, h1, ⟨_, h2, rfl⟩, rfl, rfl⟩
  · rintro ⟨t1, v1, t2, us, h1, ⟨_, h2, h⟩, rfl, rfl⟩
    cases h
    exact ⟨_, ⟨t1, v1, h1, _, _, h2, rfl, rfl⟩, rfl⟩

theorem pty_seq3 {p q r : Peg Rule} {t : Str} {v : V} : PTy (.seq [p, q, r]) t v ↔
    ∃ t1 v1 t2 v2 t3 v3, PTy p t1 v1 ∧ PTy q t2 v2 ∧ PTy r t3 v3 ∧ t = t1 ++ (t2 ++ t3) ∧ v = .list [v1, v2, v3] := by
  rw [pty_seq_cons]
  simp only [pty_seq2, V.list.injEq]
  constructor
  · rintro ⟨t1, v1, _, _, h1, ⟨t2, v2, t3, v3, h2, h3, rfl, rfl⟩, rfl, rfl⟩
    exact ⟨t1, v1, t2, v2, t3, v3, h1, h2, h3, rfl, rfl⟩
  · rintro ⟨t1, v1, t2, v2, t3, v3, h1, h2, h3, rfl, rfl⟩
    exact ⟨t1, v1, _, _, h1, ⟨t2, v2, t3, v3, h2, h3, rfl, rfl⟩, rfl, rfl⟩

theorem pty_seq4 {p q r s : Peg Rule} {t : Str} {v : V} : PTy (.seq [p, q, r, s]) t v ↔
    ∃ t1 v1 t2 v2 t3 v3 t4 v4, PTy p t1 v1 ∧ PTy q t2 v2 ∧ PTy r t3 v3 ∧ PTy s t4 v4 ∧
      t = t1 ++ (t2 ++ (t3 ++ t4)) ∧ v = .list [v1, v2, v3, v4] := by
  rw [pty_seq_cons]
  simp only [pty_seq3, V.list.injEq]
  constructor
  · rintro ⟨t1, v1, _, _, h1, ⟨t2, v2, t3, v3, t4, v4, h2, h3, h4, rfl, rfl⟩, rfl, rfl⟩
    exact ⟨t1, v1, t2, v2, t3, v3, t4, v4, h1, h2, h3, h4, rfl, rfl⟩
  · rintro ⟨t1, v1, t2, v2, t3, v3, t4, v4, h1, h2, h3, h4, rfl, rfl⟩
    exact ⟨t1, v1, _, _, h1, ⟨t2, v2, t3, v3, t4, v4, h2, h3, h4, rfl, rfl⟩, rfl, rfl⟩

theorem pty_seq5 {p q r s u : Peg Rule} {t : Str} {v : V} : PTy (.seq [p, q, r, s, u]) t v ↔
    ∃ t1 v1 t2 v2 t3 v3 t4 v4 t5 v5, PTy p t1 v1 ∧ PTy q t2 v2 ∧ PTy r t3 v3 ∧ PTy s t4 v4 ∧ PTy u t5 v5 ∧
      t = t1 ++ (t2 ++ (t3 ++ (t4 ++ t5))) ∧ v = .list [v1, v2, v3, v4, v5] := by
  rw [pty_seq_cons]
  simp only [pty_seq4, V.list.injEq]
  constructor
  · rintro ⟨t1, v1, _, _, h1, ⟨t2, v2, t3, v3, t4, v4, t5, v5, h2, h3, h4, h5, rfl, rfl⟩, rfl, rfl⟩
    exact ⟨t1, v1, t2, v2, t3, v3, t4, v4, t5, v5, h1, h2, h3, h4, h5, rfl, rfl⟩
  · rintro ⟨t1, v1, t2, v2, t3, v3, t4, v4, t5, v5, h1, h2, h3, h4, h5, rfl, rfl⟩
    exact ⟨t1, v1, _, _, h1, ⟨t2, v2, t3, v3, t4, v4, t5, v5, h2, h3, h4, h5, rfl, rfl⟩, rfl, rfl⟩

theorem pty_seq6 {p q r s u w : Peg Rule} {t : Str} {v : V} : PTy (.seq [p, q, r, s, u, w]) t v ↔
    ∃ t1 v1 t2 v2 t3 v3 t4 v4 t5 v5 t6 v6, PTy p t1 v1 ∧ PTy q t2 v2 ∧ PTy r t3 v3 ∧ PTy s t4 v4 ∧ PTy u t5 v5 ∧ PTy w t6 v6 ∧
      t = t1 ++ (t2 ++ (t3 ++ (t4 ++ (t5 ++ t6)))) ∧ v = .list [v1, v2, v3, v4, v5, v6] := by
  rw [pty_seq_cons]
  simp only [pty_seq5, V.list.injEq]
  constructor
  · rintro ⟨t1, v1, _, _, h1, ⟨t2, v2, t3, v3, t4, v4, t5, v5, t6, v6, h2, h3, h4, h5, h6, rfl, rfl⟩, rfl, rfl⟩
    exact ⟨t1, v1, t2, v2, t3, v3, t4, v4, t5, v5, t6, v6, h1, h2, h3, h4, h5, h6, rfl, rfl⟩
  · rintro ⟨t1, v1, t2, v2, t3, v3, t4, v4, t5, v5, t6, v6, h1, h2, h3, h4, h5, h6, rfl, rfl⟩
    exact ⟨t1, v1, _, _, h1, ⟨t2, v2, t3, v3, t4, v4, t5, v5, t6, v6, h2, h3, h4, h5, h6, rfl, rfl⟩, rfl, rfl⟩

theorem reps_tail {k : Rule} {p : Peg Rule} {t : Str} {xs : List V}
    (h : PReps (.seq [ws, p, ws, .rule k]) t xs) : ∀ x ∈ xs, ∃ a b c v u, x = .list [a, b, c, v] ∧ RTy k u v := by
  intro x hx
  obtain ⟨t', h⟩ := preps_mem h x hx
  obtain ⟨_, a, _, b, _, c, u, v, _, _, _, h4, _, rfl⟩ := pty_seq4.1 h
  exact ⟨a, b, c, v, u, rfl, pty_rule.1 h4⟩

theorem terms_outcome {k op : Rule} {t : Str} {vs : List V} (h : PTy (.seq [.rule k, .star (.seq [ws, .rule op, ws, .rule k])]) t (.list vs))
    (hk : ∀ t v, RTy k t v → TermV t v) (ho : ∀ t v, RTy op t v → ∃ o : Arith, v = .obj (.val (.str o.name))) : ∃ r, visitTerms vs = .ok r ∧ TermV t r := by
  obtain ⟨t1, v1, t2, v2, h1, h2, rfl, hv⟩ := pty_seq2.1 h
  cases hv
  obtain ⟨xs, g2, rfl⟩ := pty_star.1 h2
  refine visitTerms_ok (hk _ _ (pty_rule.1 h1)) (fun hn => by subst hn; exact preps_nil g2) fun x hx => ?_
  obtain ⟨t', h⟩ := preps_mem g2 x hx
  obtain ⟨_, a, _, b, _, c, u, w, _, hb, _, hw, _, rfl⟩ := pty_seq4.1 h
  exact ⟨a, b, c, w, u, rfl, ho _ _ (pty_rule.1 hb), hk _ _ (pty_rule.1 hw)⟩

omit U S in
theorem hit_digits {t : Str} (h : Hit digitsRe t) : t ≠ [] ∧ ∀ c ∈ t, isDigit c = true := by
  obtain ⟨r, h⟩ := h
  obtain ⟨u, hu, hne, hc⟩ := (mem_run_plus (OneChar.cls _)).1 (List.mem_of_mem_head? h)
  rw [List.append_cancel_right hu]
  exact ⟨hne, hc⟩

omit U S in
theorem hit_key {t : Str} (h : Hit keyRe t) : t ≠ [] ∧ ∀ c ∈ t, isKeyChar c = true := by
  obtain ⟨r, h⟩ := h
  obtain ⟨u, hu, hne, hc⟩ := (mem_run_plus (OneChar.cls _)).1 (List.mem_of_mem_head? h)
  rw [List.append_cancel_right hu]
  exact ⟨hne, hc⟩

omit U S in
theorem hit_plus {p : Char → Bool} {t : Str} (h : Hit (Regex.cls p).plus t) : t ≠ [] ∧ ∀ c ∈ t, p c = true := by
  obtain ⟨r, h⟩ := h
  obtain ⟨u, hu, hne, hc⟩ := (mem_run_plus (OneChar.cls _)).1 (List.mem_of_mem_head? h)
  rw [List.append_cancel_right hu]
  exact ⟨hne, hc⟩

omit U S in
theorem hit_name {t : Str} (h : Hit nameRe t) : WordChars t := hit_plus h

omit U in
theorem hit_bare {t : Str} (h : Hit unquotedRe t) : BareText t := by
  obtain ⟨h1, h2⟩ := hit_plus h
  exact ⟨h1, fun c hc => isUnquotedChar_iff.1 (h2 c hc)⟩

omit U S in
theorem run_chr {c : Char} {s r : Str} (h : r ∈ (Regex.chr c).run s) : s = c :: r := by
  unfold Regex.chr at h
  cases s with
  | nil => cases h
  | cons d s =>
    simp only [Regex.run] at h
    split at h
    · rename_i hc; simp_all
    · simp at h

omit U S in
theorem hit_mri {p1 p2 p3 p4 : Char → Bool} {t : Str} (h : Hit (.seq (Regex.cls p1).plus (.seq (.chr ':')
    (.seq (Regex.cls p2).plus (.seq (.chr '/') (.seq (Regex.cls p3).plus (.seq (.chr '@') (Regex.cls p4).plus)))))) t) :
    ∃ a b c d, t = a ++ ':' :: (b ++ '/' :: (c ++ '@' :: d)) ∧ a ≠ [] ∧ b ≠ [] ∧ c ≠ [] ∧ d ≠ [] ∧
      (∀ x ∈ a, p1 x = true) ∧ (∀ x ∈ b, p2 x = true) ∧ (∀ x ∈ c, p3 x = true) ∧ ∀ x ∈ d, p4 x = true := by
  obtain ⟨r, h⟩ := h
  have h := List.mem_of_mem_head? h
  simp only [Regex.run, List.mem_flatMap] at h
  obtain ⟨s1, h1, s2, h2, s3, h3, s4, h4, s5, h5, s6, h6, h7⟩ := h
  obtain ⟨a, ha, ha1, ha2⟩ := (mem_run_plus (OneChar.cls _)).1 h1
  obtain ⟨b, hb, hb1, hb2⟩ := (mem_run_plus (OneChar.cls _)).1 h3
  obtain ⟨c, hc, hc1, hc2⟩ := (mem_run_plus (OneChar.cls _)).1 h5
  obtain ⟨d, hd, hd1, hd2⟩ := (mem_run_plus (OneChar.cls _)).1 h7
  have e1 := run_chr (c := ':') h2
  have e2 := run_chr (c := '/') h4
  have e3 := run_chr (c := '@') h6
  refine ⟨a, b, c, d, ?_, ha1, hb1, hc1, hd1, ha2, hb2, hc2, hd2⟩
  subst hd e3 hc e2 hb e1
  refine List.append_cancel_right (bs := r) ?_
  rw [ha]
  simp

omit U S in
theorem hit_lenient {t : Str} (h : Hit lenientMriRe t) : LooseMri t := by
  obtain ⟨a, b, c, d, rfl, ha, hb, hc, hd, h1, h2, h3, h4⟩ := hit_mri h
  simp only [Bool.not_eq_true', Bool.or_eq_false_iff, beq_eq_false_iff_ne] at h1 h2 h3 h4
  refine ⟨a, b, c, d, rfl, ha, hb, hc, hd, fun h => (h1 _ h).1 rfl, fun h => (h2 _ h).1 rfl, fun h => (h3 _ h).1.1 rfl, ?_⟩
  simp only [List.mem_append, List.mem_cons, not_or]
  exact ⟨fun h => (h1 _ h).2 rfl, by decide, fun h => (h2 _ h).2 rfl, by decide, fun h => (h3 _ h).2 rfl, by decide, fun h => h4 _ h rfl⟩

omit U S in
theorem hit_unquoted {t : Str} (h : Hit unquotedMriRe t) : LooseMri t := by
  obtain ⟨a, b, c, d, rfl, ha, hb, hc, hd, h1, h2, h3, h4⟩ := hit_mri h
  simp only [Bool.not_eq_true', Bool.or_eq_false_iff, beq_eq_false_iff_ne] at h1 h2 h3 h4
  have hs : ∀ {x : Char}, isMriStop x = false → x ≠ '`' := by rintro x h rfl; revert h; decide
  refine ⟨a, b, c, d, rfl, ha, hb, hc, hd, fun h => (h1 _ h).1 rfl, fun h => (h2 _ h).1 rfl, fun h => (h3 _ h).1 rfl, ?_⟩
  simp only [List.mem_append, List.mem_cons, not_or]
  exact ⟨fun h => hs (h1 _ h).2 rfl, by decide, fun h => hs (h2 _ h).2 rfl, by decide, fun h => hs (h3 _ h).2 rfl, by decide, fun h => hs (h4 _ h) rfl⟩

omit U S in
theorem words_star : ∀ n s t, t ∈ starRun (Regex.seq (.chr '.') (Regex.cls isLowerChar).plus).run n s →
    ∃ rest : List Str, s = rest.flatMap (fun w => '.' :: w) ++ t ∧ ∀ w ∈ rest, WordText w := by
  intro n
  induction n with
  | zero => intro s t h; simp only [starRun, List.mem_singleton] at h; exact ⟨[], by simp [h], by simp⟩
  | succ n ih =>
    intro s t h
    simp only [starRun, List.mem_append, List.mem_flatMap, List.mem_filter, List.mem_singleton] at h
    rcases h with ⟨m, ⟨hm, _⟩, ht⟩ | rfl
    · simp only [Regex.run, List.mem_flatMap] at hm
      obtain ⟨s1, h1, h2⟩ := hm
      have e1 := run_chr (c := '.') h1
      obtain ⟨w, hw, hw1, hw2⟩ := (mem_run_plus (OneChar.cls _)).1 h2
      obtain ⟨rest, rfl, hr⟩ := ih m t ht
      exact ⟨w :: rest, by rw [e1, hw]; simp, List.forall_mem_cons.2 ⟨⟨hw1, hw2⟩, hr⟩⟩
    · exact ⟨[], rfl, by simp⟩

omit U S in
theorem hit_public {t : Str} (h : Hit publicNameRe t) : PublicText t := by
  obtain ⟨r, h⟩ := h
  have h := List.mem_of_mem_head? h
  simp only [publicNameRe, Regex.run, List.mem_flatMap] at h
  obtain ⟨s1, h1, h2⟩ := h
  obtain ⟨a, ha, ha1, ha2⟩ := (mem_run_plus (OneChar.cls _)).1 h1
  obtain ⟨rest, hr, hw⟩ := words_star _ _ _ h2
  refine ⟨a, rest, List.append_cancel_right (bs := r) ?_, ⟨ha1, ha2⟩, hw⟩
  rw [ha, hr, List.append_assoc]

omit S U in
theorem notNegative_decimal (n : Nat) (e : Int) : NotNegative (ofDecimal false n e) := by
  simp only [ofDecimal, roundRat]
  split
  · exact .fin _ rfl
  · simp only [mkDbl]
    split
    · exact .fin _ rfl
    · exact .inf

omit U S in
theorem inner_plain {u w : Str} (hu : ∀ c ∈ u, isPlainQuoted c = true) (hw : QuotedInner w) : QuotedInner (u ++ w) := by
  induction u with
  | nil => exact hw
  | cons c u ih =>
    simp only [List.mem_cons, forall_eq_or_imp] at hu
    have hc := hu.1
    simp only [isPlainQuoted, Bool.not_eq_true', Bool.or_eq_false_iff, beq_eq_false_iff_ne, ne_eq] at hc
    exact .plain _ _ hc.1 hc.2 (ih hu.2)

omit U S in
theorem inner_groups : ∀ n s t, t ∈ starRun quotedGroup.run n s → ∃ w, s = w ++ t ∧ QuotedInner w := by
  intro n
  induction n with
  | zero => intro s t h; simp only [starRun, List.mem_singleton] at h; exact ⟨[], by simp [h], .nil⟩
  | succ n ih =>
    intro s t h
    simp only [starRun, List.mem_append, List.mem_flatMap, List.mem_filter, List.mem_singleton] at h
    rcases h with ⟨m, ⟨hm, _⟩, ht⟩ | rfl
    · obtain ⟨c, u, rfl, hc, hu⟩ := mem_quotedGroup.1 hm
      obtain ⟨w, rfl, hw⟩ := ih m t ht
      exact ⟨'\\' :: c :: (u ++ w), by simp, .escaped _ _ hc (inner_plain hu hw)⟩
    · exact ⟨[], rfl, .nil⟩

omit U S in
theorem hit_quoted {t : Str} (h : Hit quotedRe t) : QuotesText t := by
  obtain ⟨r, h⟩ := h
  obtain ⟨u, m, hu, hp, hm⟩ := mem_quotedRe.1 (List.mem_of_mem_head? h)
  obtain ⟨w, hw, hi⟩ := inner_groups _ _ _ hm
  refine ⟨u ++ w, ?_, inner_plain hp hi⟩
  have : t ++ r = ('"' :: ((u ++ w) ++ ['"'])) ++ r := by rw [hu, hw]; simp
  exact List.append_cancel_right this

omit U S in
theorem scanRest_inner {u : Str} (h : QuotedInner u) (r : Str) : scanRest (u ++ '"' :: r) = some r := by
  induction h with
  | nil => rfl
  | plain c u h1 h2 _ ih =>
    rw [List.cons_append, scanRest_plain, ih]
    simp [isPlainQuoted, h1, h2]
  | escaped c u hc _ ih => rw [List.cons_append, List.cons_append, scanRest, if_neg hc, ih]

theorem number_outcome {t : Str} {v : V} (h : PTy (mqlGrammar .number) t v) : ∃ f, NotNegative f ∧ floatOfText t = .ok f ∧ DigitsText t := by
  obtain ⟨t1, v1, t2, v2, h1, h2, rfl, rfl⟩ := pty_seq2.1 h
  obtain ⟨g1, rfl⟩ := pty_re.1 h1
  obtain ⟨hn, hd⟩ := hit_digits g1
  rcases pty_opt.1 h2 with ⟨rfl, rfl⟩ | ⟨x, g2, rfl⟩
  · rw [List.append_nil]
    exact ⟨_, notNegative_decimal _ _, NumText.float ⟨t1, [], hn, hd, by simp, .inl ⟨rfl, rfl⟩, rfl⟩, t1, [], hn, hd, by simp, .inl rfl⟩
  · obtain ⟨_, _, t3, _, h3, h4, rfl, rfl⟩ := pty_seq2.1 g2
    obtain ⟨rfl, rfl⟩ := pty_lit.1 h3
    obtain ⟨g4, rfl⟩ := pty_re.1 h4
    obtain ⟨hn', hd'⟩ := hit_digits g4
    exact ⟨_, notNegative_decimal _ _, NumText.float ⟨t1, t3, hn, hd, hd', .inr ⟨hn', rfl⟩, rfl⟩, t1, t3, hn, hd, hd', .inr ⟨hn', rfl⟩⟩

theorem column_outcome {t : Str} (h : Hit keyRe t) : (∃ v, visitColumn t = .ok v ∧ ColV v) ∨ (visitColumn t = .error .invalidColumn ∧ BadKey t) := by
  obtain ⟨hne, hc⟩ := hit_key h
  simp only [isKeyChar, isNameChar] at hc
  cases t with
  | nil => exact absurd rfl hne
  | cons c t =>
    cases hh : (isAlpha c || c == '_') with
    | true =>
      left
      have hk : KeyText (c :: t) := ⟨hne, hc, by intro d hd; cases hd; exact hh⟩
      have hm := mkColumn_key hk
      exact ⟨_, by simp only [visitColumn, hm]; rfl, _, rfl, .mk _ hk⟩
    | false =>
      right
      have hb : BadKey (c :: t) := by
        refine ⟨hc, c, t, rfl, ?_⟩
        have := hc c (.head _)
        simp only [Bool.or_eq_true, Bool.or_eq_false_iff, beq_iff_eq, beq_eq_false_iff_ne] at this hh
        rcases this with ((h | h) | h) | h
        · rw [hh.1] at h; cases h
        · exact .inl h
        · exact absurd h hh.2
        · exact .inr h
      refine ⟨?_, hb⟩
      cases hm : mkColumn (.str (c :: t)) .none with
      | error e => rw [C08_column_rejects _ _ _ hm] at hm; simp only [visitColumn, hm]; rfl
      | ok x =>
        obtain ⟨s, hs, h⟩ := (C08_column_accepts_iff _).1 ⟨x, hm⟩
        cases hs
        exfalso
        have hhead : ∀ {s : Str}, ColName s → ∃ d u, s = d :: u ∧ (isAlpha d = true ∨ d = '_') := by
          rintro s (⟨d, u, rfl, hd, _⟩ | ⟨i, k, ⟨d, u, rfl, hd, _⟩, _, rfl⟩)
          · exact ⟨d, u, rfl, hd⟩
          · exact ⟨d, u ++ '[' :: k ++ [']'], rfl, hd⟩
        have : isAlpha c = true ∨ c = '_' := by
          rcases h with h | ⟨b, h, hb⟩
          · obtain ⟨d, u, hd, h⟩ := hhead h
            cases hd; exact h
          · obtain ⟨d, u, rfl, hd⟩ := hhead h
            cases hb; exact hd
        simp only [Bool.or_eq_false_iff, beq_eq_false_iff_ne] at hh
        rcases this with h | h
        · rw [hh.1] at h; cases h
        · exact hh.2 h

theorem block_outcome {t : Str} {v : V}
    (h : PTy (.opt (.seq [.rule .openBrace, .opt (.seq [ws, .rule .filterExpr, ws]), .rule .closeBrace])) t v) : BlockV v := by
  rcases pty_opt.1 h with ⟨_, rfl⟩ | ⟨x, h1, rfl⟩
  · exact .inl rfl
  · obtain ⟨_, a, _, y, _, b, _, h2, _, _, rfl⟩ := pty_seq3.1 h1
    rcases pty_opt.1 h2 with ⟨_, rfl⟩ | ⟨z, h3, rfl⟩
    · exact .inr (.inl ⟨_, _, rfl⟩)
    · obtain ⟨_, c, _, x, _, d, _, h4, _, _, rfl⟩ := pty_seq3.1 h3
      exact .inr (.inr ⟨_, _, _, _, _, rfl, pty_rule.1 h4⟩)

theorem group_outcome {t : Str} {v : V} (h : PTy (.opt (.rule .groupBy)) t v) : v = .list [] ∨ ∃ x, v = .list [x] ∧ GroupV x := by
  rcases pty_opt.1 h with ⟨_, rfl⟩ | ⟨x, h', rfl⟩
  · exact .inl rfl
  · exact .inr ⟨x, rfl, pty_rule.1 h'⟩

theorem params_outcome {t : Str} {v : V} (h : PTy (.opt (.rule .aggregateList)) t v) :
    v = .list [] ∨ ∃ x, v = .list [x] ∧ ∃ vs, x = .list vs ∧ ∀ y ∈ vs, ScalarV y := by
  rcases pty_opt.1 h with ⟨_, rfl⟩ | ⟨x, h', rfl⟩
  · exact .inl rfl
  · exact .inr ⟨x, rfl, pty_rule.1 h'⟩

theorem filters_outcome {k : Rule} {p : Peg Rule} {o : BooleanOp} {t : Str} {vs : List V}
    (h : PTy (.seq [.rule k, .star (.seq [ws, p, ws, .rule k])]) t (.list vs))
    (hk : ∀ t v, RTy k t v → CondV v) : ∃ r, visitFilters o vs = .ok r ∧ CondV r := by
  obtain ⟨t1, v1, t2, v2, h1, h2, rfl, hv⟩ := pty_seq2.1 h
  cases hv
  obtain ⟨xs, g2, rfl⟩ := pty_star.1 h2
  refine visitFilters_ok (hk _ _ (pty_rule.1 h1)) fun x hx => ?_
  obtain ⟨a, b, c, w, u, rfl, hw⟩ := reps_tail g2 x hx
  exact ⟨a, b, c, w, rfl, hk _ _ hw⟩

omit S U in
theorem negate_not_nan {f : PyFloat} (h : NotNegative f) : f.negate ≠ .nan := by
  cases h <;> simp [PyFloat.negate]

omit U in
theorem negateCoefficient_outcome {t : Str} {c : V} (h : QueryV NameText c ∨
    ((∃ f, NotNegative f ∧ c = .obj (.val (.float f))) ∧ DigitsText t) ∨ ((∃ s, c = .obj (.val (.str s))) ∧ QuotesText t)) :
    (∃ r, negateCoefficient (.obj (.val (.str c!"negate"))) c = .ok r ∧ TermV ('-' :: t) r) ∨
      (negateCoefficient (.obj (.val (.str c!"negate"))) c = .error .invalidMQL ∧ (∃ s, c = .obj (.val (.str s))) ∧ QuotesText t) := by
  rcases h with ⟨m, rfl, hq, hs⟩ | ⟨⟨f, hf, rfl⟩, ht⟩ | ⟨⟨s, rfl⟩, ht⟩
  · left
    have hx : ∀ x ∈ [m], Sound NameText x := by simpa using hs
    cases m with
    | ts t => exact ⟨_, rfl, .inl (queryV_formula hx (.negation _ _ _ trivial .none .none))⟩
    | formula n p a f g => exact ⟨_, rfl, .inl (queryV_formula hx (.negation _ _ _ trivial .none .none))⟩
    | _ => cases hq
  · exact .inl ⟨_, rfl, .inr ⟨.inl ⟨_, negate_not_nan hf, rfl⟩, .inr (.inl ⟨t, rfl, ht⟩)⟩⟩
  · exact .inr ⟨rfl, ⟨s, rfl⟩, ht⟩

theorem unary_outcome {t : Str} {vs : List V} (h : PTy (mqlGrammar .unary) t (.list vs)) :
    (∃ r, visitUnary vs = .ok r ∧ TermV t r) ∨
      (visitUnary vs = .error .invalidMQL ∧ (∃ op s, vs = [op, .obj (.val (.str s))]) ∧ ∃ u, t = '-' :: u ∧ QuotesText u) := by
  obtain ⟨t1, v1, t2, v2, h1, h2, rfl, hv⟩ := pty_seq2.1 h
  cases hv
  have h2 := pty_rule.1 h2
  rcases pty_opt.1 h1 with ⟨rfl, rfl⟩ | ⟨x, hx, rfl⟩
  · refine .inl ⟨v2, rfl, ?_⟩
    rcases h2 with h | ⟨h, ht⟩ | ⟨h, ht⟩
    · exact .inl h
    · exact .inr ⟨ScalarV.signed (.inl h), .inl ht⟩
    · exact .inr ⟨.inr h, .inr (.inr ht)⟩
  · obtain ⟨ht, ho⟩ : t1 = ['-'] ∧ x = _ := pty_rule.1 hx
    subst ht ho
    have he : ∀ x, visitUnary [.list [x], v2] = negateCoefficient x v2 := by
      intro x
      simp only [visitUnary, V.truthy, List.isEmpty_cons, Bool.not_false, if_true, V.item0]
    rw [he]
    rcases negateCoefficient_outcome h2 with h | ⟨h, ⟨s, rfl⟩, ht⟩
    · exact .inl h
    · exact .inr ⟨h, ⟨_, s, rfl⟩, t2, rfl, ht⟩

omit U in
theorem asQuery_ok {N : Str → Prop} {v : V} (h : QueryV N v) : ∃ m, v.asQuery = .ok m ∧ v = .obj m ∧ m.isQuery = true ∧ Sound N m := by
  obtain ⟨m, rfl, hq, hs⟩ := h
  exact ⟨m, by simp only [V.asQuery, hq, if_true], rfl, hq, hs⟩

omit S U in
theorem asQuery_scalar {v : V} (h : SignedV v) : v.asQuery = .error .assertion := by
  rcases h with ⟨f, _, rfl⟩ | ⟨s, rfl⟩ <;> rfl

theorem nested_outcome {t : Str} {vs : List V} (h : PTy (mqlGrammar .nestedExpression) t (.list vs)) :
    (∃ r, visitNestedExpression vs = .ok r ∧ QueryV NameText r) ∨ (visitNestedExpression vs = .error .assertion ∧ ScalarInParens t) := by
  obtain ⟨t1, v1, t2, v2, t3, v3, t4, v4, t5, v5, h1, h2, h3, h4, h5, rfl, hv⟩ := pty_seq5.1 h
  cases hv
  rcases pty_rule.1 h3 with h3 | ⟨hs, ht⟩
  · obtain ⟨m, hm, rfl, hq, hs⟩ := asQuery_ok h3
    exact .inl ⟨.obj m, by simp only [visitNestedExpression, hm]; rfl, _, rfl, hq, hs⟩
  · refine .inr ⟨by simp only [visitNestedExpression, asQuery_scalar hs]; rfl, [], t2, t3, t4, [], ?_, pty_rule.1 h2, pty_rule.1 h4, ht⟩
    have e1 : t1 = ['('] := pty_rule.1 h1
    have e5 : t5 = [')'] := pty_rule.1 h5
    rw [e1, e5]
    simp

omit U S in
theorem nameText_in {t n : Str} (h : NameText n) : NameIn t n := ⟨⟨h.ne, h.chars⟩, fun _ => h.head⟩

omit U S in
theorem nameIn_name {t n : Str} (h : NameIn t n) (ht : NoDigitFirst t) : NameText n := ⟨h.1.1, h.1.2, h.2 ht⟩

omit U S in
theorem noDigit_append {t u : Str} (h : NoDigitFirst (t ++ u)) : NoDigitFirst t := by
  cases t with
  | nil => intro c hc; cases hc
  | cons c t => exact h

omit U S in
theorem nameIn_append {t u n : Str} (h : NameIn t n) : NameIn (t ++ u) n := ⟨h.1, fun hd => h.2 (noDigit_append hd)⟩

omit U S in
theorem nameIn_self {t u : Str} (h : WordChars t) : NameIn (t ++ u) t := ⟨h, noDigit_append⟩

theorem target_outcome {t : Str} {vs : List V} (h : PTy (mqlGrammar .target) t (.list vs)) : ∃ r, visitTarget vs = .ok r ∧ QueryV (NameIn t) r := by
  obtain ⟨x, ⟨p, hp, h⟩, hv⟩ := pty_alt h
  cases hv
  have hq : ∀ {x : V}, QueryV (NameIn t) x → ∃ r, visitTarget [x] = .ok r ∧ QueryV (NameIn t) r := by
    intro x hx
    obtain ⟨m, hm, rfl, hq, hs⟩ := asQuery_ok hx
    refine ⟨.obj m, ?_, _, rfl, hq, hs⟩
    cases m <;> first | (cases hq; done) | (simp only [visitTarget, unwrapTarget, ok_bind, targetQuery, hm]; rfl)
  simp only [List.mem_cons, List.not_mem_nil, or_false] at hp
  rcases hp with rfl | rfl | rfl | rfl
  · exact (pty_rule.1 h).elim
  · exact hq (QueryV.imp (fun _ => nameText_in) (pty_rule.1 h))
  · exact hq (pty_rule.1 h)
  · obtain ⟨y, rfl, m, rfl, hm⟩ := pty_rule.1 h
    obtain ⟨t, ht, hs⟩ := placeholder_ok hm
    exact ⟨.obj (.ts t), by simp only [visitTarget, unwrapTarget, V.item0, ok_bind, targetQuery, ht]; rfl, _, rfl, rfl, hs.imp fun _ => nameText_in⟩

omit S U in
theorem aggregated_series {t : TimeseriesObj} (h : ¬ t.isPlaceholder = true) : Aggregated (.ts t) := by
  intro ha
  apply h
  simp only [TimeseriesObj.isPlaceholder, ha]
  decide

omit S U in
theorem aggregated_value {v : V} (h : ¬ v.isPlaceholderSeries = true) : Aggregated v.toMVal := by
  cases v with
  | list xs => exact trivial
  | factor => exact trivial
  | obj m =>
    cases m with
    | ts t => exact aggregated_series h
    | _ => exact trivial

theorem aggregate_ok {N : Str → Prop} {t : TimeseriesObj} {a b c d x name : V} {s : Str} (hn : name = .obj (.val (.str s))) (hN : N s)
    (hi : ∀ s, NameText s → N s) (hx : x = .obj (.ts t)) (ht : Sound NameText (.ts t)) :
    ∃ r, visitAggregate [name, .list [a, b, x, c, d]] = .ok r ∧ QueryV N r := by
  subst hn hx
  simp only [visitAggregate, V.asTimeseries, ok_bind]
  split
  · obtain ⟨t', h', hs⟩ := setAggregate_ok (s := s) ht hN .none
    exact ⟨_, by simp only [V.toVal, h']; rfl, _, rfl, rfl, hs⟩
  · rename_i hp
    exact ⟨_, rfl, queryV_formula (by simpa using ht.imp hi) (.call _ _ _ _ _ _ hN (aggregated_series hp) .none .none .none)⟩

theorem curried_ok {N : Str → Prop} {t : TimeseriesObj} {a b p q r a' b' c d x name : V} {s : Str} (hn : name = .obj (.val (.str s))) (hN : N s)
    (hx : x = .obj (.ts t))
    (ht : Sound NameText (.ts t)) (hp : p = .list [] ∨ ∃ x, p = .list [x] ∧ ∃ vs, x = .list vs ∧ ∀ y ∈ vs, ScalarV y) :
    ∃ y, visitCurriedAggregate [name, .list [a, b, p, q, r], .list [a', b', x, c, d]] = .ok y ∧ QueryV N y := by
  subst hn hx
  obtain ⟨ps, hps, hl⟩ := aggregateParams_ok hp
  obtain ⟨t', h', hs⟩ := setAggregate_ok (s := s) ht hN hl
  exact ⟨_, by simp only [visitCurriedAggregate, hps, V.asTimeseries, ok_bind, V.toVal, h']; rfl, _, rfl, rfl, hs⟩

theorem lasts_outcome {t : Str} {xs : List V} (h : PReps (.seq [ws, .rule .comma, ws, .rule .expression]) t xs) :
    ∃ vs, lasts xs = .ok vs ∧ ∀ y ∈ V.toMVals vs, Sound NameText y := by
  refine lasts_ok fun x hx => ?_
  obtain ⟨a, b, c, v, u, rfl, hv⟩ := reps_tail h x hx
  exact ⟨a, b, c, v, rfl, TermV.sound hv⟩

theorem function_ok {N : Str → Prop} {t u : Str} {a b c d x name : V} {xs : List V} {s : Str} (hn : name = .obj (.val (.str s))) (hN : N s)
    (hi : ∀ s, NameText s → N s) (hx : TermV u x) (h : PReps (.seq [ws, .rule .comma, ws, .rule .expression]) t xs) :
    (∃ r, visitArbitraryFunction [name, .list [a, .list [b, x, c], .list xs, d]] = .ok r ∧ QueryV N r) ∨
      visitArbitraryFunction [name, .list [a, .list [b, x, c], .list xs, d]] = .error .invalidMQL := by
  subst hn
  obtain ⟨vs, hvs, hs⟩ := lasts_outcome h
  simp only [visitArbitraryFunction, hvs, ok_bind]
  split
  · exact .inr rfl
  · rename_i hp
    refine .inl ⟨_, rfl, queryV_formula ?_ (.call _ _ _ _ _ _ hN (aggregated_value hp) .none .none .none)⟩
    simp only [V.toMVals, List.mem_cons, forall_eq_or_imp]
    exact ⟨hx.sound.imp hi, fun y hy => (hs y hy).imp hi⟩

theorem curriedFunction_ok {N : Str → Prop} {t u : Str} {a b c d e f g p q r x name : V} {xs : List V} {s : Str} (hn : name = .obj (.val (.str s)))
    (hN : N s) (hi : ∀ s, NameText s → N s) (hx : TermV u x)
    (hp : p = .list [] ∨ ∃ x, p = .list [x] ∧ ∃ vs, x = .list vs ∧ ∀ y ∈ vs, ScalarV y)
    (h : PReps (.seq [ws, .rule .comma, ws, .rule .expression]) t xs) :
    ∃ y, visitCurriedFunction [name, .list [a, b, p, q, r], .list [e, f, .list [c, x, d], .list xs, g]] = .ok y ∧ QueryV N y := by
  subst hn
  obtain ⟨ps, hps, hl⟩ := aggregateParams_ok hp
  obtain ⟨vs, hvs, hs⟩ := lasts_outcome h
  have hall : ∀ y ∈ V.toMVals (x :: vs), Sound N y := by
    simp only [V.toMVals, List.mem_cons, forall_eq_or_imp]
    exact ⟨hx.sound.imp hi, fun y hy => (hs y hy).imp hi⟩
  simp only [visitCurriedFunction, hps, hvs, ok_bind]
  split
  · have hts := hx.sound
    simp only [V.toMVal] at hts
    split
    · obtain ⟨t', h', hs⟩ := setAggregate_ok (s := s) hts hN hl
      exact ⟨_, by simp only [V.toVal, h']; rfl, _, rfl, rfl, hs⟩
    · rename_i hp
      exact ⟨_, rfl, queryV_formula hall (.call _ _ _ _ _ _ hN (aggregated_series hp) hl .none .none)⟩
  · rename_i hnot
    refine ⟨_, rfl, queryV_formula hall (.call _ _ _ _ _ _ hN ?_ hl .none .none)⟩
    cases x with
    | list xs => exact trivial
    | factor => exact trivial
    | obj m =>
      cases m with
      | ts t => exact absurd rfl (hnot t)
      | _ => exact trivial

theorem strings_ok {t : Str} {v : V} (h : PTy (.alt [.rule .quotedString, .rule .unquotedString]) t v) :
    ∃ x, v = .list [x] ∧ ∃ s, x = .obj (.val (.str s)) := by
  obtain ⟨x, ⟨p, hp, h⟩, rfl⟩ := pty_alt h
  refine ⟨x, rfl, ?_⟩
  simp only [List.mem_cons, List.not_mem_nil, or_false] at hp
  rcases hp with rfl | rfl
  · exact (pty_rule.1 h).1
  · exact ⟨_, (pty_rule.1 h).1⟩

theorem stringTuple_outcome {t : Str} {vs : List V} (h : PTy (mqlGrammar .stringTuple) t (.list vs)) :
    ∃ r, visitStringTuple vs = .ok r ∧ FactorV r := by
  obtain ⟨t1, v1, t2, v2, t3, v3, t4, v4, t5, v5, t6, v6, h1, h2, h3, h4, h5, h6, rfl, hv⟩ := pty_seq6.1 h
  cases hv
  obtain ⟨xs, g4, rfl⟩ := pty_star.1 h4
  obtain ⟨ws', hw, hall⟩ := fourths_ok (P := fun v => ∃ x, v = .list [x] ∧ ∃ s, x = .obj (.val (.str s))) (xs := xs) fun x hx => by
    obtain ⟨t', h⟩ := preps_mem g4 x hx
    obtain ⟨_, a, _, b, _, c, u, v, _, _, _, h4, _, rfl⟩ := pty_seq4.1 h
    exact ⟨a, b, c, v, rfl, strings_ok h4⟩
  obtain ⟨us, hu, hs⟩ := firsts_ok (List.forall_mem_cons.2 ⟨strings_ok h3, hall⟩)
  have hstr : ∃ ss : List Str, Val.list (V.toVals us) = .list (ss.map .str) ∧ ss.length = us.length := by
    clear hu
    induction us with
    | nil => exact ⟨[], rfl, rfl⟩
    | cons u us ih =>
      obtain ⟨s, rfl⟩ := hs u (.head _)
      obtain ⟨ss, h, hl⟩ := ih fun y hy => hs y (.tail _ hy)
      simp only [Val.list.injEq] at h
      exact ⟨s :: ss, by simp [V.toVals, V.toVal, h], by simp [hl]⟩
  obtain ⟨ss, hss, hl⟩ := hstr
  have hne : us ≠ [] := by
    rintro rfl
    simp only [firsts, bind_eq_ok] at hu
    obtain ⟨_, _, _, _, h⟩ := hu
    cases h
  refine ⟨.factor (.list (V.toVals us)) false, by simp only [visitStringTuple, V.items, hw, hu, ok_bind], .inr (.inr ⟨ss, by rw [hss], ?_⟩)⟩
  rintro rfl
  exact hne (List.length_eq_zero_iff.1 hl.symm)

theorem groupTuple_outcome {t : Str} {vs : List V} (h : PTy (mqlGrammar .groupByNameTuple) t (.list vs)) :
    ∃ r, visitGroupTuple vs = .ok r ∧ ∃ us, r = .list us ∧ us ≠ [] ∧ ∀ x ∈ us, ColV x := by
  obtain ⟨t1, v1, t2, v2, t3, v3, t4, v4, t5, v5, t6, v6, h1, h2, h3, h4, h5, h6, rfl, hv⟩ := pty_seq6.1 h
  cases hv
  obtain ⟨xs, g4, rfl⟩ := pty_star.1 h4
  obtain ⟨ws', hw, hall⟩ := fourths_ok (P := ColV) (xs := xs) fun x hx => by
    obtain ⟨a, b, c, v, u, rfl, hv⟩ := reps_tail g4 x hx
    exact ⟨a, b, c, v, rfl, hv⟩
  exact ⟨_, by simp only [visitGroupTuple, V.items, hw, ok_bind], _, rfl, by simp, List.forall_mem_cons.2 ⟨pty_rule.1 h3, hall⟩⟩

theorem factor_outcome {t : Str} {vs : List V} (h : PTy (mqlGrammar .filterFactor) t (.list vs)) : ∃ r, visitFilterFactor vs = .ok r ∧ CondV r := by
  obtain ⟨x, ⟨p, hp, h⟩, hv⟩ := pty_alt h
  cases hv
  simp only [List.mem_cons, List.not_mem_nil, or_false] at hp
  rcases hp with rfl | rfl
  · obtain ⟨t1, v1, t2, v2, t3, v3, t4, v4, t5, v5, t6, v6, h1, h2, h3, h4, h5, h6, rfl, rfl⟩ := pty_seq6.1 h
    obtain ⟨y, ⟨p, hp, hy⟩, rfl⟩ := pty_alt h2
    simp only [List.mem_cons, List.not_mem_nil, or_false] at hp
    rcases hp with rfl | rfl
    · exact (pty_rule.1 hy).elim
    · refine visitFilterFactor_ok ?_ (pty_rule.1 hy) (pty_rule.1 h6)
      rcases pty_opt.1 h1 with ⟨_, rfl⟩ | ⟨z, hz, rfl⟩
      · exact .inl rfl
      · have hz : z = .obj (.val (.op .not)) := pty_rule.1 hz
        exact .inr (by rw [hz])
  · obtain ⟨c, rfl, hc⟩ := pty_rule.1 h
    exact ⟨_, by simp only [visitFilterFactor, isCondition_iff.2 hc.made.cond, if_true], c, rfl, hc⟩

theorem groupBy_outcome {t : Str} {vs : List V} (h : PTy (mqlGrammar .groupBy) t (.list vs)) : ∃ r, visitGroupBy vs = .ok r ∧ GroupV r := by
  obtain ⟨_, v1, _, v2, _, v3, t4, v4, _, _, _, h4, _, hv⟩ := pty_seq4.1 h
  cases hv
  obtain ⟨x, ⟨p, hp, hx⟩, rfl⟩ := pty_alt h4
  refine ⟨x, by simp [visitGroupBy, V.item0], ?_⟩
  simp only [List.mem_cons, List.not_mem_nil, or_false] at hp
  rcases hp with rfl | rfl
  · exact .inl (pty_rule.1 hx)
  · exact .inr (pty_rule.1 hx)

omit U S in
theorem param_ok {x : V} (h : ScalarV x) : x.isParam = true := by
  rcases h with ⟨f, _, rfl⟩ | ⟨s, rfl⟩ <;> rfl

theorem paramExpression_outcome {t : Str} {vs : List V} (h : PTy (mqlGrammar .paramExpression) t (.list vs)) :
    ∃ r, visitParamExpression vs = .ok r ∧ ScalarV r := by
  obtain ⟨x, ⟨p, hp, hx⟩, hv⟩ := pty_alt h
  cases hv
  have : ScalarV x := by
    simp only [List.mem_cons, List.not_mem_nil, or_false] at hp
    rcases hp with rfl | rfl | rfl
    · exact .inl (pty_rule.1 hx).1
    · exact .inr (pty_rule.1 hx).1
    · exact .inr ⟨_, (pty_rule.1 hx).1⟩
  exact ⟨x, by simp only [visitParamExpression, param_ok this, if_true], this⟩

theorem aggregateList_outcome {t : Str} {vs : List V} (h : PTy (mqlGrammar .aggregateList) t (.list vs)) :
    ∃ r, visitAggregateList vs = .ok r ∧ ∃ us, r = .list us ∧ ∀ x ∈ us, ScalarV x := by
  obtain ⟨t1, v1, t2, v2, h1, h2, rfl, hv⟩ := pty_seq2.1 h
  cases hv
  obtain ⟨xs, g1, rfl⟩ := pty_star.1 h1
  refine ⟨_, rfl, _, rfl, fun x hx => ?_⟩
  rcases List.mem_append.1 hx with hx | hx
  · obtain ⟨_, h⟩ := preps_mem g1 x hx
    exact pty_rule.1 h
  · obtain rfl := List.mem_singleton.1 hx
    exact pty_rule.1 h2

omit U in
theorem wildcard_ok {t : Str} {x : V} (h : x = .obj (.val (.str t)) ∧ BareText t) : ∃ r, wildcardFactor x = .ok r ∧ FactorV r := by
  obtain ⟨rfl, h⟩ := h
  exact ⟨_, rfl, .inr (.inl ⟨t, rfl, h⟩)⟩

omit U S in
theorem mri_ok {t : Str} (h : LooseMri t) : ∃ r, visitMri t = .ok r ∧ MetricV r := by
  have hm : mkMetric .none (.str t) .none = .ok ⟨.none, .str t, .none⟩ := (C32_metric_iff _ _ _ _).2 ⟨rfl, .none, .str t, .none, t, .inr rfl⟩
  exact ⟨_, by simp only [visitMri, hm]; rfl, _, rfl, .inr ⟨t, h, rfl⟩⟩

omit U S in
theorem publicName_ok {t : Str} (h : PublicText t) : ∃ r, visitPublicName t = .ok r ∧ MetricV r := by
  have hm : mkMetric (.str t) .none .none = .ok ⟨.str t, .none, .none⟩ := (C32_metric_iff _ _ _ _).2 ⟨rfl, .str t, .none, .none, t, .inl rfl⟩
  exact ⟨_, by simp only [visitPublicName, hm]; rfl, _, rfl, .inl ⟨t, h, rfl⟩⟩

omit U S in
theorem slice_ticks (u : Str) : slice1m1 ('`' :: (u ++ ['`'])) = u := by
  simp [slice1m1]

omit U in
theorem fails_parse {p : Peg Rule} {s r : Str} {nd : Node Rule} (h : Fails p s) (hp : Parse p s nd r) : False := by
  obtain ⟨n, h⟩ := h
  obtain ⟨m, hp⟩ := hp
  have h1 := run_lift_fail (Nat.le_max_left n m) h
  have h2 := run_lift (Nat.le_max_right n m) hp
  rw [h1] at h2
  cases h2

omit U in
/-- A number is not overlooked. -/
theorem number_failed {s : Str} (h : Fails (.rule .number) s) : NoDigitFirst s := by
  intro c hc
  by_cases hd : isDigit c = true
  case neg => simpa using hd
  exfalso
  obtain ⟨s, rfl⟩ : ∃ s', s = c :: s' := by
    cases s with
    | nil => cases hc
    | cons d s => cases hc; exact ⟨s, rfl⟩
  have hsplit : ∀ T : Str, ∃ u r, T = u ++ r ∧ (∀ c ∈ u, isDigit c = true) ∧ NotAt isDigit r := by
    intro T
    refine ⟨T.takeWhile isDigit, T.dropWhile isDigit, (List.takeWhile_append_dropWhile).symm,
      fun c hc => List.all_eq_true.1 List.all_takeWhile c hc, ?_⟩
    intro c hc
    have := List.head?_dropWhile_not isDigit T
    rw [Option.mem_def.1 hc] at this
    simpa using this
  obtain ⟨a, r, rfl, ha, hr⟩ := hsplit s
  have h1 : Pa (.re digitsRe) (c :: a ++ r) r := .re (plus_head (by simp) (List.forall_mem_cons.2 ⟨hd, ha⟩) hr)
  have h2 : ∃ r', Pa (.opt (.seq [.lit c!".", .re digitsRe])) r r' := by
    by_cases hp : ∃ r', r = '.' :: r'
    · obtain ⟨r, rfl⟩ := hp
      obtain ⟨b, r, rfl, hb, hr2⟩ := hsplit r
      by_cases hbn : b = []
      · subst hbn
        exact ⟨_, .opt_none (.inr (.seq (.pa (Pa.lit (l := ['.'])) (.here (.re (plus_fail hr2))))))⟩
      · exact ⟨_, .opt_some (by simp) (.seq (.cons (Pa.lit (l := ['.'])) (.cons (.re (plus_head hbn hb hr2)) .nil)))⟩
    · refine ⟨_, .opt_none (.inr (.seq (.here (.lit (lit1_not_prefix ?_)))))⟩
      intro x hx
      cases r with
      | nil => cases hx
      | cons y r => cases hx; simp only [beq_eq_false_iff_ne]; rintro rfl; exact hp ⟨r, rfl⟩
  obtain ⟨r', h2⟩ := h2
  obtain ⟨nd, h3⟩ : Pa (.rule .number) (c :: a ++ r) r' := .rule (.seq (.cons h1 (.cons h2 .nil)))
  exact fails_parse h h3

omit U S in
theorem unescape_plain : ∀ s : Str, '"' ∉ unescapeQuotes s → unescapeQuotes s = s
  | [], _ => rfl
  | c :: cs, h => by
    rw [unescapeQuotes.eq_def] at h ⊢
    split at h
    · simp at h
    · rename_i c' cs' hn he
      cases he
      simp only [List.mem_cons, not_or] at h
      simp only [unescape_plain cs h.2]
    · rename_i he; cases he

/-- A pattern in quotes is not overlooked. -/
theorem pattern_failed {t r : Str} (h : Fails (.rule .quotedSuffixWildcard) (t ++ r)) (hq : QuotesText t) (u : Str) (hu : BareText u) :
    unescapeQuotes (slice1m1 t) ≠ u ++ ['*'] := by
  intro he
  obtain ⟨w, rfl, _⟩ := hq
  have hs : slice1m1 ('"' :: (w ++ ['"'])) = w := by simp [slice1m1]
  rw [hs] at he
  have hw := unescape_plain w (by
    rw [he]
    simp only [List.mem_append, List.mem_cons, List.not_mem_nil, or_false, not_or]
    exact ⟨fun hc => (hu.2 _ hc).1 (by simp), by decide⟩)
  rw [hw] at he
  subst he
  have e : '"' :: ((u ++ ['*']) ++ ['"']) ++ r = '"' :: (u ++ ('*' :: '"' :: r)) := by simp
  rw [e] at h
  obtain ⟨nd, hp⟩ : Pa (.rule .quotedSuffixWildcard) ('"' :: (u ++ ('*' :: '"' :: r))) r :=
    .rule (.seq (.cons (ev_quote _).pa (.cons (ev_bare hu (bare_stop (by simp))).pa (.cons (ev_wildcard _).pa (.cons (ev_quote _).pa .nil)))))
  exact fails_parse h hp

omit U in
theorem bare_no_pattern {t : Str} (h : BareText t) (u : Str) : t ≠ u ++ ['*'] := by
  rintro rfl
  exact (h.2 '*' (by simp)).1 (by simp)

/-- How the method of a rule itself fails. -/
def RuleRaises : Rule → Str → List V → Err → Prop
  | .tagKey, t, _, e | .groupByName, t, _, e => e = .invalidColumn ∧ BadKey t
  | .unary, t, vs, e => e = .invalidMQL ∧ (∃ op s, vs = [op, .obj (.val (.str s))]) ∧ ∃ u, t = '-' :: u ∧ QuotesText u
  | .variable_, t, _, e => e = .invalidMQL ∧ ∃ k, t = '$' :: k ∧ k ≠ [] ∧ ∀ c ∈ k, isKeyChar c = true
  | .arbitraryFunction, t, _, e => e = .invalidMQL ∧ ∃ n u, t = n ++ '(' :: u ∧ WordChars n
  | .nestedExpression, t, _, e => e = .assertion ∧ ScalarInParens t
  | _, _, _, _ => False

/-- The method of a rule returns what it should, or fails in its own way. -/
def RuleReturns (k : Rule) (t : Str) (vs : List V) : Except Err V → Prop
  | .ok v => RTy k t v
  | .error e => RuleRaises k t vs e

omit U in
theorem returns_ok {k : Rule} {t : Str} {vs : List V} {r : Except Err V} {v : V} (h : r = .ok v) (hv : RTy k t v) : RuleReturns k t vs r := by
  rw [h]; exact hv

omit U in
theorem returns_error {k : Rule} {t : Str} {vs : List V} {r : Except Err V} {e : Err} (h : r = .error e) (he : RuleRaises k t vs e) :
    RuleReturns k t vs r := by
  rw [h]; exact he

theorem rule_returns (k : Rule) (t : Str) (vs : List V) (h : PTy (mqlGrammar k) t (.list vs)) : RuleReturns k t vs (visitRule k t vs) := by
  cases k
  case expression => obtain ⟨r, h1, h2⟩ := terms_outcome h (fun _ _ h => h) fun _ _ h => h; exact returns_ok h1 h2
  case term => obtain ⟨r, h1, h2⟩ := terms_outcome h (fun _ _ h => h) fun _ _ h => h; exact returns_ok h1 h2
  case exprOp =>
    obtain ⟨x, ⟨p, hp, h⟩, _⟩ := pty_alt h
    simp only [List.mem_cons, List.not_mem_nil, or_false] at hp
    rcases hp with rfl | rfl <;> obtain ⟨rfl, _⟩ := pty_lit.1 h
    · exact ⟨.plus, rfl⟩
    · exact ⟨.minus, rfl⟩
  case termOp =>
    obtain ⟨x, ⟨p, hp, h⟩, _⟩ := pty_alt h
    simp only [List.mem_cons, List.not_mem_nil, or_false] at hp
    rcases hp with rfl | rfl <;> obtain ⟨rfl, _⟩ := pty_lit.1 h
    · exact ⟨.times, rfl⟩
    · exact ⟨.divide, rfl⟩
  case unary =>
    rcases unary_outcome h with ⟨r, h1, h2⟩ | ⟨h1, h2⟩
    · exact returns_ok h1 h2
    · exact returns_error h1 ⟨rfl, h2⟩
  case unaryOp => obtain ⟨rfl, _⟩ := pty_lit.1 h; exact ⟨rfl, rfl⟩
  case coefficient =>
    obtain ⟨x, ⟨p, hp, h⟩, hv⟩ := pty_alt_tried h
    cases hv
    have hp' := hp.mem
    simp only [List.mem_cons, List.not_mem_nil, or_false] at hp'
    rcases hp' with rfl | rfl | rfl
    · exact .inr (.inl (pty_rule.1 h))
    · exact .inr (.inr (pty_rule.1 h))
    · have hd : NoDigitFirst t := by
        obtain ⟨pre, post, r, hps, hpre⟩ := hp
        cases pre with
        | nil => simp at hps
        | cons q pre =>
          simp only [List.cons_append, List.cons.injEq] at hps
          obtain ⟨rfl, _⟩ := hps
          exact noDigit_append (number_failed (hpre _ (.head _)))
      exact .inl (QueryV.imp (fun _ hn => nameIn_name hn hd) (pty_rule.1 h))
  case number =>
    obtain ⟨f, h0, h1, h2⟩ := number_outcome h
    show RuleReturns _ _ _ ((floatOfText t).map _)
    rw [h1]
    exact ⟨⟨_, h0, rfl⟩, h2⟩
  case filter =>
    obtain ⟨_, v1, _, v2, _, v3, h1, h2, h3, rfl, hv⟩ := pty_seq3.1 h
    cases hv
    obtain ⟨r, g1, g2⟩ := visitFilter_ok (pty_rule.1 h1) (block_outcome h2) (group_outcome h3)
    exact returns_ok g1 (QueryV.imp (fun _ => nameIn_append) g2)
  case filterExpr => obtain ⟨r, h1, h2⟩ := filters_outcome (o := .or) h fun _ _ h => h; exact returns_ok h1 h2
  case filterTerm => obtain ⟨r, h1, h2⟩ := filters_outcome (o := .and) h fun _ _ h => h; exact returns_ok h1 h2
  case filterFactor => obtain ⟨r, h1, h2⟩ := factor_outcome h; exact returns_ok h1 h2
  case nestedExpr =>
    obtain ⟨_, v1, _, v2, _, v3, _, v4, _, v5, _, _, h3, _, _, _, hv⟩ := pty_seq5.1 h
    cases hv
    exact pty_rule.1 h3
  case conditionOp => obtain ⟨rfl, _⟩ := pty_lit.1 h; exact rfl
  case tagKey =>
    rcases column_outcome (pty_re.1 h).1 with ⟨r, h1, h2⟩ | ⟨h1, h2⟩
    · exact returns_ok h1 h2
    · exact returns_error h1 ⟨rfl, h2⟩
  case groupByName =>
    rcases column_outcome (pty_re.1 h).1 with ⟨r, h1, h2⟩ | ⟨h1, h2⟩
    · exact returns_ok h1 h2
    · exact returns_error h1 ⟨rfl, h2⟩
  case tagValue =>
    obtain ⟨x, ⟨p, hp, h⟩, hv⟩ := pty_alt_tried h
    cases hv
    have hp' := hp.mem
    simp only [List.mem_cons, List.not_mem_nil, or_false] at hp'
    rcases hp' with rfl | rfl | rfl | rfl | rfl | rfl <;> first | exact pty_rule.1 h | exact (pty_rule.1 h).elim | skip
    obtain ⟨rfl, hq⟩ := pty_rule.1 h
    refine .inl ⟨_, rfl, ?_⟩
    obtain ⟨pre, post, r, hps, hpre⟩ := hp
    cases pre with
    | nil => simp at hps
    | cons q pre =>
      simp only [List.cons_append, List.cons.injEq] at hps
      obtain ⟨rfl, _⟩ := hps
      exact pattern_failed (hpre _ (.head _)) hq
  case suffixWildcard =>
    obtain ⟨_, v1, _, v2, h1, _, _, hv⟩ := pty_seq2.1 h
    cases hv
    obtain ⟨r, g1, g2⟩ := wildcard_ok (pty_rule.1 h1)
    exact returns_ok g1 g2
  case quotedSuffixWildcard =>
    obtain ⟨_, v1, _, v2, _, v3, _, v4, _, h2, _, _, _, hv⟩ := pty_seq4.1 h
    cases hv
    obtain ⟨r, g1, g2⟩ := wildcard_ok (pty_rule.1 h2)
    exact returns_ok g1 g2
  case quotedStringFilter => exact ⟨rfl, hit_quoted (pty_re.1 h).1⟩
  case unquotedStringFilter => exact .inl ⟨_, rfl, fun u _ => bare_no_pattern (hit_bare (pty_re.1 h).1) u⟩
  case stringTuple => obtain ⟨r, h1, h2⟩ := stringTuple_outcome h; exact returns_ok h1 h2
  case quotedString => exact ⟨⟨_, rfl⟩, hit_quoted (pty_re.1 h).1⟩
  case unquotedString => exact ⟨rfl, hit_bare (pty_re.1 h).1⟩
  case target => obtain ⟨r, h1, h2⟩ := target_outcome h; exact returns_ok h1 h2
  case variable_ =>
    obtain ⟨t1, _, t2, _, h1, h2, rfl, _⟩ := pty_seq2.1 h
    obtain ⟨rfl, _⟩ := pty_lit.1 h1
    exact ⟨rfl, t2, rfl, hit_key (pty_re.1 h2).1⟩
  case nestedExpression =>
    rcases nested_outcome h with ⟨r, h1, h2⟩ | ⟨h1, h2⟩
    · exact returns_ok h1 h2
    · exact returns_error h1 ⟨rfl, h2⟩
  case function =>
    obtain ⟨_, v1, _, v2, h1, h2, rfl, hv⟩ := pty_seq2.1 h
    cases hv
    rename_i t1 t2
    obtain ⟨x, ⟨p, hp, hx⟩, rfl⟩ := pty_alt h1
    have hq : QueryV (NameIn t1) x := by
      simp only [List.mem_cons, List.not_mem_nil, or_false] at hp
      rcases hp with rfl | rfl | rfl | rfl <;> exact pty_rule.1 hx
    obtain ⟨r, g1, g2⟩ := visitFunction_ok hq (group_outcome h2)
    exact returns_ok g1 (QueryV.imp (fun _ => nameIn_append) g2)
  case aggregate =>
    obtain ⟨_, v1, _, v2, h1, h2, rfl, hv⟩ := pty_seq2.1 h
    cases hv
    obtain ⟨_, w1, _, w2, _, w3, _, w4, _, w5, _, _, h3, _, _, _, rfl⟩ := pty_seq5.1 h2
    obtain ⟨hs, hN⟩ := pty_rule.1 h1
    obtain ⟨t, ht, hts⟩ := pty_rule.1 h3
    obtain ⟨r, g1, g2⟩ := aggregate_ok (a := w1) (b := w2) (c := w4) (d := w5) hs (nameIn_self hN) (fun _ => nameText_in) ht hts
    exact returns_ok g1 g2
  case curriedAggregate =>
    obtain ⟨_, v1, _, v2, _, v3, h1, h2, h3, rfl, hv⟩ := pty_seq3.1 h
    cases hv
    obtain ⟨_, x1, _, x2, _, x3, _, x4, _, x5, _, _, hp, _, _, _, rfl⟩ := pty_seq5.1 h2
    obtain ⟨_, w1, _, w2, _, w3, _, w4, _, w5, _, _, g3, _, _, _, rfl⟩ := pty_seq5.1 h3
    obtain ⟨hs, hN⟩ := pty_rule.1 h1
    obtain ⟨t, ht, hts⟩ := pty_rule.1 g3
    obtain ⟨r, g1, g2⟩ := curried_ok (a := x1) (b := x2) (q := x4) (r := x5) (a' := w1) (b' := w2) (c := w4) (d := w5) hs (nameIn_self hN) ht hts (params_outcome hp)
    exact returns_ok g1 g2
  case arbitraryFunction =>
    obtain ⟨n, v1, _, v2, h1, h2, rfl, hv⟩ := pty_seq2.1 h
    cases hv
    obtain ⟨t1, w1, t2, w2, t3, w3, t4, w4, h0, h3, h4, _, rfl, rfl⟩ := pty_seq4.1 h2
    obtain ⟨_, u1, u, u2, _, u3, _, hx, _, _, rfl⟩ := pty_seq3.1 h3
    obtain ⟨xs, g4, rfl⟩ := pty_star.1 h4
    obtain ⟨hs, hN⟩ := pty_rule.1 h1
    rcases function_ok (name := v1) (a := w1) (b := u1) (c := u3) (d := w4) hs (nameIn_self hN) (fun _ => nameText_in) (pty_rule.1 hx) g4 with ⟨r, g1, g2⟩ | g1
    · exact returns_ok g1 g2
    · have e1 : t1 = ['('] := pty_rule.1 h0
      subst e1
      exact returns_error g1 ⟨rfl, n, t2 ++ (t3 ++ t4), rfl, hN⟩
  case curriedArbitraryFunction =>
    obtain ⟨_, v1, _, v2, _, v3, h1, h2, h3, rfl, hv⟩ := pty_seq3.1 h
    cases hv
    obtain ⟨_, x1, _, x2, _, x3, _, x4, _, x5, _, _, hp, _, _, _, rfl⟩ := pty_seq5.1 h2
    obtain ⟨_, w1, _, w2, _, w3, _, w4, _, w5, _, _, g3, h4, _, _, rfl⟩ := pty_seq5.1 h3
    obtain ⟨_, u1, u, u2, _, u3, _, hx, _, _, rfl⟩ := pty_seq3.1 g3
    obtain ⟨xs, g4, rfl⟩ := pty_star.1 h4
    obtain ⟨hs, hN⟩ := pty_rule.1 h1
    obtain ⟨r, g1, g2⟩ := curriedFunction_ok (a := x1) (b := x2) (q := x4) (r := x5) (e := w1) (f := w2) (c := u1) (d := u3) (g := w5) hs (nameIn_self hN) (fun _ => nameText_in) (pty_rule.1 hx) (params_outcome hp) g4
    exact returns_ok g1 g2
  case aggregateName => exact ⟨rfl, hit_name (pty_re.1 h).1⟩
  case curriedAggregateName => exact ⟨rfl, hit_name (pty_re.1 h).1⟩
  case arbitraryFunctionName => exact ⟨rfl, hit_name (pty_re.1 h).1⟩
  case curriedArbitraryFunctionName => exact ⟨rfl, hit_name (pty_re.1 h).1⟩
  case aggregateList => obtain ⟨r, h1, h2⟩ := aggregateList_outcome h; exact returns_ok h1 h2
  case param =>
    obtain ⟨_, v1, _, v2, _, v3, _, v4, h1, _, _, _, _, hv⟩ := pty_seq4.1 h
    cases hv
    have h1 : ScalarV v1 := pty_rule.1 h1
    exact returns_ok (by simp only [visitRule, visitParam, param_ok h1, if_true]) h1
  case paramExpression => obtain ⟨r, h1, h2⟩ := paramExpression_outcome h; exact returns_ok h1 h2
  case groupBy => obtain ⟨r, h1, h2⟩ := groupBy_outcome h; exact returns_ok h1 h2
  case groupByNameTuple => obtain ⟨r, h1, h2⟩ := groupTuple_outcome h; exact returns_ok h1 h2
  case innerFilter =>
    obtain ⟨_, v1, _, v2, _, v3, h1, h2, h3, rfl, hv⟩ := pty_seq3.1 h
    cases hv
    obtain ⟨x, rfl, hx⟩ := pty_rule.1 h1
    obtain ⟨t, g1, g2⟩ := visitInnerFilter_ok hx (block_outcome h2) (group_outcome h3)
    exact returns_ok g1 ⟨t, rfl, g2⟩
  case metric =>
    obtain ⟨x, ⟨p, hp, hx⟩, hv⟩ := pty_alt h
    cases hv
    refine ⟨x, rfl, ?_⟩
    simp only [List.mem_cons, List.not_mem_nil, or_false] at hp
    rcases hp with rfl | rfl | rfl | rfl <;> first | exact pty_rule.1 hx | exact (pty_rule.1 hx).1
  case quotedMri =>
    obtain ⟨t1, v1, u, v2, t3, v3, h1, h2, h3, rfl, hv⟩ := pty_seq3.1 h
    have e1 : t1 = ['`'] := pty_rule.1 h1
    have e3 : t3 = ['`'] := pty_rule.1 h3
    subst e1 e3
    obtain ⟨r, h1, h2⟩ := mri_ok (pty_rule.1 h2).2
    exact returns_ok (by simp [visitRule, slice_ticks, h1]) h2
  case lenientMri =>
    have hl := hit_lenient (pty_re.1 h).1
    obtain ⟨r, h1, h2⟩ := mri_ok hl
    exact returns_ok h1 ⟨h2, hl⟩
  case unquotedMri => obtain ⟨r, h1, h2⟩ := mri_ok (hit_unquoted (pty_re.1 h).1); exact returns_ok h1 h2
  case quotedPublicName =>
    obtain ⟨t1, v1, u, v2, t3, v3, h1, h2, h3, rfl, hv⟩ := pty_seq3.1 h
    have e1 : t1 = ['`'] := pty_rule.1 h1
    have e3 : t3 = ['`'] := pty_rule.1 h3
    subst e1 e3
    obtain ⟨r, h1, h2⟩ := publicName_ok (pty_rule.1 h2).2
    exact returns_ok (by simp [visitRule, slice_ticks, h1]) h2
  case unquotedPublicName =>
    have hl := hit_public (pty_re.1 h).1
    obtain ⟨r, h1, h2⟩ := publicName_ok hl
    exact returns_ok h1 ⟨h2, hl⟩
  case space =>
    obtain ⟨⟨r, h⟩, _⟩ := pty_re.1 h
    obtain ⟨u, hu, hc⟩ := (mem_run_star (OneChar.cls _)).1 (List.mem_of_mem_head? h)
    show Blanks t
    rw [List.append_cancel_right hu]
    exact hc
  case openParen => exact (pty_lit.1 h).1
  case closeParen => exact (pty_lit.1 h).1
  case backtick => exact (pty_lit.1 h).1
  all_goals exact trivial

omit U in
theorem raises_rerr {k : Rule} {t : Str} {vs : List V} {e : Err} (h : RuleRaises k t vs e) : RErr k t e := by
  cases k <;> first
    | exact h
    | exact h.elim
    | exact .inl h.1
    | exact .inr (.inr h)

theorem rule_ok (k : Rule) (t : Str) (vs : List V) (h : PTy (mqlGrammar k) t (.list vs)) : Outcome k t (visitRule k t vs) := by
  have := rule_returns k t vs h
  generalize visitRule k t vs = r at this
  cases r with
  | ok v => exact this
  | error e => exact raises_rerr this

mutual
/-- The visit of a node of the shape of an expression returns what it should, or fails in a known way. -/
theorem node_outcome : ∀ {p : Peg Rule} {nd : Node Rule}, Fits p nd →
    (∀ v, visitNode nd = .ok v → PTy p nd.text v) ∧ ∀ e, visitNode nd = .error e → PErr p nd.text e
  | _, _, .lit l => by
    simp only [visitNode, visitNodes, ok_bind, Except.ok.injEq, reduceCtorEq, false_imp_iff, implies_true, and_true, forall_eq']
    exact .lit l
  | _, _, .re e t h => by
    simp only [visitNode, visitNodes, ok_bind, Except.ok.injEq, reduceCtorEq, false_imp_iff, implies_true, and_true, forall_eq']
    exact .re e t h
  | _, _, .seq ps nds h => by
    obtain ⟨h1, h2⟩ := nodes_outcome h
    simp only [visitNode, bind_eq_ok, bind_eq_error]
    constructor
    · rintro v ⟨vs, hvs, h⟩; cases h; exact .seq _ _ _ (h1 _ hvs)
    · rintro e (h | ⟨_, _, h⟩)
      · exact .seq _ _ _ (h2 _ h)
      · cases h
  | _, _, .alt p ps nd hp h => by
    obtain ⟨h1, h2⟩ := node_outcome h
    simp only [visitNode, visitNodes, bind_eq_ok, bind_eq_error]
    constructor
    · rintro v ⟨vs, ⟨w, hw, us, hu, h⟩, h'⟩; cases hu; cases h; cases h'; exact .alt _ _ _ _ hp (h1 _ hw)
    · rintro e ((h | ⟨_, _, h | ⟨_, _, h⟩⟩) | ⟨_, _, h⟩)
      · exact .alt _ _ _ _ hp.mem (h2 _ h)
      all_goals cases h
  | _, _, .star p nds h => by
    obtain ⟨h1, h2⟩ := reps_outcome h
    simp only [visitNode, bind_eq_ok, bind_eq_error]
    constructor
    · rintro v ⟨vs, hvs, h⟩; cases h; exact .star _ _ _ (h1 _ hvs)
    · rintro e (h | ⟨_, _, h⟩)
      · exact h2 _ h
      · cases h
  | _, _, .optNone p => by
    simp only [visitNode, visitNodes, ok_bind, Except.ok.injEq, reduceCtorEq, false_imp_iff, implies_true, and_true, forall_eq']
    exact .optNone p
  | _, _, .optSome p nd h => by
    obtain ⟨h1, h2⟩ := node_outcome h
    simp only [visitNode, visitNodes, bind_eq_ok, bind_eq_error]
    constructor
    · rintro v ⟨vs, ⟨w, hw, us, hu, h⟩, h'⟩; cases hu; cases h; cases h'; exact .optSome _ _ _ (h1 _ hw)
    · rintro e ((h | ⟨_, _, h | ⟨_, _, h⟩⟩) | ⟨_, _, h⟩)
      · exact .opt _ _ _ (h2 _ h)
      all_goals cases h
  | _, _, .rule k t cs h => by
    obtain ⟨h1, h2⟩ := node_outcome h
    simp only [visitNode, bind_eq_ok, bind_eq_error] at h1 h2 ⊢
    constructor
    · rintro v ⟨vs, hvs, hv⟩
      have := rule_ok k t vs (h1 _ ⟨vs, hvs, rfl⟩)
      rw [hv] at this
      exact .rule _ _ _ this
    · rintro e (h | ⟨vs, hvs, h⟩)
      · exact .rule _ _ _ (rule_err (h2 _ (.inl h)))
      · have := rule_ok k t vs (h1 _ ⟨vs, hvs, rfl⟩)
        rw [h] at this
        exact .rule _ _ _ this

theorem nodes_outcome : ∀ {ps : List (Peg Rule)} {nds : List (Node Rule)}, FitsAll ps nds →
    (∀ vs, visitNodes nds = .ok vs → PTys ps (nodeTexts nds) vs) ∧ ∀ e, visitNodes nds = .error e → PErrs ps (nodeTexts nds) e
  | _, _, .nil => by
    simp only [visitNodes, Except.ok.injEq, reduceCtorEq, false_imp_iff, implies_true, and_true, forall_eq']
    exact .nil
  | _, _, .cons p ps nd nds h hs => by
    obtain ⟨h1, h2⟩ := node_outcome h
    obtain ⟨h3, h4⟩ := nodes_outcome hs
    simp only [visitNodes, bind_eq_ok, bind_eq_error, nodeTexts_cons]
    constructor
    · rintro _ ⟨v, hv, vs, hvs, h⟩; cases h; exact .cons _ _ _ _ _ _ (h1 _ hv) (h3 _ hvs)
    · rintro e (h | ⟨_, _, h | ⟨_, _, h⟩⟩)
      · exact .head _ _ _ _ _ (h2 _ h) hs
      · exact .tail _ _ _ _ _ ‹_› (h4 _ h)
      · cases h

theorem reps_outcome : ∀ {p : Peg Rule} {nds : List (Node Rule)}, FitsRep p nds →
    (∀ vs, visitNodes nds = .ok vs → PReps p (nodeTexts nds) vs) ∧ ∀ e, visitNodes nds = .error e → PErr (.star p) (nodeTexts nds) e
  | _, _, .nil p => by
    simp only [visitNodes, Except.ok.injEq, reduceCtorEq, false_imp_iff, implies_true, and_true, forall_eq']
    exact .nil p
  | _, _, .cons p nd nds h hs => by
    obtain ⟨h1, h2⟩ := node_outcome h
    obtain ⟨h3, h4⟩ := reps_outcome hs
    simp only [visitNodes, bind_eq_ok, bind_eq_error, nodeTexts_cons]
    constructor
    · rintro _ ⟨v, hv, vs, hvs, h⟩; cases h; exact .cons _ _ _ _ _ (h1 _ hv) (h3 _ hvs)
    · rintro e (h | ⟨_, _, h | ⟨_, _, h⟩⟩)
      · exact .star _ _ _ [] _ (h2 _ h)
      · have h5 := h4 _ h
        generalize nodeTexts nds = y at h5
        cases h5 with
        | star _ t _ a b h =>
          have := PErr.star p t e (nd.text ++ a) b h
          simpa using this
      · cases h
end

theorem parseTree_outcome {text : Str} {nd : Node Rule} (h : parseTree text = some nd) :
    (∀ v, visitNode nd = .ok v → TermV text v) ∧ ∀ e, visitNode nd = .error e → Allowed text e := by
  unfold parseTree at h
  split at h
  · rename_i nd' hr
    cases h
    obtain ⟨hf, ht⟩ := pegRun_fits _ _ _ _ _ hr
    rw [List.append_nil] at ht
    obtain ⟨h1, h2⟩ := node_outcome hf
    rw [← ht] at h1 h2
    exact ⟨fun v hv => pty_rule.1 (h1 v hv), fun e he => perr_allowed (h2 e he) rfl⟩
  · cases h

/-- The parser returns queries whose parts are all as they should be. -/
theorem parseMql_sound {mql : Str} {q : MVal} (h : parseMql mql = .ok q) : Sound NameText q ∧ q.isQuery = true := by
  unfold parseMql at h
  split at h
  · cases h
  · rename_i nd hnd
    simp only [bind_eq_ok] at h
    obtain ⟨v, hv, hq⟩ := h
    rcases (parseTree_outcome hnd).1 v hv with h | ⟨h, _⟩
    · obtain ⟨m, hm, _, hq', hs⟩ := asQuery_ok h
      rw [hm] at hq
      cases hq
      exact ⟨hs, hq'⟩
    · rw [asQuery_scalar h] at hq
      cases hq

end

end Verif
