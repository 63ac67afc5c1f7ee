import Verif.Spec.MqlFilterText
import Verif.Lemmas.MqlParse
import Verif.Lemmas.Names

/-!
# Values and comparisons in filters
-/

namespace Verif

open Spec (FilterLink filterChain ValueKind compareOp)

section
variable [U : PyUnicode] [S : RegexSpace]

omit U in
theorem isUnquotedChar_iff {c : Char} : isUnquotedChar c = true ↔ c ∉ c!",[]\"}{()*" ∧ S.isSpace c = false := by
  simp only [isUnquotedChar, Bool.not_eq_true', Bool.or_eq_false_iff, beq_eq_false_iff_ne, ne_eq, List.mem_cons, List.not_mem_nil,
    or_false, not_or]
  constructor
  · rintro ⟨⟨⟨⟨⟨⟨⟨⟨⟨h1, h2⟩, h3⟩, h4⟩, h5⟩, h6⟩, h7⟩, h8⟩, h9⟩, h10⟩
    exact ⟨⟨h1, h2, h3, h4, h5, h6, h7, h8, h10⟩, h9⟩
  · rintro ⟨⟨h1, h2, h3, h4, h5, h6, h7, h8, h10⟩, h9⟩
    exact ⟨⟨⟨⟨⟨⟨⟨⟨⟨h1, h2⟩, h3⟩, h4⟩, h5⟩, h6⟩, h7⟩, h8⟩, h9⟩, h10⟩

omit U in
theorem BareText.all {u : Str} (h : BareText u) : ∀ c ∈ u, isUnquotedChar c = true := fun c hc => isUnquotedChar_iff.2 (h.2 c hc)

omit U in
theorem bare_stop {c : Char} {r : Str} (h : c ∈ c!",[]\"}{()*") : NotAt isUnquotedChar (c :: r) := by
  refine .cons ?_
  cases hc : isUnquotedChar c with
  | false => rfl
  | true => exact absurd h (isUnquotedChar_iff.1 hc).1

omit U in
theorem bare_stop_space {c : Char} {r : Str} (h : S.isSpace c = true) : NotAt isUnquotedChar (c :: r) := by
  refine .cons ?_
  cases hc : isUnquotedChar c with
  | false => rfl
  | true => have := (isUnquotedChar_iff.1 hc).2; rw [h] at this; cases this

omit U S in
theorem quoteText_eq {s : Str} (h : SafeText s) : quoteText s = strLit .mql s := by
  have : s.flatMap (fun c => if c = '"' then ['\\', '"'] else [c]) = escapeStr '"' s := by
    rw [escapeStr_eq _ (by decide) (by decide)]
    obtain ⟨h1, h2⟩ := h
    induction s with
    | nil => rfl
    | cons c s ih =>
      simp only [List.mem_cons, not_or] at h1 h2
      rw [List.flatMap_cons, List.flatMap_cons, ih h1.2 h2.2, esc1, if_neg (Ne.symm h1.1), if_neg (Ne.symm h2.1)]
  simp [quoteText, this, strLit, Cfg.quote, Cfg.mql]

omit U S in
theorem unescape_safe {s : Str} (h : SafeText s) : unescapeQuotes (slice1m1 (strLit .mql s)) = s := by
  rw [unescapeQuotes_strLit, (stays_escaped s).2 h]

/-- What may follow a value: nothing, a blank, a comma or a closing bracket. -/
def ValueEnd (R : Str) : Prop := ∀ c ∈ R.head?, S.isSpace c = true ∨ c ∈ c!",)]}"

omit U in
theorem ValueEnd.bare {R : Str} (h : ValueEnd R) : NotAt isUnquotedChar R := by
  cases R with
  | nil => exact .nil
  | cons c R =>
    rcases h c (by simp) with h | h
    · exact bare_stop_space h
    · refine bare_stop ?_
      simp only [List.mem_cons, List.not_mem_nil, or_false] at h ⊢
      rcases h with rfl | rfl | rfl | rfl <;> simp

omit U in
theorem ValueEnd.not {R : Str} (h : ValueEnd R) {d : Char} (hd : 33 ≤ d.toNat ∧ d.toNat < 127) (hn : d ∉ c!",)]}") : NotAt (· == d) R := by
  intro c hc
  simp only [beq_eq_false_iff_ne, ne_eq]
  rintro rfl
  rcases h c hc with h | h
  · rw [S.visible c hd.1 hd.2] at h; cases h
  · exact hn h

omit U in
theorem valueEnd_blanks {w R : Str} (hw : Blanks w) (hR : ValueEnd R) : ValueEnd (w ++ R) := by
  cases w with
  | nil => exact hR
  | cons c w =>
    intro d hd
    simp only [List.cons_append, List.head?_cons, Option.mem_some_iff] at hd
    subst hd
    exact .inl (hw c (by simp))

omit U in
theorem valueEnd_cons {c : Char} {R : Str} (h : c ∈ c!",)]}") : ValueEnd (c :: R) := by
  intro d hd
  simp only [List.head?_cons, Option.mem_some_iff] at hd
  subst hd
  exact .inr h

/-! ### Items of lists -/

theorem ev_bare {u R : Str} (h : BareText u) (hR : NotAt isUnquotedChar R) : Ev (.rule .unquotedString) (u ++ R) (.str u) R :=
  ev_plusTok rfl h.1 h.all hR rfl

omit U in
theorem quoteText_head (s R : Str) : ∃ r, quoteText s ++ R = '"' :: r := ⟨_, rfl⟩

omit U in
theorem ItemText.head {t s : Str} (h : ItemText t s) : NotAt S.isSpace t ∧ t ≠ [] ∧ NotAt (fun c => c ∈ c!",[]}{()*") t := by
  cases h with
  | quoted h => exact ⟨notAt_visible (by decide), by simp [quoteText], .cons (by decide)⟩
  | bare h =>
    cases t with
    | nil => exact absurd rfl h.1
    | cons c t =>
      have := h.2 c (by simp)
      refine ⟨.cons this.2, by simp, .cons ?_⟩
      simp only [decide_eq_false_iff_not]
      intro hc
      refine this.1 ?_
      simp only [List.mem_cons, List.not_mem_nil, or_false] at hc ⊢
      rcases hc with rfl | rfl | rfl | rfl | rfl | rfl | rfl | rfl <;> simp

/-- An item of a list. -/
theorem ev_item {t s R : Str} (h : ItemText t s) (hR : ValueEnd R) :
    Ev (.alt [.rule .quotedString, .rule .unquotedString]) (t ++ R) (.list [.str s]) R := by
  cases h with
  | quoted h =>
    rw [quoteText_eq h]
    exact (Kids.alt (.here (ev_quotedString s R h (unescape_safe h)))).ev
  | bare h =>
    refine (Kids.alt (.there (fails_quotedString ?_) (.here (ev_bare h hR.bare)))).ev
    cases t with
    | nil => exact absurd rfl h.1
    | cons c t =>
      refine notAt_cons ?_
      rintro rfl
      exact (h.2 '"' (by simp)).1 (by simp)

/-- The loop over the items of a list. -/
theorem ev_items {r : Str} {ss : List Str} (h : ItemsText r ss) : ∀ R,
    ∃ w, Blanks w ∧ ∃ vs, EvStar (.seq [ws, .rule .comma, ws, .alt [.rule .quotedString, .rule .unquotedString]]) (r ++ R) vs (w ++ ']' :: R) ∧
      fourths vs = .ok (ss.map fun s => .list [.str s]) := by
  induction h with
  | @nil w hw =>
    intro R
    refine ⟨w, hw, [], ?_, rfl⟩
    rw [List.append_assoc]
    exact .stop (.inr (.seq (.pa (ev_ws_some hw (notAt_visible (by decide))).pa (.here (fails_comma (notAt_cons (by decide)))))))
  | @cons w w' t r s ss hw hw' ht hr ih =>
    intro R
    obtain ⟨w2, hw2, vs, hev, hf⟩ := ih R
    have hend : ValueEnd (r ++ R) := by
      cases hr with
      | nil hw => rw [List.append_assoc]; exact valueEnd_blanks hw (valueEnd_cons (by decide))
      | cons hw _ _ _ => rw [List.append_assoc]; exact valueEnd_blanks hw (valueEnd_cons (by decide))
    refine ⟨w2, hw2, .list [.list [], .list [], .list [], .list [.str s]] :: vs, .cons (s' := r ++ R) ?_ ?_ hev, ?_⟩
    · simp only [List.append_assoc, List.cons_append]
      refine (Kids.seq (.cons (ev_ws_some hw (notAt_visible (by decide))) (.cons (ev_comma _) (.cons (ev_ws_some hw' ?_)
        (.cons (ev_item ht hend) .nil))))).ev
      exact notAt_append ht.head.2.1 ht.head.1
    · simp only [List.length_append, List.length_cons]; omega
    · simp only [fourths, hf, ok_bind, List.map_cons]

omit U S in
theorem firsts_strs (ss : List Str) : firsts (ss.map fun s => .list [.str s]) = .ok (ss.map .str) := by
  induction ss with
  | nil => rfl
  | cons s ss ih => simp only [List.map_cons, firsts, V.item0, ok_bind, ih]

omit U S in
theorem toVals_strs (ss : List Str) : V.toVals (ss.map .str) = ss.map .str := by
  induction ss with
  | nil => rfl
  | cons s ss ih => simp only [List.map_cons, V.toVals, ih]; rfl

/-! ### Values -/

omit U S in
/-- A quote in an escaped text is behind a backslash. -/
theorem quote_behind_backslash {s : Str} (h : SafeText s) : ∀ p c q,
    s.flatMap (fun c => if c = '"' then ['\\', '"'] else [c]) = p ++ c :: '"' :: q → c = '\\' := by
  have h1 := h.1
  clear h
  induction s with
  | nil => intro p c q h; simp at h
  | cons d s ih =>
    simp only [List.mem_cons, not_or] at h1
    intro p c q h
    have hrest : ∀ x, s.flatMap (fun c => if c = '"' then ['\\', '"'] else [c]) ≠ '"' :: x := by
      intro x hx
      cases s with
      | nil => simp at hx
      | cons e s =>
        rw [List.flatMap_cons] at hx
        split at hx
        · simp at hx
        · rename_i he; simp only [List.cons_append, List.nil_append, List.cons.injEq] at hx; exact he hx.1
    rw [List.flatMap_cons] at h
    split at h
    · cases p with
      | nil => simp only [List.cons_append, List.nil_append, List.cons.injEq] at h; exact h.1.symm
      | cons a p =>
        simp only [List.cons_append, List.nil_append, List.cons.injEq] at h
        cases p with
        | nil =>
          simp only [List.nil_append, List.cons.injEq] at h
          exact absurd h.2.2 (hrest q)
        | cons b p =>
          simp only [List.cons_append, List.cons.injEq] at h
          exact ih h1.2 p c q h.2.2
    · cases p with
      | nil =>
        simp only [List.cons_append, List.nil_append, List.cons.injEq] at h
        exact absurd h.2 (hrest q)
      | cons a p =>
        simp only [List.cons_append, List.nil_append, List.cons.injEq] at h
        exact ih h1.2 p c q h.2

omit U S in
theorem flatMap_no_quote {s : Str} (h : '"' ∉ s.flatMap (fun c => if c = '"' then ['\\', '"'] else [c])) :
    s.flatMap (fun c => if c = '"' then ['\\', '"'] else [c]) = s := by
  induction s with
  | nil => rfl
  | cons c s ih =>
    rw [List.flatMap_cons] at h ⊢
    split
    · rename_i hc; simp [hc] at h
    · rename_i hc
      simp only [if_neg hc, List.cons_append, List.nil_append, List.mem_cons, not_or] at h
      simp only [List.cons_append, List.nil_append, List.cons.injEq, true_and]
      exact ih h.2

omit U in
/-- A string in quotes that is no pattern is not read as one. -/
theorem fails_quotedPattern {s R : Str} (h : SafeText s) (hp : ∀ u, BareText u → s ≠ u ++ ['*']) :
    Fails (.rule .quotedSuffixWildcard) (quoteText s ++ R) := by
  refine .rule (.seq ?_)
  have e : quoteText s ++ R = ['"'] ++ (s.flatMap (fun c => if c = '"' then ['\\', '"'] else [c]) ++ '"' :: R) := by
    simp [quoteText]
  rw [e]
  refine .pa (.rule .lit) ?_
  generalize hb : s.flatMap (fun c => if c = '"' then ['\\', '"'] else [c]) = b
  generalize hT : b ++ '"' :: R = T
  have hsplit : T = T.takeWhile isUnquotedChar ++ T.dropWhile isUnquotedChar := (List.takeWhile_append_dropWhile).symm
  have hstop : NotAt isUnquotedChar (T.dropWhile isUnquotedChar) := by
    intro c hc
    have := List.head?_dropWhile_not isUnquotedChar T
    rw [Option.mem_def.1 hc] at this
    simpa using this
  have hall : ∀ c ∈ T.takeWhile isUnquotedChar, isUnquotedChar c = true := by
    have := List.all_takeWhile (p := isUnquotedChar) (l := T)
    exact fun c hc => List.all_eq_true.1 this c hc
  generalize T.takeWhile isUnquotedChar = u at hsplit hall
  generalize T.dropWhile isUnquotedChar = r at hsplit hstop
  by_cases hu : u = []
  · subst hu
    rw [hsplit]
    exact .here (fails_plusTok rfl hstop)
  · rw [hsplit]
    refine .pa (.rule (.re (plus_head hu hall hstop))) ?_
    by_cases hr : ∃ r', r = '*' :: r'
    · obtain ⟨r', rfl⟩ := hr
      refine .pa (.rule (.lit (l := ['*']))) ?_
      refine .here (fails_quote ?_)
      cases r' with
      | nil => exact .nil
      | cons d r' =>
        refine notAt_cons ?_
        rintro rfl
        have hbare : BareText u := ⟨hu, fun c hc => isUnquotedChar_iff.1 (hall c hc)⟩
        have huq : '"' ∉ u := fun hc => (hbare.2 _ hc).1 (by simp)
        have heq : (u ++ ['*']) ++ '"' :: r' = b ++ '"' :: R := by rw [hT, hsplit]; simp
        rcases List.append_eq_append_iff.1 heq with ⟨as, h1, h2⟩ | ⟨bs, h1, h2⟩
        · cases as with
          | nil =>
            have hbu : b = u ++ ['*'] := by simpa using h1
            rw [hbu] at hb
            have hq : '"' ∉ u ++ ['*'] := by simp [huq]
            rw [flatMap_no_quote (by rw [hb]; exact hq)] at hb
            exact hp u hbare hb
          | cons a as =>
            simp only [List.cons_append, List.cons.injEq] at h2
            rw [← h2.1] at h1
            have := quote_behind_backslash h u '*' as (by rw [hb, h1]; simp)
            cases this
        · cases bs with
          | nil =>
            have hbu : b = u ++ ['*'] := by simpa using h1.symm
            rw [hbu] at hb
            have hq : '"' ∉ u ++ ['*'] := by simp [huq]
            rw [flatMap_no_quote (by rw [hb]; exact hq)] at hb
            exact hp u hbare hb
          | cons a bs =>
            simp only [List.cons_append, List.cons.injEq] at h2
            rw [← h2.1] at h1
            have : '"' ∈ u ++ ['*'] := by rw [h1]; simp
            simp [huq] at this
    · refine .here (fails_wildcard ?_)
      cases r with
      | nil => exact .nil
      | cons d r =>
        refine notAt_cons ?_
        rintro rfl
        exact hr ⟨r, rfl⟩

omit U in
theorem BareText.notAt {u R : Str} (h : BareText u) {d : Char} (hd : d ∈ c!",[]\"}{()*") : NotAt (· == d) (u ++ R) := by
  cases u with
  | nil => exact absurd rfl h.1
  | cons c u =>
    refine notAt_cons ?_
    rintro rfl
    exact (h.2 c (by simp)).1 hd

omit U in
theorem fails_quotedWildcard {s : Str} (h : NotAt (· == '"') s) : Fails (.rule .quotedSuffixWildcard) s :=
  .rule (.seq (.here (fails_quote h)))

omit U in
theorem fails_bareWildcard {s : Str} (h : NotAt isUnquotedChar s) : Fails (.rule .suffixWildcard) s :=
  .rule (.seq (.here (fails_plusTok rfl h)))

/-- The value of a filter. -/
theorem ev_value {t R : Str} {kind : ValueKind} {v : Val} (h : FilterValueText t kind v) (hR : ValueEnd R) :
    Ev (.rule .tagValue) (t ++ R) (.factor v (decide (kind = .pattern))) R := by
  cases h with
  | @quoted s h hp =>
    have hk : Ev (.rule .quotedStringFilter) (quoteText s ++ R) (.factor (.str s) false) R := by
      rw [quoteText_eq h]
      have hk : Kids (mqlGrammar .quotedStringFilter) (strLit .mql s ++ R) [] R := Kids.re (quotedRe_strLit s R)
      exact hk.rule' (by simp only [visitRule, unescape_safe h])
    have : Kids (mqlGrammar .tagValue) (quoteText s ++ R) [.factor (.str s) false] R :=
      Kids.alt (.there (fails_quotedPattern h hp) (.there (fails_bareWildcard (bare_stop (by simp))) (.here hk)))
    exact this.rule rfl
  | bare h =>
    have : Kids (mqlGrammar .tagValue) (t ++ R) [.factor (.str t) false] R := by
      refine Kids.alt (.there (fails_quotedWildcard (h.notAt (by simp))) (.there ?_ (.there (.rule (.re (quotedRe_fail (h.notAt (by simp)))))
        (.here (ev_plusTok rfl h.1 h.all hR.bare rfl)))))
      exact .rule (.seq (.pa (.rule (.re (plus_head h.1 h.all hR.bare))) (.here (fails_wildcard (hR.not (by decide) (by decide))))))
    exact this.rule rfl
  | @quotedPattern u h =>
    have e : quoteText (u ++ ['*']) ++ R = '"' :: (u ++ ('*' :: '"' :: R)) := by
      have : (u ++ ['*']).flatMap (fun c => if c = '"' then ['\\', '"'] else [c]) = u ++ ['*'] := by
        have hq : ∀ s : Str, '"' ∉ s → s.flatMap (fun c => if c = '"' then ['\\', '"'] else [c]) = s := by
          intro s hs
          induction s with
          | nil => rfl
          | cons c s ih =>
            simp only [List.mem_cons, not_or] at hs
            rw [List.flatMap_cons, if_neg (Ne.symm hs.1), ih hs.2]; rfl
        refine hq _ ?_
        simp only [List.mem_append, List.mem_cons, List.not_mem_nil, or_false, not_or]
        exact ⟨fun hc => (h.2 _ hc).1 (by simp), by decide⟩
      rw [quoteText, this]
      simp
    rw [e]
    have hk : Kids (mqlGrammar .quotedSuffixWildcard) ('"' :: (u ++ ('*' :: '"' :: R))) [.list [], .str u, .list [], .list []] R :=
      Kids.seq (.cons (ev_quote _) (.cons (ev_bare h (bare_stop (by simp))) (.cons (ev_wildcard _) (.cons (ev_quote _) .nil))))
    have : Kids (mqlGrammar .tagValue) ('"' :: (u ++ ('*' :: '"' :: R))) [.factor (.str (u ++ ['*'])) true] R :=
      Kids.alt (.here (hk.rule rfl))
    exact this.rule rfl
  | @pattern u h =>
    rw [List.append_assoc]
    have hk : Kids (mqlGrammar .suffixWildcard) (u ++ (['*'] ++ R)) [.str u, .list []] R :=
      Kids.seq (.cons (ev_bare h (bare_stop (by simp))) (.cons (ev_wildcard _) .nil))
    have : Kids (mqlGrammar .tagValue) (u ++ (['*'] ++ R)) [.factor (.str (u ++ ['*'])) true] R :=
      Kids.alt (.there (fails_quotedWildcard (h.notAt (by simp))) (.here (hk.rule rfl)))
    exact this.rule rfl
  | @list w t r s ss hw ht hr =>
    obtain ⟨w2, hw2, vs, hev, hf⟩ := ev_items hr R
    have hend : ValueEnd (r ++ R) := by
      cases hr with
      | nil hw => rw [List.append_assoc]; exact valueEnd_blanks hw (valueEnd_cons (by decide))
      | cons hw _ _ _ => rw [List.append_assoc]; exact valueEnd_blanks hw (valueEnd_cons (by decide))
    simp only [List.append_assoc, List.cons_append]
    have hk : Kids (mqlGrammar .stringTuple) ('[' :: (w ++ (t ++ (r ++ R)))) [.list [], .list [], .list [.str s], .list vs, .list [], .list []] R :=
      Kids.seq (.cons (ev_openSquare _) (.cons (ev_ws_some hw (notAt_append ht.head.2.1 ht.head.1)) (.cons (ev_item ht hend)
        (.cons (Kids.star hev).ev (.cons (ev_ws_some hw2 (notAt_visible (by decide))) (.cons (ev_closeSquare _) .nil))))))
    have hst : Ev (.rule .stringTuple) ('[' :: (w ++ (t ++ (r ++ R)))) (.factor (.list ((s :: ss).map .str)) false) R := by
      refine hk.rule ?_
      have h1 : firsts (.list [.str s] :: ss.map fun s => .list [.str s]) = .ok ((s :: ss).map .str) := firsts_strs (s :: ss)
      simp only [visitRule, visitStringTuple, V.items, ok_bind, hf, h1, toVals_strs]
    have hn : NotAt (· == '"') ('[' :: (w ++ (t ++ (r ++ R)))) := notAt_cons (by decide)
    have hb : NotAt isUnquotedChar ('[' :: (w ++ (t ++ (r ++ R)))) := bare_stop (by simp)
    have : Kids (mqlGrammar .tagValue) ('[' :: (w ++ (t ++ (r ++ R)))) [.factor (.list ((s :: ss).map .str)) false] R :=
      Kids.alt (.there (fails_quotedWildcard hn) (.there (fails_bareWildcard hb) (.there (.rule (.re (quotedRe_fail hn)))
        (.there (fails_plusTok rfl hb) (.here hst)))))
    exact this.rule rfl

end

end Verif
