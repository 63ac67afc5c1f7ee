import Verif.Lemmas.MqlReads

/-!
# C40: precedence in chains of filters in MQL
-/

namespace Verif

open Spec (FilterLink filterChain orOfAnds groups conj disj addFilters addGroups optList)

section
variable [U : PyUnicode] [S : RegexSpace]

/-- The filters of a chain behind the first, and how they are joined. -/
def LinksText (ls : List FilterLink) : Prop := ∀ l ∈ ls, FilterText l.text l.value ∧ JointText l.joint l.isOr l.text

/-- The text of a chain in braces. -/
def inBraces (w t : Str) (ls : List FilterLink) (w' : Str) : Str := '{' :: (w ++ (filterChain t ls ++ (w' ++ ['}'])))

omit U in
theorem blockText_braces {w w' t : Str} {v : Val} {ls : List FilterLink} (hw : Blanks w) (hw' : Blanks w') (ht : FilterText t v)
    (hl : LinksText ls) : BlockText (inBraces w t ls w') [orOfAnds v (ls.map fun l => (l.isOr, l.value))] :=
  .some hw hw' ht (fun l h => (hl l h).1) (fun l h => (hl l h).2)

/-- **C40.** For every chain of filters of any length, each of them a comparison or a chain in parentheses of any depth,
behind the call of an aggregate or function: the parser adds one filter to the query, the disjunction of the conjunctions of
the values between the joints that mean "or". Missing: filters joined by blanks alone of which the second begins with the
word `and` or `AND`; for these the statement is false, see `C40_fails_for_keys_that_begin_with_and`. -/
theorem C40_filters_of_calls_partial {mql call w w' t : Str} {x : MVal} {v : Val} {ls : List FilterLink}
    (hmql : stripP isSpace mql = call ++ inBraces w t ls w') (hc : Reads .call call x) (hw : Blanks w) (hw' : Blanks w')
    (ht : FilterText t v) (hl : LinksText ls) :
    parseMql mql = .ok (addFilters [orOfAnds v (ls.map fun l => (l.isOr, l.value))] x) := by
  have hk : Call call x := reads_known hc
  have h : Reads .operand (call ++ ([] ++ (inBraces w t ls w' ++ []))) _ :=
    .filteredCall hc .none (blockText_braces hw hw' ht hl) (by simp [inBraces]) .none
  have h' : Reads .expr (Spec.chainText (call ++ ([] ++ (inBraces w t ls w' ++ []))) []) _ :=
    .chain (tr := .leaf _) (.plain h) (by simp) (by simp) trivial rfl
  have e : ∀ (q : MVal), IsQuery q → Good q → addGroups [] q = q := by
    intro q hq hg
    cases q with
    | ts s => simp only [addGroups, prepend_nil hg.2.2]
    | formula n p a f g => simp only [addGroups, prepend_nil hg.2]
    | _ => cases hq
  have hcond := (factor_of_text ht).cond
  have hgood : Good (addFilters [orOfAnds v (ls.map fun l => (l.isOr, l.value))] x) :=
    hk.good.addFilters (by simpa using orOfAnds_condition hcond)
  refine parseMql_reads (t := Spec.chainText (call ++ ([] ++ (inBraces w t ls w' ++ []))) ([] : List (Spec.Link MVal))) ?_ ?_ ?_
  · rw [hmql]; simp [Spec.chainText]
  · rw [Spec.Tree.formula, e x hk.query hk.good, e _ (hk.query.addFilters _) hgood] at h'
    exact h'
  · exact hk.query.addFilters _

/-- **C40.** The same for the filters of an expression in parentheses. Missing as above. -/
theorem C40_filters_of_expressions_partial {mql e w1 w2 w w' t : Str} {x : MVal} {v : Val} {ls : List FilterLink}
    (hmql : stripP isSpace mql = '(' :: (w1 ++ (e ++ (w2 ++ ')' :: inBraces w t ls w')))) (he : Reads .expr e x) (hq : IsQuery x)
    (hw1 : Blanks w1) (hw2 : Blanks w2) (hw : Blanks w) (hw' : Blanks w') (ht : FilterText t v) (hl : LinksText ls) :
    parseMql mql = .ok (addFilters [orOfAnds v (ls.map fun l => (l.isOr, l.value))] x) := by
  have hk : Expr e x := reads_known he
  have h : Reads .operand ('(' :: (w1 ++ (e ++ (w2 ++ ')' :: (inBraces w t ls w' ++ []))))) _ :=
    .paren hw1 hw2 he hq (blockText_braces hw hw' ht hl) .none
  have h' : Reads .expr (Spec.chainText ('(' :: (w1 ++ (e ++ (w2 ++ ')' :: (inBraces w t ls w' ++ []))))) []) _ :=
    .chain (tr := .leaf _) (.plain h) (by simp) (by simp) trivial rfl
  have hcond := (factor_of_text ht).cond
  have hgood : Good (addFilters [orOfAnds v (ls.map fun l => (l.isOr, l.value))] x) :=
    hk.good.addFilters (by simpa using orOfAnds_condition hcond)
  have hqf := hq.addFilters [orOfAnds v (ls.map fun l => (l.isOr, l.value))]
  have e' : addGroups [] (addFilters [orOfAnds v (ls.map fun l => (l.isOr, l.value))] x) =
      addFilters [orOfAnds v (ls.map fun l => (l.isOr, l.value))] x := by
    revert hgood hqf
    generalize addFilters [orOfAnds v (ls.map fun l => (l.isOr, l.value))] x = q
    intro hgood hqf
    cases q with
    | ts s => simp only [addGroups, prepend_nil hgood.2.2]
    | formula n p a f g => simp only [addGroups, prepend_nil hgood.2]
    | _ => cases hqf
  refine parseMql_reads (t := Spec.chainText ('(' :: (w1 ++ (e ++ (w2 ++ ')' :: (inBraces w t ls w' ++ []))))) ([] : List (Spec.Link MVal))) ?_ ?_ hqf
  · rw [hmql]; simp [Spec.chainText]
  · rw [Spec.Tree.formula, e'] at h'
    exact h'

/-- **C40.** The same for the filters behind a metric, inside the aggregate. Missing as above. -/
theorem C40_filters_of_metrics_partial {mql n m w w' t : Str} {o : MetricObj} {v : Val} {ls : List FilterLink}
    (hmql : stripP isSpace mql = n ++ '(' :: (m ++ (inBraces w t ls w' ++ [')']))) (hn : NameText n) (hm : MetricText m o)
    (hw : Blanks w) (hw' : Blanks w') (ht : FilterText t v) (hl : LinksText ls) :
    parseMql mql = .ok (.ts ⟨o, .str n, .none, .list [orOfAnds v (ls.map fun l => (l.isOr, l.value))], .none⟩) := by
  have hi : InnerText (m ++ (inBraces w t ls w' ++ ([] ++ []))) o [orOfAnds v (ls.map fun l => (l.isOr, l.value))] [] :=
    .filtered hm (blockText_braces hw hw' ht hl) (by simp [inBraces]) .none (by simp [Blanks])
  have h : Reads .call (n ++ ([] ++ '(' :: ([] ++ ((m ++ (inBraces w t ls w' ++ ([] ++ []))) ++ [')'])))) _ :=
    .aggregate hn .none (by simp [Blanks]) hi
  have h' : Reads .expr (Spec.chainText ((n ++ ([] ++ '(' :: ([] ++ ((m ++ (inBraces w t ls w' ++ ([] ++ []))) ++ [')'])))) ++ []) []) _ :=
    .chain (tr := .leaf _) (.plain (.plainCall h .none)) (by simp) (by simp) trivial rfl
  exact parseMql_reads (by rw [hmql]; simp [Spec.chainText]) h' trivial

/-- **C40.** A chain is read in the same way wherever it stands in a larger text, followed by blanks and a closing bracket:
it is matched in full and no further. Missing as above. -/
theorem C40_chains_anywhere_partial {t : Str} {v : Val} {ls : List FilterLink} (ht : FilterText t v) (hl : LinksText ls)
    (w rest : Str) (d : Char) (hw : Blanks w) (hd : d = ')' ∨ d = '}') :
    ∃ n nd, pegRun mqlGrammar n (.rule .filterExpr) (filterChain t ls ++ (w ++ d :: rest)) = .ok nd (w ++ d :: rest) ∧
      visitNode nd = .ok (.obj (.val (orOfAnds v (ls.map fun l => (l.isOr, l.value))))) := by
  obtain ⟨nd, ⟨n, hn⟩, hv⟩ := ev_filterChain (factor_of_text ht) (fun l h => ⟨factor_of_text (hl l h).1, (hl l h).2⟩)
    (R := w ++ d :: rest) ⟨w, d, rest, rfl, hw, hd⟩
  exact ⟨n, nd, hn, hv⟩

omit U S in
/-- **C40.** What the specification of the result means: the groups are the values in their order, cut exactly where the
joint means "or". -/
theorem C40_groups_cut_at_or {α : Type} (x : α) (ls : List (Bool × α)) :
    groups x ls = (ls.foldl (fun acc l => if l.1 then [l.2] :: acc else
      match acc with
      | g :: gs => (g ++ [l.2]) :: gs
      | [] => [[l.2]]) [[x]]).reverse := by
  have key : ∀ (ls : List (Bool × α)) (g : List α) (gs : List (List α)) (x : α),
      (ls.foldl (fun acc l => if l.1 then [l.2] :: acc else
        match acc with
        | g :: gs => (g ++ [l.2]) :: gs
        | [] => [[l.2]]) ((g ++ [x]) :: gs)).reverse =
      gs.reverse ++ (match groups x ls with | h :: hs => (g ++ h) :: hs | [] => []) := by
    intro ls
    induction ls with
    | nil => intro g gs x; simp [groups]
    | cons l ls ih =>
      intro g gs x
      obtain ⟨b, y⟩ := l
      cases b with
      | true =>
        have := ih [] ((g ++ [x]) :: gs) y
        simp only [List.nil_append] at this
        simp only [List.foldl_cons, if_true, this, groups, List.reverse_cons, List.append_assoc, List.cons_append, List.nil_append]
        cases hg : groups y ls with
        | nil => cases ls with
          | nil => simp [groups] at hg
          | cons l ls => obtain ⟨b, z⟩ := l; cases b <;> simp only [groups] at hg <;> (try split at hg) <;> cases hg
        | cons h hs => rfl
      | false =>
        have := ih (g ++ [x]) gs y
        simp only [List.foldl_cons, Bool.false_eq_true, if_false, this, groups]
        cases hg : groups y ls with
        | nil => cases ls with
          | nil => simp [groups] at hg
          | cons l ls => obtain ⟨b, z⟩ := l; cases b <;> simp only [groups] at hg <;> (try split at hg) <;> cases hg
        | cons h hs => simp
  have := key ls [] [] x
  simp only [List.nil_append, List.reverse_nil] at this
  rw [this]
  cases hg : groups x ls with
  | nil => cases ls with
    | nil => simp [groups] at hg
    | cons l ls => obtain ⟨b, z⟩ := l; cases b <;> simp only [groups] at hg <;> (try split at hg) <;> cases hg
  | cons h hs => rfl

end

section Examples

local instance exChainUnicode : PyUnicode := asciiUnicode
local instance exChainSpace : RegexSpace := pySpace

/-- The filter `k:u`. -/
theorem exFilter (k u : Str) (hk : KeyText k) (hu : BareText u) : FilterText (k ++ ':' :: u) (.cond (keyColumn k) .eq (.str u)) :=
  FilterText.compare (neg := false) (w := []) (w' := []) (kind := .text) hk (by simp [Blanks]) (by simp [Blanks]) (.bare hu)

/-- The call `sum(m)`. -/
theorem exCall : Reads .call c!"sum(m)" (.ts ⟨⟨.str c!"m", .none, .none⟩, .str c!"sum", .none, .none, .none⟩) :=
  .aggregate (n := c!"sum") (p := []) (w := []) (i := c!"m") ⟨by simp, by decide, by decide⟩ .none (by simp [Blanks])
    (.plain (.pub ⟨c!"m", [], by simp, ⟨by simp, by decide⟩, by simp⟩))

theorem exBlank : Blanks c!" " := by
  intro c hc
  simp only [List.mem_singleton] at hc
  subst hc
  rfl

theorem exKey (k : Str) (h : k ≠ [] ∧ (∀ c ∈ k, (isAlpha c || isDigit c || c == '_' || c == '.') = true) ∧
    ∀ c ∈ k.head?, (isAlpha c || c == '_') = true) : KeyText k := ⟨h.1, h.2.1, h.2.2⟩

/-- **C40.** Filters joined by a blank are misread if the second begins with `and`: the key `android` loses its beginning. -/
theorem C40_fails_for_keys_that_begin_with_and :
    FilterText c!"a:1" (.cond (keyColumn c!"a") .eq (.str c!"1")) ∧
    FilterText c!"android:2" (.cond (keyColumn c!"android") .eq (.str c!"2")) ∧
    parseMql c!"sum(m){a:1 android:2}" = .ok (.ts ⟨⟨.str c!"m", .none, .none⟩, .str c!"sum", .none,
      .list [.boolCond .and .and .list [.cond (keyColumn c!"a") .eq (.str c!"1"), .cond (keyColumn c!"roid") .eq (.str c!"2")]], .none⟩) := by
  have h1 : FilterText c!"a:1" (.cond (keyColumn c!"a") .eq (.str c!"1")) :=
    exFilter c!"a" c!"1" (exKey _ (by decide)) ⟨by simp, by decide⟩
  refine ⟨h1, exFilter c!"android" c!"2" (exKey _ (by decide)) ⟨by simp, by decide⟩, ?_⟩
  exact C40_filters_of_calls_partial (w := []) (w' := []) (t := c!"a:1")
    (ls := [⟨c!" and", false, c!"roid:2", .cond (keyColumn c!"roid") .eq (.str c!"2")⟩]) rfl exCall (by simp [Blanks]) (by simp [Blanks]) h1
    (by
      simp only [LinksText, List.mem_singleton, forall_eq]
      exact ⟨exFilter c!"roid" c!"2" (exKey _ (by decide)) ⟨by simp, by decide⟩,
        .and (w := c!" ") (word := c!"and") (w' := []) exBlank (by simp) (.inr rfl) (by simp [Blanks])⟩)

/-- The links of `a:1 OR b:2, (c:3 or d:4) AND e:5`. -/
def exFilterLinks : List FilterLink :=
  [⟨c!" OR ", true, c!"b:2", .cond (keyColumn c!"b") .eq (.str c!"2")⟩,
   ⟨c!", ", false, c!"(c:3 or d:4)", .boolCond .or .or .list [.cond (keyColumn c!"c") .eq (.str c!"3"), .cond (keyColumn c!"d") .eq (.str c!"4")]⟩,
   ⟨c!" AND ", false, c!"e:5", .cond (keyColumn c!"e") .eq (.str c!"5")⟩]

theorem exFilterLinks_text : LinksText exFilterLinks := by
  have hcd : FilterText c!"(c:3 or d:4)" (.boolCond .or .or .list [.cond (keyColumn c!"c") .eq (.str c!"3"), .cond (keyColumn c!"d") .eq (.str c!"4")]) :=
    .group (w := []) (w' := []) (t := c!"c:3") (ls := [⟨c!" or ", true, c!"d:4", .cond (keyColumn c!"d") .eq (.str c!"4")⟩])
      (by simp [Blanks]) (by simp [Blanks]) (exFilter c!"c" c!"3" (exKey _ (by decide)) ⟨by simp, by decide⟩)
      (by simpa using exFilter c!"d" c!"4" (exKey _ (by decide)) ⟨by simp, by decide⟩)
      (by simpa using JointText.or (w := c!" ") (word := c!"or") (w' := c!" ") exBlank (by simp) (.inr rfl) exBlank (by simp))
  simp only [LinksText, exFilterLinks, List.mem_cons, List.not_mem_nil, or_false, forall_eq_or_imp, forall_eq]
  exact ⟨⟨exFilter c!"b" c!"2" (exKey _ (by decide)) ⟨by simp, by decide⟩,
      .or (w := c!" ") (word := c!"OR") (w' := c!" ") exBlank (by simp) (.inl rfl) exBlank (by simp)⟩,
    ⟨hcd, .comma (w := []) (w' := c!" ") (by simp [Blanks]) exBlank⟩,
    ⟨exFilter c!"e" c!"5" (exKey _ (by decide)) ⟨by simp, by decide⟩,
      .and (w := c!" ") (word := c!"AND") (w' := c!" ") exBlank (by simp) (.inl rfl) exBlank⟩⟩

/-- `a:1 OR (b:2 AND (c:3 OR d:4) AND e:5)`. -/
example : parseMql c!"sum(m){a:1 OR b:2, (c:3 or d:4) AND e:5 }" =
    .ok (.ts ⟨⟨.str c!"m", .none, .none⟩, .str c!"sum", .none, .list [.boolCond .or .or .list [.cond (keyColumn c!"a") .eq (.str c!"1"),
      .boolCond .and .and .list [.cond (keyColumn c!"b") .eq (.str c!"2"),
        .boolCond .or .or .list [.cond (keyColumn c!"c") .eq (.str c!"3"), .cond (keyColumn c!"d") .eq (.str c!"4")],
        .cond (keyColumn c!"e") .eq (.str c!"5")]]], .none⟩) :=
  C40_filters_of_calls_partial (w := []) (w' := c!" ") (t := c!"a:1") (ls := exFilterLinks) rfl exCall (by simp [Blanks]) exBlank
    (exFilter c!"a" c!"1" (exKey _ (by decide)) ⟨by simp, by decide⟩) exFilterLinks_text

/-- The same inside the aggregate and behind parentheses. -/
example : parseMql c!"sum(m{a:1 OR b:2, (c:3 or d:4) AND e:5})" = parseMql c!"(sum(m)){a:1 OR b:2, (c:3 or d:4) AND e:5}" := by
  rw [C40_filters_of_metrics_partial (n := c!"sum") (m := c!"m") (w := []) (w' := []) (t := c!"a:1") (ls := exFilterLinks) rfl
      ⟨by simp, by decide, by decide⟩ (.pub ⟨c!"m", [], by simp, ⟨by simp, by decide⟩, by simp⟩) (by simp [Blanks]) (by simp [Blanks])
      (exFilter c!"a" c!"1" (exKey _ (by decide)) ⟨by simp, by decide⟩) exFilterLinks_text,
    C40_filters_of_expressions_partial (e := c!"sum(m)") (w1 := []) (w2 := []) (w := []) (w' := []) (t := c!"a:1") (ls := exFilterLinks) rfl
      (.chain (tr := .leaf _) (t := c!"sum(m)") (ls := []) (.plain (.plainCall (g := []) exCall .none)) (by simp) (by simp) trivial rfl) trivial
      (by simp [Blanks]) (by simp [Blanks]) (by simp [Blanks]) (by simp [Blanks])
      (exFilter c!"a" c!"1" (exKey _ (by decide)) ⟨by simp, by decide⟩) exFilterLinks_text]
  rfl

end Examples

end Verif
