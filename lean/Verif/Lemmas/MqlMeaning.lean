import Verif.Lemmas.MqlGeneric
import Verif.Lemmas.MqlMetric
import Verif.Lemmas.Built
import Verif.Lemmas.Legacy

/-!
# What the methods of the visitor return is what the texts mean
-/

namespace Verif

open Spec

section
variable [U : PyUnicode] [S : RegexSpace]

/-- The text of a rule and the result of its method, as the language wants it. -/
def RM : Rule → Str → V → Prop
  | .expression, t, v => ∃ m, v = .obj m ∧ Means .sum t m
  | .term, t, v => ∃ m, v = .obj m ∧ Means .product t m
  | .unary, t, v => ∃ m, v = .obj m ∧ Means .signed t m
  | .coefficient, t, v => ∃ m, v = .obj m ∧ Means .operand t m
  | .number, t, v => ∃ f, v = .obj (.val (.float f)) ∧ NumText t f
  | .quotedString, t, v => ∃ s, v = .obj (.val (.str s)) ∧ QuotedMeans t s
  | .unaryOp, t, v => t = ['-'] ∧ v = .obj (.val (.str c!"negate"))
  | .exprOp, t, v => ∃ op : Arith, op.level = 1 ∧ t = [op.char] ∧ v = .obj (.val (.str op.name))
  | .termOp, t, v => ∃ op : Arith, op.level = 2 ∧ t = [op.char] ∧ v = .obj (.val (.str op.name))
  | .unquotedString, t, v => v = .obj (.val (.str t)) ∧ BareText t
  | .aggregateName, t, v | .curriedAggregateName, t, v | .arbitraryFunctionName, t, v | .curriedArbitraryFunctionName, t, v =>
    v = .obj (.val (.str t)) ∧ CallName t
  | .filter, t, v => ∃ m, v = .obj m ∧ (NoDigitFirst t → Means .operand t m)
  | .target, t, v | .function, t, v | .nestedExpression, t, v => ∃ m, v = .obj m ∧ Means .target t m
  | .aggregate, t, v | .curriedAggregate, t, v | .arbitraryFunction, t, v | .curriedArbitraryFunction, t, v =>
    ∃ m, v = .obj m ∧ Means .call t m
  | .innerFilter, t, v => ∃ o fs gs, SeriesMeans t o fs gs ∧ v = .obj (.ts ⟨o, .str aggregatePlaceholder, .none, optList fs, optList gs⟩)
  | .metric, t, v => ∃ o, v = .list [.obj (.metric o)] ∧ MetricMeans t o
  | .quotedMri, t, v | .unquotedMri, t, v | .quotedPublicName, t, v => ∃ o, v = .obj (.metric o) ∧ MetricMeans t o
  | .lenientMri, t, _ => LooseMri t
  | .unquotedPublicName, t, v => (∃ o, v = .obj (.metric o) ∧ MetricMeans t o) ∧ PublicText t
  | .filterExpr, t, v => ∃ c, v = .obj (.val c) ∧ FilterMeans .any t c
  | .filterTerm, t, v => ∃ c, v = .obj (.val c) ∧ FilterMeans .all t c
  | .filterFactor, t, v | .nestedExpr, t, v => ∃ c, v = .obj (.val c) ∧ FilterMeans .one t c
  | .conditionOp, t, v => t = ['!'] ∧ v = .obj (.val (.op .not))
  | .tagKey, t, v | .groupByName, t, v => v = .obj (.val (keyColumn t)) ∧ KeyText t
  | .tagValue, t, v | .suffixWildcard, t, v | .quotedSuffixWildcard, t, v | .unquotedStringFilter, t, v | .stringTuple, t, v =>
    ∃ kind x, ValueMeans t kind x ∧ v = .factor x (decide (kind = .pattern))
  | .quotedStringFilter, t, v => v = .factor (.str (unescapeQuotes (slice1m1 t))) false ∧ QuotesText t
  | .groupByNameTuple, t, v =>
    ∃ w u w' cs, t = '(' :: (w ++ (u ++ (w' ++ [')']))) ∧ Blanks w ∧ Blanks w' ∧ Listed KeyMeans u cs ∧ v = .list (cs.map fun c => .obj (.val c))
  | .groupBy, t, v => GroupMeans t (groupItems v) ∧ groupItems v ≠ []
  | .aggregateList, t, v => ∃ ps, Listed ParamMeans t ps ∧ v = .list (ps.map fun p => .obj (.val p))
  | .param, t, v => ∃ u w w' p, t = u ++ (w ++ ',' :: w') ∧ Blanks w ∧ Blanks w' ∧ ParamMeans u p ∧ v = .obj (.val p)
  | .paramExpression, t, v => ∃ p, ParamMeans t p ∧ v = .obj (.val p)
  | .variable_, _, _ => False
  | .space, t, _ => Blanks t
  | .openParen, t, _ => t = ['(']
  | .closeParen, t, _ => t = [')']
  | .openSquare, t, _ => t = ['[']
  | .closeSquare, t, _ => t = [']']
  | .openBrace, t, _ => t = ['{']
  | .closeBrace, t, _ => t = ['}']
  | .comma, t, _ => t = [',']
  | .colon, t, _ => t = [':']
  | .quote, t, _ => t = ['"']
  | .wildcard, t, _ => t = ['*']
  | .backtick, t, _ => t = ['`']
  | .and_, t, _ => t = c!"AND" ∨ t = c!"and"
  | .or_, t, _ => t = c!"OR" ∨ t = c!"or"
  | .jointOperator, t, _ => t = c!"," ∨ t = c!"AND" ∨ t = c!"and"

omit U in
theorem rm_rule {k : Rule} {t : Str} {v : V} (h : GTy RM (.rule k) t v) : RM k t v := gty_rule.1 h

/-! ### Lists and chains -/

omit U in
theorem blanks_append {w w' : Str} (h : Blanks w) (h' : Blanks w') : Blanks (w ++ w') := by
  intro c hc
  rcases List.mem_append.1 hc with hc | hc
  · exact h c hc
  · exact h' c hc

omit U S in
theorem toVals_obj : ∀ cs : List Val, V.toVals (cs.map fun c => .obj (.val c)) = cs
  | [] => rfl
  | c :: cs => by simp [V.toVals, V.toVal, toVals_obj cs]

omit U S in
theorem toMVals_obj : ∀ xs : List MVal, V.toMVals (xs.map .obj) = xs
  | [] => rfl
  | x :: xs => by simp [V.toMVals, V.toMVal, toMVals_obj xs]

omit U in
theorem listed_ne {α : Type} {P : Str → α → Prop} {t : Str} {xs : List α} (h : Listed P t xs) : xs ≠ [] := by
  cases h <;> simp

omit U in
theorem listed_reps {α : Type} {P : Str → α → Prop} {f : α → V} {p : Peg Rule} (hp : ∀ t v, GTy RM p t v → ∃ a, P t a ∧ v = f a) :
    ∀ {xs : List V} {r : Str}, GReps RM (.seq [ws, .rule .comma, ws, p]) r xs → ∀ {t : Str} {a : α}, P t a →
      ∃ as, fourths xs = .ok (as.map f) ∧ Listed P (t ++ r) (a :: as)
  | [], r, h, t, a, ha => by
    rw [greps_nil h, List.append_nil]
    exact ⟨[], rfl, .one ha⟩
  | x :: xs, _, h, t, a, ha => by
    cases h with
    | cons _ t1 r v _ h1 h2 =>
      obtain ⟨w, v1, c, v2, w', v3, u, v4, g1, g2, g3, g4, rfl, rfl⟩ := gty_seq4.1 h1
      obtain ⟨b, hb, rfl⟩ := hp _ _ g4
      obtain ⟨as, has, hl⟩ := listed_reps hp h2 hb
      have hc : c = [','] := rm_rule g2
      subst hc
      refine ⟨b :: as, by simp [fourths, has, ok_bind], ?_⟩
      have := Listed.cons ha (rm_rule g1 : Blanks w) (rm_rule g3 : Blanks w') hl
      simpa using this

omit U in
theorem args_reps : ∀ {xs : List V} {r : Str}, GReps RM (.seq [ws, .rule .comma, ws, .rule .expression]) r xs →
    ∃ as : List Arg, lasts xs = .ok (as.map fun a => .obj a.value) ∧ r = argsText as ∧ (∀ a ∈ as, Means .sum a.text a.value) ∧
      ∀ a ∈ as, Blanks a.gap ∧ Blanks a.before
  | [], r, h => ⟨[], rfl, greps_nil h, by simp, by simp⟩
  | x :: xs, _, h => by
    cases h with
    | cons _ t1 r v _ h1 h2 =>
      obtain ⟨w, v1, c, v2, w', v3, u, v4, g1, g2, g3, g4, rfl, rfl⟩ := gty_seq4.1 h1
      obtain ⟨m, rfl, hm⟩ := rm_rule g4
      obtain ⟨as, has, rfl, h3, h4⟩ := args_reps h2
      have hc : c = [','] := rm_rule g2
      subst hc
      refine ⟨⟨w, w', u, m⟩ :: as, by simp [lasts, has, ok_bind], by simp [argsText], ?_, ?_⟩
      · exact List.forall_mem_cons.2 ⟨hm, h3⟩
      · exact List.forall_mem_cons.2 ⟨⟨rm_rule g1, rm_rule g3⟩, h4⟩

omit U in
theorem joined_reps {k : Rule} {p : Peg Rule} {W : Str → Prop} {rk : FilterRank} (hp : ∀ t v, GTy RM p t v → W t)
    (hk : ∀ t v, RM k t v → ∃ c, v = .obj (.val c) ∧ FilterMeans rk t c) :
    ∀ {xs : List V} {r : Str}, GReps RM (.seq [ws, p, ws, .rule k]) r xs →
      ∃ js : List Joined, fourths xs = .ok (js.map fun j => .obj (.val j.value)) ∧ r = js.flatMap Joined.written ∧
        (∀ j ∈ js, FilterMeans rk j.text j.value) ∧ ∀ j ∈ js, Blanks j.before ∧ W j.joint ∧ Blanks j.after
  | [], r, h => ⟨[], rfl, greps_nil h, by simp, by simp⟩
  | x :: xs, _, h => by
    cases h with
    | cons _ t1 r v _ h1 h2 =>
      obtain ⟨w, v1, c, v2, w', v3, u, v4, g1, g2, g3, g4, rfl, rfl⟩ := gty_seq4.1 h1
      obtain ⟨m, rfl, hm⟩ := hk _ _ (rm_rule g4)
      obtain ⟨js, hjs, rfl, h3, h4⟩ := joined_reps hp hk h2
      refine ⟨⟨w, c, w', u, m⟩ :: js, by simp [fourths, hjs, ok_bind], by simp [Joined.written], ?_, ?_⟩
      · exact List.forall_mem_cons.2 ⟨hm, h3⟩
      · exact List.forall_mem_cons.2 ⟨⟨rm_rule g1, hp _ _ g2, rm_rule g3⟩, h4⟩

omit U in
theorem params_reps : ∀ {xs : List V} {r : Str}, GReps RM (.rule .param) r xs → ∀ {t : Str} {p : Val}, ParamMeans t p →
    ∃ ps : List Val, xs ++ [.obj (.val p)] = ps.map (fun p => .obj (.val p)) ∧ Listed ParamMeans (r ++ t) ps
  | [], r, h, t, p, hp => by
    rw [greps_nil h]
    exact ⟨[p], rfl, .one hp⟩
  | x :: xs, _, h, t, p, hp => by
    cases h with
    | cons _ t1 r v _ h1 h2 =>
      obtain ⟨u, w, w', q, rfl, hw, hw', hq, rfl⟩ := rm_rule h1
      obtain ⟨ps, hps, hl⟩ := params_reps h2 hp
      refine ⟨q :: ps, by simp [hps], ?_⟩
      have := Listed.cons hq hw hw' hl
      simpa using this

omit U in
theorem fold_reps {k o : Rule} {M N : Str → MVal → Prop} {n : Nat} (hk : ∀ t v, RM k t v → ∃ m, v = .obj m ∧ N t m)
    (ho : ∀ t v, RM o t v → ∃ op : Arith, op.level = n ∧ t = [op.char] ∧ v = .obj (.val (.str op.name)))
    (hs : ∀ {t w w' u : Str} {x y : MVal} {op : Arith}, M t x → Blanks w → op.level = n → Blanks w' → N u y →
      M (t ++ (w ++ op.char :: (w' ++ u))) (.formula (.str op.name) (.list [x, y]) .none .none .none)) :
    ∀ {xs : List V} {r : Str}, GReps RM (.seq [ws, .rule o, ws, .rule k]) r xs → ∀ {t : Str} {x : MVal}, M t x →
      ∀ {v : V}, foldTerms (.obj x) xs = .ok v → ∃ m, v = .obj m ∧ M (t ++ r) m
  | [], r, h, t, x, hx, v, hv => by
    cases hv
    rw [greps_nil h, List.append_nil]
    exact ⟨x, rfl, hx⟩
  | x :: xs, _, h, t, y, hx, v, hv => by
    cases h with
    | cons _ t1 r v _ h1 h2 =>
      obtain ⟨w, v1, c, v2, w', v3, u, v4, g1, g2, g3, g4, rfl, rfl⟩ := gty_seq4.1 h1
      obtain ⟨m, rfl, hm⟩ := hk _ _ (rm_rule g4)
      obtain ⟨op, hn, rfl, rfl⟩ := ho _ _ (rm_rule g2)
      have := fold_reps hk ho hs h2 (hs hx (rm_rule g1 : Blanks w) hn (rm_rule g3 : Blanks w') hm) hv
      simpa using this

omit U in
theorem terms_means {k o : Rule} {M N : Str → MVal → Prop} {n : Nat} (hk : ∀ t v, RM k t v → ∃ m, v = .obj m ∧ N t m)
    (ho : ∀ t v, RM o t v → ∃ op : Arith, op.level = n ∧ t = [op.char] ∧ v = .obj (.val (.str op.name)))
    (h0 : ∀ t x, N t x → M t x)
    (hs : ∀ {t w w' u : Str} {x y : MVal} {op : Arith}, M t x → Blanks w → op.level = n → Blanks w' → N u y →
      M (t ++ (w ++ op.char :: (w' ++ u))) (.formula (.str op.name) (.list [x, y]) .none .none .none))
    {t : Str} {vs : List V} {v : V} (h : GTy RM (.seq [.rule k, .star (.seq [ws, .rule o, ws, .rule k])]) t (.list vs))
    (hv : visitTerms vs = .ok v) : ∃ m, v = .obj m ∧ M t m := by
  obtain ⟨t1, v1, t2, v2, h1, h2, rfl, he⟩ := gty_seq2.1 h
  cases he
  obtain ⟨xs, g2, rfl⟩ := gty_star.1 h2
  obtain ⟨m, rfl, hm⟩ := hk _ _ (rm_rule h1)
  simp only [visitTerms] at hv
  split at hv
  · exact fold_reps hk ho hs g2 (h0 _ _ hm) hv
  · cases hv

/-! ### Regular expressions -/

omit U S in
theorem unescape_step {c : Char} {u : Str} (h : c = '\\' → u.head? ≠ some '"') : unescapeQuotes (c :: u) = c :: unescapeQuotes u := by
  rw [unescapeQuotes.eq_def]
  split
  · rename_i he; cases he; exact absurd rfl (h rfl)
  · rename_i he; cases he; rfl
  · rename_i he; cases he

omit U S in
theorem unescaped_inner {u : Str} (h : QuotedInner u) : Unescaped u (unescapeQuotes u) := by
  induction h with
  | nil => exact .nil
  | plain c u h1 h2 _ ih =>
    rw [unescape_step fun h => absurd h h2]
    exact .plain h1 h2 ih
  | escaped c u hc hu ih =>
    by_cases hq : c = '"'
    · subst hq
      exact .quote ih
    · rw [unescape_step (u := c :: u) fun _ he => hq (by simpa using he), unescape_step]
      · exact .other hq hc ih
      · rintro -
        cases hu with
        | nil => simp
        | plain d _ h1 => simpa using h1
        | escaped => simp

omit U S in
theorem quoted_means {t : Str} (h : QuotesText t) : QuotedMeans t (unescapeQuotes (slice1m1 t)) := by
  obtain ⟨u, rfl, hu⟩ := h
  have hs : slice1m1 ('"' :: (u ++ ['"'])) = u := by simp [slice1m1]
  rw [hs]
  exact ⟨u, rfl, unescaped_inner hu⟩

omit U S in
theorem hit_mriText {t : Str} (h : Hit unquotedMriRe t) : MriText t := by
  obtain ⟨a, b, c, d, rfl, ha, hb, hc, hd, h1, h2, h3, h4⟩ := hit_mri h
  simp only [Bool.not_eq_true', Bool.or_eq_false_iff, beq_eq_false_iff_ne] at h1 h2 h3 h4
  have hs : ∀ {x : Char}, isMriStop x = false → x ∉ mriStops := by
    intro x hx hm
    rw [isMriStop_iff.2 hm] at hx
    cases hx
  refine ⟨a, b, c, d, rfl, ha, hb, hc, hd, fun h => (h1 _ h).1 rfl, fun h => (h2 _ h).1 rfl, fun h => (h3 _ h).1 rfl, fun x hx => ?_⟩
  simp only [List.mem_append, List.mem_cons] at hx
  rcases hx with h | rfl | h | rfl | h | rfl | h
  · exact hs (h1 _ h).2
  · decide
  · exact hs (h2 _ h).2
  · decide
  · exact hs (h3 _ h).2
  · decide
  · exact hs (h4 _ h)

omit U in
theorem number_means {t : Str} {v : V} (h : GTy RM (mqlGrammar .number) t v) : ∃ f, NumText t f := by
  obtain ⟨t1, v1, t2, v2, h1, h2, rfl, rfl⟩ := gty_seq2.1 h
  obtain ⟨g1, rfl⟩ := gty_re.1 h1
  obtain ⟨hn, hd⟩ := hit_digits g1
  rcases gty_opt.1 h2 with ⟨rfl, rfl⟩ | ⟨x, g2, rfl⟩
  · rw [List.append_nil]
    exact ⟨_, t1, [], hn, hd, by simp, .inl ⟨rfl, rfl⟩, rfl⟩
  · obtain ⟨_, _, t3, _, h3, h4, rfl, rfl⟩ := gty_seq2.1 g2
    obtain ⟨rfl, rfl⟩ := gty_lit.1 h3
    obtain ⟨g4, rfl⟩ := gty_re.1 h4
    obtain ⟨hn', hd'⟩ := hit_digits g4
    exact ⟨_, t1, t3, hn, hd, hd', .inr ⟨hn', rfl⟩, rfl⟩

theorem column_means {t : Str} {v : V} (h : Hit keyRe t) (hv : visitColumn t = .ok v) : v = .obj (.val (keyColumn t)) ∧ KeyText t := by
  rcases column_outcome h with ⟨w, hw, c, rfl, hc⟩ | ⟨he, _⟩
  · rw [hw] at hv
    cases hv
    cases hc with
    | mk k hk =>
      simp only [visitColumn, map_eq_ok] at hw
      obtain ⟨a, ha, hae⟩ := hw
      cases hae
      obtain ⟨c, hc, _, hn, _⟩ := mkColumn_ok ha
      cases hc
      cases hn
      exact ⟨rfl, hk⟩
  · rw [he] at hv; cases hv

/-! ### Filters and columns are put in front of those that are there -/

/-- The filters and the columns are absent or lists. -/
def ListShaped : MVal → Prop
  | .ts t => OptList (fun _ => True) t.filters ∧ OptList (fun _ => True) t.groupby
  | .formula _ _ _ f g => OptList (fun _ => True) f ∧ OptList (fun _ => True) g
  | _ => True

omit U S in
theorem optList_shape (xs : List Val) : OptList (fun _ => True) (optList xs) := by
  cases xs with
  | nil => exact .none
  | cons x xs => exact .list _ fun _ _ => trivial

omit U S in
theorem prepend_shape {v : Val} (h : OptList (fun _ => True) v) (xs : List Val) : OptList (fun _ => True) (prepend xs v) := by
  cases h with
  | none =>
    cases xs with
    | nil => exact .none
    | cons x xs => exact .list _ fun _ _ => trivial
  | list ys => exact .list _ fun _ _ => trivial

omit U S in
theorem ListShaped.addFilters {x : MVal} (h : ListShaped x) (fs : List Val) : ListShaped (addFilters fs x) := by
  cases x with
  | ts t => exact ⟨prepend_shape h.1 _, h.2⟩
  | formula n p a f g => exact ⟨prepend_shape h.1 _, h.2⟩
  | _ => exact trivial

omit U S in
theorem ListShaped.addGroups {x : MVal} (h : ListShaped x) (gs : List Val) : ListShaped (addGroups gs x) := by
  cases x with
  | ts t => exact ⟨h.1, prepend_shape h.2 _⟩
  | formula n p a f g => exact ⟨h.1, prepend_shape h.2 _⟩
  | _ => exact trivial

omit U in
theorem means_shaped {r : Rank} {t : Str} {x : MVal} (h : Means r t x) : ListShaped x := by
  induction h with
  | aggregate => exact ⟨optList_shape _, optList_shape _⟩
  | curriedAggregate => exact ⟨optList_shape _, optList_shape _⟩
  | function => exact ⟨.none, .none⟩
  | curriedFunction => exact ⟨.none, .none⟩
  | seriesCall _ _ _ _ _ _ _ _ ih => exact ih
  | grouped _ _ ih => exact ih.addGroups _
  | paren _ _ _ _ ih => exact ih
  | metric => exact ⟨.none, .none⟩
  | number => exact trivial
  | string => exact trivial
  | filtered _ _ _ _ ih => exact (ih.addFilters _).addGroups _
  | plain _ ih => exact ih
  | @minus t x y h hy ih =>
    cases x with
    | val v => cases v <;> simp only [negateM, Option.some.injEq, reduceCtorEq] at hy; subst hy; exact trivial
    | ts t => simp only [negateM, Option.some.injEq] at hy; subst hy; exact ⟨.none, .none⟩
    | formula n p a f g => simp only [negateM, Option.some.injEq] at hy; subst hy; exact ⟨.none, .none⟩
    | _ => cases hy
  | factor _ ih => exact ih
  | times => exact ⟨.none, .none⟩
  | summand _ ih => exact ih
  | plus => exact ⟨.none, .none⟩

omit U S in
theorem currentItems_prepend {v : Val} {items xs : List Val} (h : OptList (fun _ => True) v) (hi : currentItems v = .ok items) (hx : xs ≠ []) :
    .list (xs ++ items) = prepend xs v := by
  cases h with
  | none =>
    cases hi
    cases xs with
    | nil => exact absurd rfl hx
    | cons x xs => simp [prepend]
  | list ys =>
    cases ys with
    | nil => cases hi; rfl
    | cons y ys => cases hi; rfl

omit S U in
theorem setFilters_value {m m' : MVal} {v : Val} (h : m.setFilters v = .ok m') :
    (∃ t, m = .ts t ∧ m' = .ts { t with filters := v }) ∨ ∃ n p a f g, m = .formula n p a f g ∧ m' = .formula n p a v g := by
  cases m with
  | ts t =>
    obtain ⟨t', h', rfl⟩ := map_eq_ok.1 h
    simp only [TimeseriesObj.setFilters, bind_eq_ok] at h'
    obtain ⟨_, _, h'⟩ := h'
    obtain ⟨m, hm, rfl, _⟩ := (C32_timeseries_iff _ _ _ _ _ _).1 h'
    cases hm
    exact .inl ⟨t, rfl, rfl⟩
  | formula n p a f g =>
    simp only [MVal.setFilters, setFormulaFilters, bind_eq_ok] at h
    obtain ⟨_, _, h⟩ := h
    cases h
    exact .inr ⟨_, _, _, _, _, rfl, rfl⟩
  | _ => cases h

omit S U in
theorem setGroupby_value {m m' : MVal} {v : Val} (h : m.setGroupby v = .ok m') :
    (∃ t, m = .ts t ∧ m' = .ts { t with groupby := v }) ∨ ∃ n p a f g, m = .formula n p a f g ∧ m' = .formula n p a f v := by
  cases m with
  | ts t =>
    obtain ⟨t', h', rfl⟩ := map_eq_ok.1 h
    simp only [TimeseriesObj.setGroupby, bind_eq_ok] at h'
    obtain ⟨_, _, h'⟩ := h'
    obtain ⟨m, hm, rfl, _⟩ := (C32_timeseries_iff _ _ _ _ _ _).1 h'
    cases hm
    exact .inl ⟨t, rfl, rfl⟩
  | formula n p a f g =>
    simp only [MVal.setGroupby, setFormulaGroupby, bind_eq_ok] at h
    obtain ⟨_, _, h⟩ := h
    cases h
    exact .inr ⟨_, _, _, _, _, rfl, rfl⟩
  | _ => cases h

/-- The result for braces, and the filters in them. -/
def PackedM (p : V) (fs : List Val) : Prop := (p = .list [] ∧ fs = []) ∨ ∃ a d x, p = .list [.list [a, .obj (.val x), d]] ∧ fs = [x]

/-- The result for an optional grouping, and the columns in it. -/
def GroupM (p : V) (gs : List Val) : Prop := (p = .list [] ∧ gs = []) ∨ ∃ g, p = .list [g] ∧ groupItems g = gs ∧ gs ≠ []

omit S U in
theorem addFilters_none {x : MVal} (h : ListShaped x) : addFilters [] x = x := by
  cases x with
  | ts t => obtain ⟨m, a, p, f, g⟩ := t; simp only [addFilters]; cases h.1 <;> rfl
  | formula n p a f g => simp only [addFilters]; cases h.1 <;> rfl
  | _ => rfl

omit S U in
theorem addGroups_none {x : MVal} (h : ListShaped x) : addGroups [] x = x := by
  cases x with
  | ts t => obtain ⟨m, a, p, f, g⟩ := t; simp only [addGroups]; cases h.2 <;> rfl
  | formula n p a f g => simp only [addGroups]; cases h.2 <;> rfl
  | _ => rfl

omit S U in
theorem addFilterIf_value {p : V} {fs : List Val} {m m' : MVal} (hp : PackedM p fs) (hs : ListShaped m) (h : addFilterIf p m = .ok m') :
    m' = addFilters fs m := by
  rcases hp with ⟨rfl, rfl⟩ | ⟨a, d, x, rfl, rfl⟩
  · cases h; exact (addFilters_none hs).symm
  · simp only [addFilterIf, V.truthy, List.isEmpty_cons, Bool.not_false, if_true, addFilter, bind_eq_ok] at h
    obtain ⟨cur, hc, items, hi, h⟩ := h
    rcases setFilters_value h with ⟨t, rfl, rfl⟩ | ⟨n, p, a, f, g, rfl, rfl⟩
    · cases hc
      have := currentItems_prepend (xs := [x]) hs.1 hi (by simp)
      simp only [addFilters, ← this]
      rfl
    · cases hc
      have := currentItems_prepend (xs := [x]) hs.1 hi (by simp)
      simp only [addFilters, ← this]
      rfl

omit S U in
theorem addGroupbyIf_value {p : V} {gs : List Val} {m m' : MVal} (hp : GroupM p gs) (hs : ListShaped m) (h : addGroupbyIf p m = .ok m') :
    m' = addGroups gs m := by
  rcases hp with ⟨rfl, rfl⟩ | ⟨g, rfl, rfl, hne⟩
  · cases h; exact (addGroups_none hs).symm
  · simp only [addGroupbyIf, V.truthy, List.isEmpty_cons, Bool.not_false, if_true, addGroupby, V.item0, ok_bind, bind_eq_ok] at h
    obtain ⟨cur, hc, items, hi, h⟩ := h
    rcases setGroupby_value h with ⟨t, rfl, rfl⟩ | ⟨n, p, a, f, g, rfl, rfl⟩
    · cases hc
      have := currentItems_prepend hs.2 hi hne
      simp only [addGroups, ← this]
    · cases hc
      have := currentItems_prepend hs.2 hi hne
      simp only [addGroups, ← this]

omit U in
theorem block_means {t : Str} {v p : V}
    (h : GTy RM (.opt (.seq [.rule .openBrace, .opt (.seq [ws, .rule .filterExpr, ws]), .rule .closeBrace])) t v)
    (hp : packedFilters v = .ok p) : ∃ fs, BlockMeans t fs ∧ PackedM p fs := by
  rcases gty_opt.1 h with ⟨rfl, rfl⟩ | ⟨x, h1, rfl⟩
  · cases hp; exact ⟨[], .none, .inl ⟨rfl, rfl⟩⟩
  · obtain ⟨t1, a, t2, y, t3, b, g1, h2, h3, rfl, rfl⟩ := gty_seq3.1 h1
    have e1 : t1 = ['{'] := rm_rule g1
    have e3 : t3 = ['}'] := rm_rule h3
    subst e1 e3
    rcases gty_opt.1 h2 with ⟨rfl, rfl⟩ | ⟨z, g2, rfl⟩
    · cases hp; exact ⟨[], .empty, .inl ⟨rfl, rfl⟩⟩
    · obtain ⟨w, c, u, x, w', d, hw, h4, hw', rfl, rfl⟩ := gty_seq3.1 g2
      cases hp
      obtain ⟨v, rfl, hv⟩ := rm_rule h4
      refine ⟨[v], ?_, .inr ⟨_, _, _, rfl, rfl⟩⟩
      have := BlockMeans.some (rm_rule hw : Blanks w) hv (rm_rule hw' : Blanks w')
      simpa using this

omit U in
theorem group_means {t : Str} {v : V} (h : GTy RM (.opt (.rule .groupBy)) t v) : ∃ gs, GroupMeans t gs ∧ GroupM v gs := by
  rcases gty_opt.1 h with ⟨rfl, rfl⟩ | ⟨x, h', rfl⟩
  · exact ⟨[], .none, .inl ⟨rfl, rfl⟩⟩
  · obtain ⟨h1, h2⟩ := rm_rule h'
    exact ⟨_, h1, .inr ⟨x, rfl, rfl, h2⟩⟩

omit U in
theorem params_means {t1 t2 t3 t4 t5 : Str} {v1 v2 v3 v4 v5 p : V} (h1 : GTy RM (.rule .openParen) t1 v1) (h2 : GTy RM ws t2 v2)
    (h3 : GTy RM (.opt (.rule .aggregateList)) t3 v3) (h4 : GTy RM ws t4 v4) (h5 : GTy RM (.rule .closeParen) t5 v5)
    (hp : aggregateParamsOf v3 = .ok p) : ∃ ps, ParamsMeans (t1 ++ (t2 ++ (t3 ++ (t4 ++ t5)))) ps ∧ p.toVal = .list ps := by
  have e1 : t1 = ['('] := rm_rule h1
  have e5 : t5 = [')'] := rm_rule h5
  subst e1 e5
  rcases gty_opt.1 h3 with ⟨rfl, rfl⟩ | ⟨x, h', rfl⟩
  · cases hp
    have := ParamsMeans.none (blanks_append (rm_rule h2 : Blanks t2) (rm_rule h4 : Blanks t4))
    exact ⟨[], by simpa using this, rfl⟩
  · obtain ⟨ps, hl, rfl⟩ := rm_rule h'
    cases hp
    have := ParamsMeans.some (rm_rule h2 : Blanks t2) hl (rm_rule h4 : Blanks t4)
    exact ⟨ps, by simpa using this, by simp [V.toVal, toVals_obj]⟩

omit S U in
theorem optList_ne {xs : List Val} (h : xs ≠ []) : optList xs = .list xs := by
  cases xs with
  | nil => exact absurd rfl h
  | cons => rfl

omit S U in
theorem not_placeholder {t : TimeseriesObj} (h : t.isPlaceholder = true) : ¬ Aggregated (.ts t) := by
  simp only [TimeseriesObj.isPlaceholder] at h
  split at h
  · rename_i s hs
    simp only [beq_iff_eq] at h
    subst h
    intro ha
    exact ha hs
  · cases h

omit S U in
theorem setAggregate_value {t t' : TimeseriesObj} {a p : Val} (h : t.setAggregate a p = .ok t') :
    t' = { t with aggregate := a, aggregateParams := p } := by
  simp only [TimeseriesObj.setAggregate, bind_eq_ok] at h
  obtain ⟨_, _, _, _, h⟩ := h
  obtain ⟨m, hm, rfl, _⟩ := (C32_timeseries_iff _ _ _ _ _ _).1 h
  cases hm
  rfl

omit S U in
theorem placeholder_value {m : MetricObj} {t : TimeseriesObj} (h : placeholderSeries m = .ok t) :
    t = ⟨m, .str aggregatePlaceholder, .none, .none, .none⟩ := by
  obtain ⟨_, hm, rfl, _⟩ := (C32_timeseries_iff _ _ _ _ _ _).1 h
  cases hm
  rfl

omit S U in
theorem isQuery_iff {m : MVal} : m.isQuery = true ↔ IsQuery m := by
  cases m <;> simp [MVal.isQuery, IsQuery]

omit S U in
theorem asQuery_value {v : V} {m : MVal} (h : v.asQuery = .ok m) : v = .obj m ∧ IsQuery m := by
  cases v with
  | obj x =>
    simp only [V.asQuery] at h
    split at h
    · cases h; exact ⟨rfl, isQuery_iff.1 ‹_›⟩
    · cases h
  | _ => cases h

omit S U in
theorem mri_value {t : Str} {v : V} (h : visitMri t = .ok v) : v = .obj (.metric ⟨.none, .str t, .none⟩) := by
  obtain ⟨m, hm, rfl⟩ := map_eq_ok.1 h
  rw [((C32_metric_iff _ _ _ _).1 hm).1]

omit S U in
theorem publicName_value {t : Str} {v : V} (h : visitPublicName t = .ok v) : v = .obj (.metric ⟨.str t, .none, .none⟩) := by
  obtain ⟨m, hm, rfl⟩ := map_eq_ok.1 h
  rw [((C32_metric_iff _ _ _ _).1 hm).1]

/-! ### The methods -/

omit U in
theorem filters_means {k : Rule} {p : Peg Rule} {W : Str → Prop} {rk : FilterRank} {o : BooleanOp} (hp : ∀ t v, GTy RM p t v → W t)
    (hk : ∀ t v, RM k t v → ∃ c, v = .obj (.val c) ∧ FilterMeans rk t c) {t : Str} {vs : List V} {v : V}
    (h : GTy RM (.seq [.rule k, .star (.seq [ws, p, ws, .rule k])]) t (.list vs)) (hv : visitFilters o vs = .ok v) :
    ∃ (t0 : Str) (c : Val) (js : List Joined), t = t0 ++ js.flatMap Joined.written ∧ FilterMeans rk t0 c ∧
      (∀ j ∈ js, FilterMeans rk j.text j.value) ∧ (∀ j ∈ js, Blanks j.before ∧ W j.joint ∧ Blanks j.after) ∧
      v = .obj (.val ((match o with | .and => conj | .or => disj) (c :: js.map Joined.value))) := by
  obtain ⟨t1, v1, t2, v2, h1, h2, rfl, he⟩ := gty_seq2.1 h
  cases he
  obtain ⟨xs, g2, rfl⟩ := gty_star.1 h2
  obtain ⟨c, rfl, hc⟩ := hk _ _ (rm_rule h1)
  obtain ⟨js, hjs, rfl, h3, h4⟩ := joined_reps hp hk g2
  refine ⟨t1, c, js, rfl, hc, h3, h4, ?_⟩
  simp only [visitFilters, V.items, ok_bind, hjs] at hv
  cases js with
  | nil => cases hv; cases o <;> rfl
  | cons j js =>
    have hx : V.toVals (.obj (.val c) :: (j :: js).map fun j => .obj (.val j.value)) = c :: (j :: js).map Joined.value := by
      have := toVals_obj (c :: (j :: js).map Joined.value)
      simpa [Function.comp_def] using this
    simp only [List.map_cons] at hv hx
    cases o with
    | and =>
      obtain ⟨y, hy, rfl⟩ := map_eq_ok.1 hv
      obtain ⟨k, ys, hs, _, _, rfl⟩ := (C11_boolean_accepts_iff .none _ _).2.1.1 hy
      cases hs
      rw [hx]
      rfl
    | or =>
      obtain ⟨y, hy, rfl⟩ := map_eq_ok.1 hv
      obtain ⟨k, ys, hs, _, _, rfl⟩ := (C11_boolean_accepts_iff .none _ _).2.2.1 hy
      cases hs
      rw [hx]
      rfl

theorem factor_means {t : Str} {vs : List V} {v : V} (h : GTy RM (mqlGrammar .filterFactor) t (.list vs))
    (hv : visitFilterFactor vs = .ok v) : RM .filterFactor t v := by
  obtain ⟨x, ⟨p, hp, h⟩, he⟩ := gty_alt h
  cases he
  simp only [List.mem_cons, List.not_mem_nil, or_false] at hp
  rcases hp with rfl | rfl
  · obtain ⟨t1, v1, k, v2, w, v3, t4, v4, w', v5, u, v6, h1, h2, h3, h4, h5, h6, rfl, rfl⟩ := gty_seq6.1 h
    obtain ⟨y, ⟨p, hp, hy⟩, rfl⟩ := gty_alt h2
    have e4 : t4 = [':'] := rm_rule h4
    subst e4
    simp only [List.mem_cons, List.not_mem_nil, or_false] at hp
    rcases hp with rfl | rfl
    · exact (rm_rule hy).elim
    · obtain ⟨rfl, hk⟩ := rm_rule hy
      obtain ⟨kind, x, hx, rfl⟩ := rm_rule h6
      have hn : ∃ neg : Bool, t1 = (if neg then ['!'] else []) ∧ negated? v1 = some neg := by
        rcases gty_opt.1 h1 with ⟨rfl, rfl⟩ | ⟨z, hz, rfl⟩
        · exact ⟨false, rfl, rfl⟩
        · obtain ⟨rfl, rfl⟩ := rm_rule hz
          exact ⟨true, rfl, rfl⟩
      obtain ⟨neg, rfl, hn⟩ := hn
      simp only [visitFilterFactor, V.item0, ok_bind, bind_eq_ok, hn, V.toVal] at hv
      obtain ⟨c, hc, hv⟩ := hv
      cases hv
      obtain ⟨o, ho, _, _, _, rfl⟩ := (C11_condition_accepts_iff _ _ _ _).1 hc
      cases ho
      have ho : filterOp (some neg) (decide (kind = .pattern)) x = compareOp neg kind := by
        cases hx <;> cases neg <;> rfl
      rw [ho]
      refine ⟨_, rfl, ?_⟩
      have := FilterMeans.compare (neg := neg) hk (rm_rule h3 : Blanks w) (rm_rule h5 : Blanks w') hx
      simpa using this
  · obtain ⟨c, rfl, hc⟩ := rm_rule h
    simp only [visitFilterFactor] at hv
    split at hv
    · cases hv; exact ⟨c, rfl, hc⟩
    · cases hv

omit U in
theorem strings_means {t : Str} {v : V} (h : GTy RM (.alt [.rule .quotedString, .rule .unquotedString]) t v) :
    ∃ s, ItemMeans t s ∧ v = .list [.obj (.val (.str s))] := by
  obtain ⟨x, ⟨p, hp, h⟩, rfl⟩ := gty_alt h
  simp only [List.mem_cons, List.not_mem_nil, or_false] at hp
  rcases hp with rfl | rfl
  · obtain ⟨s, rfl, hs⟩ := rm_rule h
    exact ⟨s, .quoted hs, rfl⟩
  · obtain ⟨rfl, hs⟩ := rm_rule h
    exact ⟨t, .bare hs, rfl⟩

omit U S in
theorem firsts_strings : ∀ ss : List Str, firsts (ss.map fun s => .list [.obj (.val (.str s))]) = .ok (ss.map fun s => .obj (.val (.str s)))
  | [] => rfl
  | s :: ss => by simp [firsts, V.item0, firsts_strings ss, ok_bind]

omit U S in
theorem toVals_strings (ss : List Str) : V.toVals (ss.map fun s => .obj (.val (.str s))) = ss.map .str := by
  have := toVals_obj (ss.map .str)
  simpa [Function.comp_def] using this

omit U in
theorem stringTuple_means {t : Str} {vs : List V} {v : V} (h : GTy RM (mqlGrammar .stringTuple) t (.list vs))
    (hv : visitStringTuple vs = .ok v) : RM .stringTuple t v := by
  obtain ⟨t1, v1, w, v2, t3, v3, t4, v4, w', v5, t6, v6, h1, h2, h3, h4, h5, h6, rfl, he⟩ := gty_seq6.1 h
  cases he
  obtain ⟨xs, g4, rfl⟩ := gty_star.1 h4
  have e1 : t1 = ['['] := rm_rule h1
  have e6 : t6 = [']'] := rm_rule h6
  subst e1 e6
  obtain ⟨s, hs, rfl⟩ := strings_means h3
  obtain ⟨ss, hf, hl⟩ := listed_reps (P := ItemMeans) (fun _ _ => strings_means) g4 hs
  have hfs := firsts_strings (s :: ss)
  simp only [List.map_cons] at hfs
  simp only [visitStringTuple, V.items, ok_bind, hf, hfs, Except.ok.injEq] at hv
  subst hv
  have hts := toVals_strings (s :: ss)
  simp only [List.map_cons] at hts
  refine ⟨.list, _, ?_, by rw [hts]; rfl⟩
  have := ValueMeans.list (rm_rule h2 : Blanks w) hl (rm_rule h5 : Blanks w')
  simpa using this

omit U in
theorem groupTuple_means {t : Str} {vs : List V} {v : V} (h : GTy RM (mqlGrammar .groupByNameTuple) t (.list vs))
    (hv : visitGroupTuple vs = .ok v) : RM .groupByNameTuple t v := by
  obtain ⟨t1, v1, w, v2, t3, v3, t4, v4, w', v5, t6, v6, h1, h2, h3, h4, h5, h6, rfl, he⟩ := gty_seq6.1 h
  cases he
  obtain ⟨xs, g4, rfl⟩ := gty_star.1 h4
  have e1 : t1 = ['('] := rm_rule h1
  have e6 : t6 = [')'] := rm_rule h6
  subst e1 e6
  obtain ⟨rfl, hk⟩ := rm_rule h3
  obtain ⟨cs, hf, hl⟩ := listed_reps (P := KeyMeans) (f := fun c => .obj (.val c)) (fun t v h => by
    obtain ⟨rfl, hk⟩ := rm_rule h
    exact ⟨_, .mk hk, rfl⟩) g4 (.mk hk)
  simp only [visitGroupTuple, V.items, ok_bind, hf, Except.ok.injEq] at hv
  subst hv
  exact ⟨w, t3 ++ t4, w', _, by simp, rm_rule h2, rm_rule h5, hl, rfl⟩

omit U in
theorem groupBy_means {t : Str} {vs : List V} {v : V} (h : GTy RM (mqlGrammar .groupBy) t (.list vs))
    (hv : visitGroupBy vs = .ok v) : RM .groupBy t v := by
  obtain ⟨w, v1, t2, v2, w', v3, t4, v4, h1, h2, h3, h4, rfl, he⟩ := gty_seq4.1 h
  cases he
  obtain ⟨rfl, rfl⟩ := gty_lit.1 h2
  obtain ⟨x, ⟨p, hp, hx⟩, rfl⟩ := gty_alt h4
  simp only [visitGroupBy, List.getLast?_cons_cons, List.getLast?_singleton, V.item0, Except.ok.injEq] at hv
  subst hv
  simp only [List.mem_cons, List.not_mem_nil, or_false] at hp
  rcases hp with rfl | rfl
  · obtain ⟨rfl, hk⟩ := rm_rule hx
    exact ⟨.one (rm_rule h1) (rm_rule h3) (.mk hk), by simp [groupItems]⟩
  · obtain ⟨w1, u, w2, cs, rfl, hw1, hw2, hl, rfl⟩ := rm_rule hx
    have hg : groupItems (.list (cs.map fun c => .obj (.val c))) = cs := toVals_obj cs
    simp only [RM, hg]
    exact ⟨.many (rm_rule h1) (rm_rule h3) hw1 hl hw2, listed_ne hl⟩

omit U in
theorem innerFilter_means {t : Str} {vs : List V} {v : V} (h : GTy RM (mqlGrammar .innerFilter) t (.list vs))
    (hv : visitInnerFilter vs = .ok v) : RM .innerFilter t v := by
  obtain ⟨m, v1, b, v2, g, v3, h1, h2, h3, rfl, he⟩ := gty_seq3.1 h
  cases he
  obtain ⟨o, rfl, ho⟩ := rm_rule h1
  simp only [visitInnerFilter, V.metric0, V.item0, ok_bind, bind_eq_ok] at hv
  obtain ⟨p, hp, ts, hts, ts1, h4, ts2, h5, hv⟩ := hv
  cases hv
  obtain ⟨fs, hb, hpk⟩ := block_means h2 hp
  obtain ⟨gs, hg, hgm⟩ := group_means h3
  refine ⟨o, fs, gs, ⟨ho, hb, hg⟩, ?_⟩
  have e0 := placeholder_value hts
  subst e0
  have e1 : ts1 = ⟨o, .str aggregatePlaceholder, .none, optList fs, .none⟩ := by
    rcases hpk with ⟨rfl, rfl⟩ | ⟨a, d, x, rfl, rfl⟩
    · cases h4; rfl
    · simp only [innerFilters, V.truthy, List.isEmpty_cons, Bool.not_false, if_true] at h4
      have : (MVal.ts ⟨o, .str aggregatePlaceholder, .none, .none, .none⟩).setFilters (.list [x]) = .ok (.ts ts1) := map_eq_ok.2 ⟨_, h4, rfl⟩
      rcases setFilters_value this with ⟨t, ht, ht'⟩ | ⟨_, _, _, _, _, h, _⟩
      · cases ht; cases ht'; rfl
      · cases h
  subst e1
  have e2 : ts2 = ⟨o, .str aggregatePlaceholder, .none, optList fs, optList gs⟩ := by
    rcases hgm with ⟨rfl, rfl⟩ | ⟨g, rfl, rfl, hne⟩
    · cases h5; rfl
    · simp only [innerGroupby, V.truthy, List.isEmpty_cons, Bool.not_false, if_true, V.item0, ok_bind] at h5
      have : (MVal.ts ⟨o, .str aggregatePlaceholder, .none, optList fs, .none⟩).setGroupby (.list (groupItems g)) = .ok (.ts ts2) :=
        map_eq_ok.2 ⟨_, h5, rfl⟩
      rw [optList_ne hne]
      rcases setGroupby_value this with ⟨t, ht, ht'⟩ | ⟨_, _, _, _, _, h, _⟩
      · cases ht; cases ht'; rfl
      · cases h
  rw [e2]

omit U in
theorem means_scalar {r : Rank} {t : Str} {x : MVal} (h : Means r t x) : ∀ v, x = .val v → (∃ f, v = .float f) ∨ ∃ s, v = .str s := by
  induction h with
  | number => rintro _ ⟨⟩; exact .inl ⟨_, rfl⟩
  | string => rintro _ ⟨⟩; exact .inr ⟨_, rfl⟩
  | @grouped t g x gs _ _ ih =>
    intro v hv
    refine ih v ?_
    cases x <;> simp_all [addGroups]
  | @filtered t b g x fs gs _ _ _ _ ih =>
    intro v hv
    refine ih v ?_
    cases x <;> simp_all [addGroups, addFilters]
  | paren _ _ _ _ ih => exact ih
  | plain _ ih => exact ih
  | factor _ ih => exact ih
  | summand _ ih => exact ih
  | @minus t x y h hy ih =>
    rintro v rfl
    cases x with
    | val w => cases w <;> simp only [negateM, Option.some.injEq, reduceCtorEq, MVal.val.injEq] at hy; subst hy; exact .inl ⟨_, rfl⟩
    | ts t => simp [negateM] at hy
    | formula n p a f g => simp [negateM] at hy
    | _ => cases hy
  | _ => rintro _ ⟨⟩

omit U in
theorem unary_means {t : Str} {vs : List V} {v : V} (h : GTy RM (mqlGrammar .unary) t (.list vs)) (hv : visitUnary vs = .ok v) :
    RM .unary t v := by
  obtain ⟨t1, v1, t2, v2, h1, h2, rfl, he⟩ := gty_seq2.1 h
  cases he
  obtain ⟨x, rfl, hx⟩ := rm_rule h2
  rcases gty_opt.1 h1 with ⟨rfl, rfl⟩ | ⟨y, h', rfl⟩
  · cases hv
    exact ⟨x, rfl, .plain hx⟩
  · obtain ⟨rfl, rfl⟩ := rm_rule h'
    simp only [visitUnary, V.truthy, List.isEmpty_cons, Bool.not_false, if_true, V.item0] at hv
    have key : ∃ y, v = .obj y ∧ negateM x = some y := by
      cases x with
      | val w =>
        rcases means_scalar hx _ rfl with ⟨f, rfl⟩ | ⟨s, rfl⟩
        · cases hv; exact ⟨_, rfl, rfl⟩
        · cases hv
      | ts t => cases hv; exact ⟨_, rfl, rfl⟩
      | formula n p a f g => cases hv; exact ⟨_, rfl, rfl⟩
      | _ => cases hv
    obtain ⟨y, rfl, hy⟩ := key
    exact ⟨y, rfl, .minus hx hy⟩

omit U in
theorem first_failed {q p : Peg Rule} {ps : List (Peg Rule)} {t : Str} (h : Tried (q :: ps) p t) (hn : p ≠ q) : ∃ r, Fails q (t ++ r) := by
  obtain ⟨pre, post, r, hps, hpre⟩ := h
  cases pre with
  | nil =>
    simp only [List.nil_append, List.cons.injEq] at hps
    exact absurd hps.1.symm hn
  | cons a pre =>
    simp only [List.cons_append, List.cons.injEq] at hps
    obtain ⟨rfl, _⟩ := hps
    exact ⟨r, hpre _ (.head _)⟩

theorem coefficient_means {t : Str} {vs : List V} {v : V} (h : GTy RM (mqlGrammar .coefficient) t (.list vs)) (hv : visitFirst vs = .ok v) :
    RM .coefficient t v := by
  obtain ⟨x, ⟨p, hp, h⟩, he⟩ := gty_alt_tried h
  cases he
  cases hv
  have hp' := hp.mem
  simp only [List.mem_cons, List.not_mem_nil, or_false] at hp'
  rcases hp' with rfl | rfl | rfl
  · obtain ⟨f, rfl, hf⟩ := rm_rule h
    exact ⟨_, rfl, .number hf⟩
  · obtain ⟨s, rfl, hs⟩ := rm_rule h
    exact ⟨_, rfl, .string hs⟩
  · obtain ⟨m, rfl, hm⟩ := rm_rule h
    obtain ⟨r, hf⟩ := first_failed hp (by simp)
    exact ⟨m, rfl, hm (noDigit_append (number_failed hf))⟩

omit U in
theorem filter_means {t : Str} {vs : List V} {v : V} (h : GTy RM (mqlGrammar .filter) t (.list vs)) (hv : visitFilter vs = .ok v) :
    RM .filter t v := by
  obtain ⟨u, v1, b, v2, g, v3, h1, h2, h3, rfl, he⟩ := gty_seq3.1 h
  cases he
  obtain ⟨x, rfl, hx⟩ := rm_rule h1
  simp only [visitFilter, bind_eq_ok] at hv
  obtain ⟨p, hp, m, hm, m1, h4, m2, h5, hv⟩ := hv
  cases hv
  obtain ⟨he, _⟩ := asQuery_value hm
  cases he
  obtain ⟨fs, hb, hpk⟩ := block_means h2 hp
  obtain ⟨gs, hg, hgm⟩ := group_means h3
  have hs := means_shaped hx
  have e1 := addFilterIf_value hpk hs h4
  subst e1
  have e2 := addGroupbyIf_value hgm (hs.addFilters _) h5
  subst e2
  exact ⟨_, rfl, fun hd => .filtered hx (noDigit_append hd) hb hg⟩

omit U in
theorem function_means {t : Str} {vs : List V} {v : V} (h : GTy RM (mqlGrammar .function) t (.list vs)) (hv : visitFunction vs = .ok v) :
    RM .function t v := by
  obtain ⟨u, v1, g, v2, h1, h2, rfl, he⟩ := gty_seq2.1 h
  cases he
  obtain ⟨x, ⟨p, hp, hx⟩, rfl⟩ := gty_alt h1
  have gx : ∃ m, x = .obj m ∧ Means .call u m := by
    simp only [List.mem_cons, List.not_mem_nil, or_false] at hp
    rcases hp with rfl | rfl | rfl | rfl <;> exact rm_rule hx
  obtain ⟨x, rfl, gx⟩ := gx
  simp only [visitFunction, V.item0, ok_bind, bind_eq_ok] at hv
  obtain ⟨m, hm, m1, h4, hv⟩ := hv
  cases hv
  obtain ⟨he, _⟩ := asQuery_value hm
  cases he
  obtain ⟨gs, hg, hgm⟩ := group_means h2
  have e2 := addGroupbyIf_value hgm (means_shaped gx) h4
  subst e2
  exact ⟨_, rfl, .grouped gx hg⟩

omit U in
theorem target_means {t : Str} {vs : List V} {v : V} (h : GTy RM (mqlGrammar .target) t (.list vs)) (hv : visitTarget vs = .ok v) :
    RM .target t v := by
  obtain ⟨x, ⟨p, hp, h⟩, he⟩ := gty_alt h
  cases he
  have key : ∀ {m : MVal}, (∀ o, m ≠ .metric o) → Means .target t m → visitTarget [.obj m] = .ok v → RM .target t v := by
    intro m hn hm hv
    have hv : (V.obj m).asQuery.map .obj = .ok v := by
      cases m with
      | metric o => exact absurd rfl (hn o)
      | _ => exact hv
    obtain ⟨m', hq, rfl⟩ := map_eq_ok.1 hv
    obtain ⟨he, _⟩ := asQuery_value hq
    cases he
    exact ⟨_, rfl, hm⟩
  have nm : ∀ {m : MVal}, visitTarget [.obj m] = .ok v → Means .target t m → ∀ o, m ≠ .metric o := by
    rintro m - hm o rfl
    generalize hr : Rank.target = r at hm
    generalize hx : MVal.metric o = x at hm
    induction hm with
    | @grouped t g x gs h hg ih =>
      cases x with
      | metric => cases h
      | _ => simp [addGroups] at hx
    | paren _ _ hq => subst hx; exact hq
    | metric => cases hx
    | _ => cases hr
  simp only [List.mem_cons, List.not_mem_nil, or_false] at hp
  rcases hp with rfl | rfl | rfl | rfl
  · exact (rm_rule h).elim
  · obtain ⟨m, rfl, hm⟩ := rm_rule h
    exact key (nm hv hm) hm hv
  · obtain ⟨m, rfl, hm⟩ := rm_rule h
    exact key (nm hv hm) hm hv
  · obtain ⟨o, rfl, ho⟩ := rm_rule h
    simp only [visitTarget, unwrapTarget, V.item0, ok_bind, targetQuery] at hv
    obtain ⟨ts, hts, rfl⟩ := map_eq_ok.1 hv
    rw [placeholder_value hts]
    exact ⟨_, rfl, .metric ho⟩

omit U in
theorem nested_means {t : Str} {vs : List V} {v : V} (h : GTy RM (mqlGrammar .nestedExpression) t (.list vs))
    (hv : visitNestedExpression vs = .ok v) : RM .nestedExpression t v := by
  obtain ⟨t1, v1, w, v2, u, v3, w', v4, t5, v5, h1, h2, h3, h4, h5, rfl, he⟩ := gty_seq5.1 h
  cases he
  have e1 : t1 = ['('] := rm_rule h1
  have e5 : t5 = [')'] := rm_rule h5
  subst e1 e5
  obtain ⟨m, rfl, hm⟩ := rm_rule h3
  obtain ⟨m', hq, rfl⟩ := map_eq_ok.1 hv
  obtain ⟨he, hq⟩ := asQuery_value hq
  cases he
  have := Means.paren (rm_rule h2 : Blanks w) hm hq (rm_rule h4 : Blanks w')
  exact ⟨_, rfl, by simpa using this⟩

omit U in
theorem aggregate_means {t : Str} {vs : List V} {v : V} (h : GTy RM (mqlGrammar .aggregate) t (.list vs)) (hv : visitAggregate vs = .ok v) :
    RM .aggregate t v := by
  obtain ⟨n, v1, t2, v2, h1, h2, rfl, he⟩ := gty_seq2.1 h
  cases he
  obtain ⟨u1, w1, w, w2, i, w3, w', w4, u5, w5, g1, g2, g3, g4, g5, rfl, rfl⟩ := gty_seq5.1 h2
  have e1 : u1 = ['('] := rm_rule g1
  have e5 : u5 = [')'] := rm_rule g5
  subst e1 e5
  obtain ⟨rfl, hn⟩ := rm_rule h1
  obtain ⟨o, fs, gs, hi, rfl⟩ := rm_rule g3
  simp only [visitAggregate, V.asTimeseries, ok_bind, TimeseriesObj.isPlaceholder, beq_self_eq_true, if_true, V.toVal] at hv
  obtain ⟨ts, hts, rfl⟩ := map_eq_ok.1 hv
  rw [setAggregate_value hts]
  have := Means.aggregate hn (rm_rule g2 : Blanks w) hi (rm_rule g4 : Blanks w')
  exact ⟨_, rfl, by simpa using this⟩

omit U in
theorem curriedAggregate_means {t : Str} {vs : List V} {v : V} (h : GTy RM (mqlGrammar .curriedAggregate) t (.list vs))
    (hv : visitCurriedAggregate vs = .ok v) : RM .curriedAggregate t v := by
  obtain ⟨n, v1, t2, v2, t3, v3, h1, h2, h3, rfl, he⟩ := gty_seq3.1 h
  cases he
  obtain ⟨s1, x1, s2, x2, s3, x3, s4, x4, s5, x5, f1, f2, f3, f4, f5, rfl, rfl⟩ := gty_seq5.1 h2
  obtain ⟨u1, w1, w, w2, i, w3, w', w4, u5, w5, g1, g2, g3, g4, g5, rfl, rfl⟩ := gty_seq5.1 h3
  have e1 : u1 = ['('] := rm_rule g1
  have e5 : u5 = [')'] := rm_rule g5
  subst e1 e5
  obtain ⟨rfl, hn⟩ := rm_rule h1
  obtain ⟨o, fs, gs, hi, rfl⟩ := rm_rule g3
  simp only [visitCurriedAggregate, V.asTimeseries, ok_bind, bind_eq_ok, V.toVal] at hv
  obtain ⟨q, hq, hv⟩ := hv
  obtain ⟨ts, hts, rfl⟩ := map_eq_ok.1 hv
  obtain ⟨ps, hps, hpv⟩ := params_means f1 f2 f3 f4 f5 hq
  rw [setAggregate_value hts, hpv]
  have := Means.curriedAggregate hn hps (rm_rule g2 : Blanks w) hi (rm_rule g4 : Blanks w')
  exact ⟨_, rfl, by simpa using this⟩

omit U S in
theorem toMVals_args (x : MVal) (as : List Arg) : V.toMVals (.obj x :: as.map fun a => .obj a.value) = x :: as.map (·.value) := by
  have := toMVals_obj (x :: as.map (·.value))
  simpa [Function.comp_def] using this

omit U in
theorem arbitrary_means {t : Str} {vs : List V} {v : V} (h : GTy RM (mqlGrammar .arbitraryFunction) t (.list vs))
    (hv : visitArbitraryFunction vs = .ok v) : RM .arbitraryFunction t v := by
  obtain ⟨n, v1, t2, v2, h1, h2, rfl, he⟩ := gty_seq2.1 h
  cases he
  obtain ⟨u1, w1, u2, w2, u3, w3, u4, w4, g1, g2, g3, g4, rfl, rfl⟩ := gty_seq4.1 h2
  obtain ⟨w, y1, u, y2, w', y3, f1, f2, f3, rfl, rfl⟩ := gty_seq3.1 g2
  obtain ⟨xs, f4, rfl⟩ := gty_star.1 g3
  have e1 : u1 = ['('] := rm_rule g1
  have e4 : u4 = [')'] := rm_rule g4
  subst e1 e4
  obtain ⟨rfl, hn⟩ := rm_rule h1
  obtain ⟨x, rfl, hx⟩ := rm_rule f2
  obtain ⟨as, has, rfl, ha, hb⟩ := args_reps f4
  simp only [visitArbitraryFunction, has, ok_bind] at hv
  split at hv
  · cases hv
  · rename_i hp
    cases hv
    have := Means.function hn (rm_rule f1 : Blanks w) hx (aggregated_value hp) (rm_rule f3 : Blanks w') ha hb
    exact ⟨_, rfl, by rw [toMVals_args]; simpa [V.toVal] using this⟩

omit U in
theorem curriedFunction_means {t : Str} {vs : List V} {v : V} (h : GTy RM (mqlGrammar .curriedArbitraryFunction) t (.list vs))
    (hv : visitCurriedFunction vs = .ok v) : RM .curriedArbitraryFunction t v := by
  obtain ⟨n, v1, t2, v2, t3, v3, h1, h2, h3, rfl, he⟩ := gty_seq3.1 h
  cases he
  obtain ⟨s1, x1, s2, x2, s3, x3, s4, x4, s5, x5, p1, p2, p3, p4, p5, rfl, rfl⟩ := gty_seq5.1 h2
  obtain ⟨u1, w1, w0, w2, u3, w3, u4, w4, u5, w5, g1, g2, g3, g4, g5, rfl, rfl⟩ := gty_seq5.1 h3
  obtain ⟨w, y1, u, y2, w', y3, f1, f2, f3, rfl, rfl⟩ := gty_seq3.1 g3
  obtain ⟨xs, f4, rfl⟩ := gty_star.1 g4
  have e1 : u1 = ['('] := rm_rule g1
  have e5 : u5 = [')'] := rm_rule g5
  subst e1 e5
  obtain ⟨rfl, hn⟩ := rm_rule h1
  obtain ⟨x, rfl, hx⟩ := rm_rule f2
  obtain ⟨as, has, rfl, ha, hb⟩ := args_reps f4
  have hw := blanks_append (rm_rule g2 : Blanks w0) (rm_rule f1 : Blanks w)
  simp only [visitCurriedFunction, has, ok_bind, bind_eq_ok] at hv
  obtain ⟨q, hq, hv⟩ := hv
  obtain ⟨ps, hps, hpv⟩ := params_means p1 p2 p3 p4 p5 hq
  have plain : Aggregated x → v = .obj (.formula (V.obj (.val (.str n))).toVal (.list (V.toMVals (.obj x :: as.map fun a => .obj a.value))) q.toVal .none .none) →
      RM .curriedArbitraryFunction (n ++ (s1 ++ (s2 ++ (s3 ++ (s4 ++ s5))) ++ (['('] ++ (w0 ++ (w ++ (u ++ w') ++ (argsText as ++ [')'])))))) v := by
    rintro hagg rfl
    have := Means.curriedFunction hn hps hw hx hagg (rm_rule f3 : Blanks w') ha hb
    exact ⟨_, rfl, by rw [toMVals_args, hpv]; simpa [V.toVal] using this⟩
  cases x with
  | ts s =>
    simp only at hv
    split at hv
    · rename_i hp
      obtain ⟨ts, hts, rfl⟩ := map_eq_ok.1 hv
      rw [setAggregate_value hts, hpv]
      have := Means.seriesCall hn hps hw hx (not_placeholder hp) (rm_rule f3 : Blanks w') ha hb
      exact ⟨_, rfl, by simpa [V.toVal] using this⟩
    · rename_i hp
      cases hv
      exact plain (aggregated_series hp) rfl
  | _ => cases hv; exact plain trivial rfl

omit U in
theorem paramExpression_means {t : Str} {vs : List V} {v : V} (h : GTy RM (mqlGrammar .paramExpression) t (.list vs))
    (hv : visitParamExpression vs = .ok v) : RM .paramExpression t v := by
  obtain ⟨x, ⟨p, hp, h⟩, he⟩ := gty_alt_tried h
  cases he
  simp only [visitParamExpression] at hv
  split at hv
  · cases hv
    have hp' := hp.mem
    simp only [List.mem_cons, List.not_mem_nil, or_false] at hp'
    rcases hp' with rfl | rfl | rfl
    · obtain ⟨f, rfl, hf⟩ := rm_rule h
      exact ⟨_, .number hf, rfl⟩
    · obtain ⟨s, rfl, hs⟩ := rm_rule h
      exact ⟨_, .quoted hs, rfl⟩
    · obtain ⟨rfl, hm⟩ := rm_rule h
      obtain ⟨r, hf⟩ := first_failed hp (by simp)
      exact ⟨_, .bare hm (noDigit_append (number_failed hf)), rfl⟩
  · cases hv

theorem tagValue_means {t : Str} {vs : List V} {v : V} (h : GTy RM (mqlGrammar .tagValue) t (.list vs)) (hv : visitFirst vs = .ok v) :
    RM .tagValue t v := by
  obtain ⟨x, ⟨p, hp, h⟩, he⟩ := gty_alt_tried h
  cases he
  cases hv
  have hp' := hp.mem
  simp only [List.mem_cons, List.not_mem_nil, or_false] at hp'
  rcases hp' with rfl | rfl | rfl | rfl | rfl | rfl
  · exact (rm_rule h :)
  · exact (rm_rule h :)
  · obtain ⟨rfl, hq⟩ := rm_rule h
    obtain ⟨r, hf⟩ := first_failed hp (by simp)
    exact ⟨.text, _, .quoted (quoted_means hq) (pattern_failed hf hq), rfl⟩
  · exact (rm_rule h :)
  · exact (rm_rule h :)
  · exact (rm_rule h).elim

/-- The methods return what the texts mean. -/
theorem rule_means (k : Rule) (t : Str) (vs : List V) (v : V) (h : GTy RM (mqlGrammar k) t (.list vs)) (hv : visitRule k t vs = .ok v) :
    RM k t v := by
  cases k
  case expression => exact terms_means (k := .term) (o := .exprOp) (n := 1) (M := Means .sum) (N := Means .product) (fun _ _ h => h) (fun _ _ h => h) (fun _ _ => .summand) Means.plus h hv
  case term => exact terms_means (k := .unary) (o := .termOp) (n := 2) (M := Means .product) (N := Means .signed) (fun _ _ h => h) (fun _ _ h => h) (fun _ _ => .factor) Means.times h hv
  case exprOp =>
    obtain ⟨x, ⟨p, hp, h⟩, _⟩ := gty_alt h
    simp only [List.mem_cons, List.not_mem_nil, or_false] at hp
    rcases hp with rfl | rfl <;> obtain ⟨rfl, _⟩ := gty_lit.1 h <;> cases hv
    · exact ⟨.plus, rfl, rfl, rfl⟩
    · exact ⟨.minus, rfl, rfl, rfl⟩
  case termOp =>
    obtain ⟨x, ⟨p, hp, h⟩, _⟩ := gty_alt h
    simp only [List.mem_cons, List.not_mem_nil, or_false] at hp
    rcases hp with rfl | rfl <;> obtain ⟨rfl, _⟩ := gty_lit.1 h <;> cases hv
    · exact ⟨.times, rfl, rfl, rfl⟩
    · exact ⟨.divide, rfl, rfl, rfl⟩
  case unary => exact unary_means h hv
  case unaryOp => obtain ⟨rfl, _⟩ := gty_lit.1 h; cases hv; exact ⟨rfl, rfl⟩
  case coefficient => exact coefficient_means h hv
  case number =>
    obtain ⟨f, hf⟩ := number_means h
    simp only [visitRule, hf.float, Except.map, Except.ok.injEq] at hv
    exact ⟨f, hv.symm, hf⟩
  case filter => exact filter_means h hv
  case filterExpr =>
    obtain ⟨t0, c, js, rfl, hc, h1, h2, rfl⟩ := filters_means (k := .filterTerm) (p := .rule .or_) (W := OrWord) (rk := .all) (o := .or) (fun _ _ h => rm_rule h) (fun _ _ h => h) h hv
    exact ⟨_, rfl, .any hc h1 h2⟩
  case filterTerm =>
    obtain ⟨t0, c, js, rfl, hc, h1, h2, rfl⟩ := filters_means (k := .filterFactor) (W := AndWord) (rk := .one) (o := .and) (fun t v h => by
      rcases gty_opt.1 h with ⟨rfl, _⟩ | ⟨x, h', _⟩
      · exact .inr (.inr (.inr rfl))
      · rcases rm_rule h' with h | h | h
        · exact .inr (.inr (.inl h))
        · exact .inl h
        · exact .inr (.inl h)) (fun _ _ h => h) h hv
    exact ⟨_, rfl, .all hc h1 h2⟩
  case filterFactor => exact factor_means h hv
  case nestedExpr =>
    obtain ⟨t1, v1, w, v2, u, v3, w', v4, t5, v5, h1, h2, h3, h4, h5, rfl, he⟩ := gty_seq5.1 h
    cases he
    cases hv
    have e1 : t1 = ['('] := rm_rule h1
    have e5 : t5 = [')'] := rm_rule h5
    subst e1 e5
    obtain ⟨c, rfl, hc⟩ := rm_rule h3
    have := FilterMeans.group (rm_rule h2 : Blanks w) hc (rm_rule h4 : Blanks w')
    exact ⟨c, rfl, by simpa using this⟩
  case conditionOp => obtain ⟨rfl, _⟩ := gty_lit.1 h; cases hv; exact ⟨rfl, rfl⟩
  case tagKey => exact column_means (gty_re.1 h).1 hv
  case groupByName => exact column_means (gty_re.1 h).1 hv
  case tagValue => exact tagValue_means h hv
  case suffixWildcard =>
    obtain ⟨u, v1, t2, v2, h1, h2, rfl, he⟩ := gty_seq2.1 h
    cases he
    have e2 : t2 = ['*'] := rm_rule h2
    subst e2
    obtain ⟨rfl, hu⟩ := rm_rule h1
    cases hv
    exact ⟨.pattern, _, .pattern hu, rfl⟩
  case quotedSuffixWildcard =>
    obtain ⟨t1, v1, u, v2, t3, v3, t4, v4, h1, h2, h3, h4, rfl, he⟩ := gty_seq4.1 h
    cases he
    have e1 : t1 = ['"'] := rm_rule h1
    have e3 : t3 = ['*'] := rm_rule h3
    have e4 : t4 = ['"'] := rm_rule h4
    subst e1 e3 e4
    obtain ⟨rfl, hu⟩ := rm_rule h2
    cases hv
    exact ⟨.pattern, _, .quotedPattern hu, rfl⟩
  case quotedStringFilter => cases hv; exact ⟨rfl, hit_quoted (gty_re.1 h).1⟩
  case unquotedStringFilter => cases hv; exact ⟨.text, _, .bare (hit_bare (gty_re.1 h).1), rfl⟩
  case stringTuple => exact stringTuple_means h hv
  case quotedString => cases hv; exact ⟨_, rfl, quoted_means (hit_quoted (gty_re.1 h).1)⟩
  case unquotedString => cases hv; exact ⟨rfl, hit_bare (gty_re.1 h).1⟩
  case target => exact target_means h hv
  case variable_ => cases hv
  case nestedExpression => exact nested_means h hv
  case function => exact function_means h hv
  case aggregate => exact aggregate_means h hv
  case curriedAggregate => exact curriedAggregate_means h hv
  case arbitraryFunction => exact arbitrary_means h hv
  case curriedArbitraryFunction => exact curriedFunction_means h hv
  case aggregateName => cases hv; exact ⟨rfl, hit_name (gty_re.1 h).1⟩
  case curriedAggregateName => cases hv; exact ⟨rfl, hit_name (gty_re.1 h).1⟩
  case arbitraryFunctionName => cases hv; exact ⟨rfl, hit_name (gty_re.1 h).1⟩
  case curriedArbitraryFunctionName => cases hv; exact ⟨rfl, hit_name (gty_re.1 h).1⟩
  case aggregateList =>
    obtain ⟨t1, v1, t2, v2, h1, h2, rfl, he⟩ := gty_seq2.1 h
    cases he
    obtain ⟨xs, g1, rfl⟩ := gty_star.1 h1
    obtain ⟨p, hp, rfl⟩ := rm_rule h2
    cases hv
    obtain ⟨ps, hps, hl⟩ := params_reps g1 hp
    exact ⟨ps, hl, by rw [hps]⟩
  case param =>
    obtain ⟨u, v1, w, v2, t3, v3, w', v4, h1, h2, h3, h4, rfl, he⟩ := gty_seq4.1 h
    cases he
    have e3 : t3 = [','] := rm_rule h3
    subst e3
    obtain ⟨p, hp, rfl⟩ := rm_rule h1
    simp only [visitRule, visitParam] at hv
    split at hv
    · cases hv
      exact ⟨u, w, w', p, by simp, rm_rule h2, rm_rule h4, hp, rfl⟩
    · cases hv
  case paramExpression => exact paramExpression_means h hv
  case groupBy => exact groupBy_means h hv
  case groupByNameTuple => exact groupTuple_means h hv
  case innerFilter => exact innerFilter_means h hv
  case metric =>
    obtain ⟨x, ⟨p, hp, hx⟩, he⟩ := gty_alt h
    cases he
    cases hv
    simp only [List.mem_cons, List.not_mem_nil, or_false] at hp
    rcases hp with rfl | rfl | rfl | rfl
    · obtain ⟨o, rfl, ho⟩ := rm_rule hx; exact ⟨o, rfl, ho⟩
    · obtain ⟨o, rfl, ho⟩ := rm_rule hx; exact ⟨o, rfl, ho⟩
    · obtain ⟨o, rfl, ho⟩ := rm_rule hx; exact ⟨o, rfl, ho⟩
    · obtain ⟨⟨o, rfl, ho⟩, _⟩ := rm_rule hx; exact ⟨o, rfl, ho⟩
  case quotedMri =>
    obtain ⟨t1, v1, u, v2, t3, v3, h1, h2, h3, rfl, he⟩ := gty_seq3.1 h
    have e1 : t1 = ['`'] := rm_rule h1
    have e3 : t3 = ['`'] := rm_rule h3
    subst e1 e3
    simp only [visitRule, List.singleton_append, slice_ticks, if_true] at hv
    exact ⟨_, mri_value hv, .tickedMri (rm_rule h2)⟩
  case lenientMri => exact hit_lenient (gty_re.1 h).1
  case unquotedMri => exact ⟨_, mri_value hv, .mri (hit_mriText (gty_re.1 h).1)⟩
  case quotedPublicName =>
    obtain ⟨t1, v1, u, v2, t3, v3, h1, h2, h3, rfl, he⟩ := gty_seq3.1 h
    have e1 : t1 = ['`'] := rm_rule h1
    have e3 : t3 = ['`'] := rm_rule h3
    subst e1 e3
    simp only [visitRule, List.singleton_append, slice_ticks, reduceCtorEq, if_false] at hv
    exact ⟨_, publicName_value hv, .tickedName (rm_rule h2).2⟩
  case unquotedPublicName =>
    have hp := hit_public (gty_re.1 h).1
    exact ⟨⟨_, publicName_value hv, .name hp⟩, hp⟩
  case space =>
    obtain ⟨⟨r, h⟩, _⟩ := gty_re.1 h
    obtain ⟨u, hu, hc⟩ := (mem_run_star (OneChar.cls _)).1 (List.mem_of_mem_head? h)
    show Blanks t
    rw [List.append_cancel_right hu]
    exact hc
  case and_ =>
    obtain ⟨x, ⟨p, hp, h⟩, _⟩ := gty_alt h
    simp only [List.mem_cons, List.not_mem_nil, or_false] at hp
    rcases hp with rfl | rfl <;> obtain ⟨rfl, _⟩ := gty_lit.1 h
    · exact .inl rfl
    · exact .inr rfl
  case or_ =>
    obtain ⟨x, ⟨p, hp, h⟩, _⟩ := gty_alt h
    simp only [List.mem_cons, List.not_mem_nil, or_false] at hp
    rcases hp with rfl | rfl <;> obtain ⟨rfl, _⟩ := gty_lit.1 h
    · exact .inl rfl
    · exact .inr rfl
  case jointOperator =>
    obtain ⟨x, ⟨p, hp, h⟩, _⟩ := gty_alt h
    simp only [List.mem_cons, List.not_mem_nil, or_false] at hp
    rcases hp with rfl | rfl
    · exact .inl (rm_rule h)
    · exact .inr (rm_rule h)
  all_goals exact (gty_lit.1 h).1

/-- What the parser returns is what the text denotes. -/
theorem parseMql_denotes {mql : Str} {q : MVal} (h : parseMql mql = .ok q) : Denotes mql q := by
  unfold parseMql at h
  split at h
  · cases h
  · rename_i nd hnd
    simp only [bind_eq_ok] at h
    obtain ⟨v, hv, hq⟩ := h
    obtain ⟨rfl, gq⟩ := asQuery_value hq
    unfold parseTree at hnd
    split at hnd
    · rename_i nd' hr
      cases hnd
      obtain ⟨hf, ht⟩ := pegRun_fits _ _ _ _ _ hr
      rw [List.append_nil] at ht
      have hm := rm_rule (node_gty rule_means hf _ hv)
      rw [← ht] at hm
      obtain ⟨m, he, hm⟩ := hm
      cases he
      obtain ⟨a, b, he, hab, _⟩ := (stripP_iff (p := isSpace) (s := mql)).1 rfl
      refine ⟨a, _, b, by rw [← List.append_assoc]; exact he, fun c hc => hab c (List.mem_append_left _ hc), fun c hc => hab c (List.mem_append_right _ hc), hm, gq⟩
    · cases hnd

end

end Verif
