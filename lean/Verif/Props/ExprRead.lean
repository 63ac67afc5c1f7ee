import Verif.Lemmas.ExprRead

/-!
# C56: expressions can be read back from their text
-/

namespace Verif
open Spec

section
variable [U : PyUnicode]

omit U in
theorem toNaiveUtc_spec {t u : Datetime} (h : t.toNaiveUtc = .ok u) : u.tz = none ∧ utcInstant u = utcInstant t := by
  have naive : u.tz = none := by
    unfold Datetime.toNaiveUtc at h
    split at h
    · cases h; assumption
    · cases h
    · unfold ofMicros at h
      simp only at h
      split at h
      · split at h
        · split at h
          · cases h; rfl
          · cases h
        · cases h
      · cases h
  refine ⟨naive, ?_⟩
  obtain ⟨n, hn, ht⟩ := C04_denotes_instant .snql t (toDateTimeLit u.iso) (by simp [translate, h])
  have hu : u.toNaiveUtc = .ok u := by unfold Datetime.toNaiveUtc; rw [naive]
  obtain ⟨n', hn', hu'⟩ := C04_denotes_instant .snql u (toDateTimeLit u.iso) (by simp [translate, hu])
  rw [hn] at hn'
  cases hn'
  rw [ht, hu']

omit U in
theorem translateInits_all {cfg : Cfg} : ∀ {xs : List Val}, (∀ x ∈ xs, (∃ c, x = .column c) ∨ Literal x) →
    translateInits cfg xs = translateAll cfg xs
  | [], _ => by simp [translateInits, translateAll]
  | x :: xs, h => by
    have hx : (x.isColumn || isLiteral x) = true := by
      rcases h x (by simp) with ⟨c, rfl⟩ | hl
      · rfl
      · simp [isLiteral_iff.2 hl]
    simp only [translateInits, translateAll, hx, if_true]
    rw [translateInits_all fun x hx => h x (by simp [hx])]

omit U in
theorem translateParams_all {cfg : Cfg} : ∀ {xs : List Val}, (∀ x ∈ xs, Param x ∨ Scalar x) →
    translateParams cfg xs = translateAll cfg xs
  | [], _ => by simp [translateParams, translateAll]
  | x :: xs, h => by
    have hx : usesParam x = .ok true := by
      unfold usesParam
      split
      · rfl
      · rename_i hn
        rcases h x (by simp) with hp | hs
        · exact absurd (isParamExpr_iff.2 hp) hn
        · exact isScalar_true_iff.2 hs
    simp only [translateParams, translateAll, hx, ok_bind, if_true]
    rw [translateParams_all fun x hx => h x (by simp [hx])]

omit U in
theorem translateAll_trees {cfg : Cfg} {al : Bool} : ∀ {xs : List Val} {ps : List Str}, translateAll cfg xs = .ok ps →
    (∀ x ∈ xs, ∀ t, translate cfg x = .ok t → ∃ tr, Says al x tr ∧ TreeText t tr) →
    ∃ trs, SaysAll al xs trs ∧ TreeTexts ps trs
  | [], ps, h, _ => by cases h; exact ⟨[], .nil, .nil⟩
  | x :: xs, ps, h, hx => by
    simp only [translateAll, bind_eq_ok, Except.ok.injEq] at h
    obtain ⟨t, ht, ts, hts, rfl⟩ := h
    obtain ⟨tr, h1, h2⟩ := hx x (by simp) t ht
    obtain ⟨trs, h3, h4⟩ := translateAll_trees hts fun y hy => hx y (by simp [hy])
    exact ⟨tr :: trs, .cons _ _ _ _ h1 h3, .cons _ _ _ _ h2 h4⟩

/-- The text of an expression is read as a tree that says the expression, in every context. -/
theorem expr_reads (al : Bool) {v : Val} (h : WF v) : ReadableVal v → ∀ t, translate ⟨al, false⟩ v = .ok t →
    ∃ tr, Says al v tr ∧ TreeText t tr := by
  have kid : ∀ {v c : Val}, c ∈ v.children → ReadableVal v → ReadableVal c :=
    fun hc hs => ⟨fun x hx => hs.1 x (part_iff.2 (.inr ⟨_, hc, hx⟩)), fun x hx => hs.2 x (part_iff.2 (.inr ⟨_, hc, hx⟩))⟩
  have seqCase : ∀ (xs : List Val) (w : Str), ExprWord w →
      (∀ x ∈ xs, ∀ t, translate ⟨al, false⟩ x = .ok t → ∃ tr, Says al x tr ∧ TreeText t tr) → ∀ t,
      (do let _ ← allScalar xs
          let ps ← translateAll ⟨al, false⟩ xs
          Except.ok (w ++ c!"(" ++ joinWith c!", " ps ++ seqClose ⟨al, false⟩)) = Except.ok (ε := Err) t →
      ∃ trs, SaysAll al xs trs ∧ TreeText t (.apply (.word w) trs) := by
    intro xs w hw ih t h
    simp only [bind_eq_ok, seqClose, Bool.false_eq_true, if_false] at h
    obtain ⟨_, _, ps, hps, h⟩ := h
    simp only [Except.ok.injEq] at h; subst h
    obtain ⟨trs, h1, h2⟩ := translateAll_trees hps ih
    exact ⟨trs, h1, treeText_apply hw h2⟩
  have other : ∀ {v : Val} {P : Prop}, ReadableVal v → ¬ OperandNode v → P :=
    fun hs hn => absurd (hs.2 _ .here).2 hn
  induction h with
  | literal v h =>
    intro _ t ht
    cases h with
    | none =>
      simp only [translate, Except.ok.injEq] at ht; subst ht
      exact ⟨_, .token _ c!"NULL" rfl, treeText_plainWord (wordText_dull (by simp) (by decide) (by decide))⟩
    | bool b =>
      simp only [translate, Except.ok.injEq] at ht; subst ht
      cases b
      · exact ⟨_, .token _ c!"FALSE" rfl, treeText_plainWord (wordText_dull (by simp) (by decide) (by decide))⟩
      · exact ⟨_, .token _ c!"TRUE" rfl, treeText_plainWord (wordText_dull (by simp) (by decide) (by decide))⟩
    | int i =>
      simp only [translate, Except.ok.injEq] at ht; subst ht
      exact ⟨_, .token _ _ (readToken_int i), treeText_plainWord (int_exprWord i)⟩
    | float f =>
      simp only [translate, Except.ok.injEq] at ht; subst ht
      exact ⟨_, .token _ _ (readToken_repr f), treeText_plainWord (float_exprWord f)⟩
    | str s =>
      simp only [translate, Except.ok.injEq] at ht; subst ht
      exact ⟨_, .str s, treeText_str al s⟩
    | bytes bs =>
      simp only [translate] at ht
      split at ht
      · rename_i s hs
        cases ht
        exact ⟨_, .bytes bs s (utf8_decode_sound bs s hs), treeText_str al s⟩
      · cases ht
    | date d =>
      simp only [translate, Except.ok.injEq] at ht; subst ht
      exact ⟨_, .date d _ (by simpa using readMoment_date d []), treeText_moment (dateIso_chars d)⟩
    | datetime d =>
      simp only [translate, bind_eq_ok, Except.ok.injEq] at ht
      obtain ⟨u, hu, rfl⟩ := ht
      obtain ⟨h1, h2⟩ := toNaiveUtc_spec hu
      exact ⟨_, .datetime d u _ h1 h2 (by simpa using readMoment_datetime u h1 []), treeText_moment (datetimeIso_chars u)⟩
  | list xs _ ih =>
    intro hs t ht
    obtain ⟨trs, h1, h2⟩ := seqCase xs c!"array" (wordText_dull (by simp) (by decide) (by decide))
      (fun x hx t ht => ih x hx (kid (v := .list xs) hx hs) t ht) t ht
    exact ⟨_, .list xs trs h1, h2⟩
  | tuple xs _ ih =>
    intro hs t ht
    obtain ⟨trs, h1, h2⟩ := seqCase xs c!"tuple" (wordText_dull (by simp) (by decide) (by decide))
      (fun x hx t ht => ih x hx (kid (v := .tuple xs) hx hs) t ht) t ht
    exact ⟨_, .tuple xs trs h1, h2⟩
  | column c hc _ =>
    intro hs t ht
    simp only [translate, Except.ok.injEq] at ht; subst ht
    obtain ⟨h1, h2⟩ := column_exprWord (al := al) hc (hs.1 _ .here) (hs.2 _ .here).1
    rw [h2] at h1 ⊢
    exact ⟨_, .column c, treeText_plainWord h1⟩
  | aliased c a hc _ ha =>
    intro hs t ht
    simp only [translate, Except.ok.injEq] at ht; subst ht
    obtain ⟨h1, h2⟩ := column_exprWord (al := al) hc (hs.1 _ .here) (hs.2 _ .here).1
    rw [h2] at h1 ⊢
    exact ⟨_, .aliased c a, treeText_word h1 (alias_tick ha)⟩
  | curried isFn n ik inits pk params a _ _ hi hp _ _ hn ha ih1 ih2 =>
    intro hs t ht
    simp only [translate, translateInits_all hi, translateParams_all hp, bind_eq_ok, Except.ok.injEq] at ht
    obtain ⟨i, hi', p, hp', rfl⟩ := ht
    have hsm : Smooth n := hs.1 _ .here
    have hcm : ',' ∉ n := (hs.2 _ .here).1
    have hw : ExprWord n := by
      refine wordText_plain ?_ (fun c hc => (smooth_wordChar hsm hcm c hc).1) fun c u e => ?_
      · rcases hn with ⟨x, u, rfl, _⟩ | ⟨_, ⟨x, u, rfl, _⟩, rfl⟩ <;> simp
      · exact (smooth_wordChar hsm hcm c (by simp [e])).2
    obtain ⟨its, h1, h2⟩ := translateAll_trees hi' fun x hx t ht =>
      ih1 x hx (kid (v := .curried isFn n ik inits pk params a) (List.mem_append_left _ hx) hs) t ht
    obtain ⟨pts, h3, h4⟩ := translateAll_trees hp' fun x hx t ht =>
      ih2 x hx (kid (v := .curried isFn n ik inits pk params a) (List.mem_append_right _ hx) hs) t ht
    exact ⟨_, .curried isFn n ik inits pk params a its pts h1 h3, treeText_call hw h2 h4 (alias_tick ha)⟩
  | ident n hn =>
    intro _ t ht
    simp only [translate, Except.ok.injEq] at ht; subst ht
    exact ⟨_, .ident n, treeText_tick (identName_tick hn)⟩
  | lam k ids body hids _ _ ih =>
    intro hs t ht
    simp only [translate, bind_eq_ok, Except.ok.injEq] at ht
    obtain ⟨b, hb, rfl⟩ := ht
    obtain ⟨tr, h1, h2⟩ := ih (kid (v := .lam k ids body) (List.mem_singleton.2 rfl) hs) b hb
    exact ⟨_, .lam k ids body tr h1, treeText_lambda (fun i hi => identName_tick (hids i hi)) h2⟩
  | _ =>
    intro hs
    exact other hs (by intro h; cases h; rename_i h; cases h)

/-- **C56** (reading): the text of an expression is read as a tree that says the expression: every scalar, column,
function, argument, identifier and alias is in its place, and nothing else is there. Missing: expressions in which a
function name or an entity alias contains spaces, quotes, parentheses, brackets or commas, for which the property does
not hold (`C56_fails_for_function_names`); and lists that contain conditions or clauses. -/
theorem C56_reads_partial (useAliases : Bool) (v : Val) (hb : Built v) (hr : ReadableVal v) (t : Str)
    (h : translate ⟨useAliases, false⟩ v = .ok t) : ∃ tr, readExpression t = some tr ∧ Says useAliases v tr := by
  obtain ⟨tr, h1, h2⟩ := expr_reads useAliases (built_wf hb) hr t h
  refine ⟨tr, ?_, h1⟩
  have := h2.reads [] ⟨.inl rfl, rfl⟩ (t.length + 1) (Nat.le_refl _)
  rw [List.append_nil] at this
  simp [readExpression, this]

end

/-! ### The tree determines the expression -/

theorem withArgs_present {t : STree} {k : SeqKind} {xs : List STree} (h : k ≠ .absent) : withArgs t k xs = .apply t xs := by
  simp [withArgs, h]

theorem withName_inj {t t' : STree} {a a' : Option Str} (ht : ∀ u n, t ≠ .named u n) (ht' : ∀ u n, t' ≠ .named u n)
    (h : withName t a = withName t' a') : t = t' ∧ a = a' := by
  cases a <;> cases a' <;> simp only [withName] at h
  · exact ⟨h, rfl⟩
  · exact absurd h (ht _ _)
  · exact absurd h.symm (ht' _ _)
  · cases h; exact ⟨rfl, rfl⟩

theorem withArgs_word_inj {n n' : Str} {k k' : SeqKind} {xs xs' : List STree} (h0 : k = .absent → xs = [])
    (h0' : k' = .absent → xs' = []) (h : withArgs (.word n) k xs = withArgs (.word n') k' xs') :
    n = n' ∧ (k = .absent ↔ k' = .absent) ∧ xs = xs' := by
  unfold withArgs at h
  split at h <;> rename_i hk <;> split at h <;> rename_i hk'
  · cases h; exact ⟨rfl, by simp [hk, hk'], by rw [h0 hk, h0' hk']⟩
  · cases h
  · cases h
  · cases h; exact ⟨rfl, by simp [hk, hk'], rfl⟩

theorem Spec.SaysAll.nil_of {al : Bool} {ts : List STree} (h : SaysAll al [] ts) : ts = [] := by cases h; rfl

theorem withArgs_not_named {w : Str} {k k' : SeqKind} {xs xs' : List STree} :
    ∀ u n, withArgs (withArgs (.word w) k xs) k' xs' ≠ .named u n := by
  intro u n
  unfold withArgs
  split
  · split <;> simp
  · simp

mutual
theorem same_of_says {al : Bool} : ∀ {v v' : Val} {t t' : STree}, Says al v t → Says al v' t' → t = t' →
    UnambiguousVal al v → UnambiguousVal al v' → Same al v v'
  | _, v', _, t', .token v w h, h', e, _, hu' => by
    subst e
    generalize ht : STree.word w = t at h'
    cases h' with
    | token v' w' h' => cases ht; rw [h] at h'; cases h'; exact .refl _
    | column c => cases ht; exact absurd h (hu' _ .here _)
    | aliased c a =>
      cases a with
      | none => exact absurd rfl (hu' _ .here).1
      | some a => simp [withName] at ht
    | curried f n ik is pk ps a its pts =>
      rw [withArgs_present (hu' _ .here).2.2.2.1] at ht
      cases a <;> simp [withName] at ht
    | _ => simp [momentTree] at ht
  | _, v', _, t', .str s, h', e, _, hu' => by
    subst e
    generalize ht : STree.text s = t at h'
    cases h' with
    | str s' => cases ht; exact .refl _
    | bytes bs s' h => cases ht; exact .text _ _ _ (.str _) (.bytes _ _ h)
    | aliased c a => cases a <;> simp [withName] at ht
    | curried f n ik is pk ps a its pts =>
      rw [withArgs_present (hu' _ .here).2.2.2.1] at ht
      cases a <;> simp [withName] at ht
    | _ => simp [momentTree] at ht
  | _, v', _, t', .bytes bs s hs, h', e, _, hu' => by
    subst e
    generalize ht : STree.text s = t at h'
    cases h' with
    | str s' => cases ht; exact .text _ _ _ (.bytes _ _ hs) (.str _)
    | bytes bs s' h => cases ht; exact .text _ _ _ (.bytes _ _ hs) (.bytes _ _ h)
    | aliased c a => cases a <;> simp [withName] at ht
    | curried f n ik is pk ps a its pts =>
      rw [withArgs_present (hu' _ .here).2.2.2.1] at ht
      cases a <;> simp [withName] at ht
    | _ => simp [momentTree] at ht
  | _, v', _, t', .date d s hs, h', e, _, hu' => by
    subst e
    generalize ht : momentTree s = t at h'
    cases h' with
    | date d' s' h => simp only [momentTree, STree.apply.injEq, List.cons.injEq, STree.text.injEq, true_and, and_true] at ht
                      subst ht; rw [hs] at h; cases h; exact .refl _
    | datetime d' u s' _ _ h =>
      simp only [momentTree, STree.apply.injEq, List.cons.injEq, STree.text.injEq, true_and, and_true] at ht
      subst ht; rw [hs] at h; cases h
    | aliased c a => cases a <;> simp [withName, momentTree] at ht
    | curried f n ik is pk ps a its pts =>
      obtain ⟨_, _, h3, h4, h5⟩ := hu' _ .here
      rw [withArgs_present h4] at ht
      cases a <;> simp only [withName, momentTree, STree.apply.injEq, reduceCtorEq] at ht
      unfold withArgs at ht
      split at ht
      · have := ht.1; simp only [STree.word.injEq] at this; exact absurd this.symm h3
      · have := ht.1; cases this
    | _ => simp [momentTree] at ht
  | _, v', _, t', .datetime d u s h1 h2 hs, h', e, _, hu' => by
    subst e
    generalize ht : momentTree s = t at h'
    cases h' with
    | date d' s' h => simp only [momentTree, STree.apply.injEq, List.cons.injEq, STree.text.injEq, true_and, and_true] at ht
                      subst ht; rw [hs] at h; cases h
    | datetime d' u s' _ h2' h =>
      simp only [momentTree, STree.apply.injEq, List.cons.injEq, STree.text.injEq, true_and, and_true] at ht
      subst ht; rw [hs] at h; cases h; exact .datetime _ _ (h2.symm.trans h2')
    | aliased c a => cases a <;> simp [withName, momentTree] at ht
    | curried f n ik is pk ps a its pts =>
      obtain ⟨_, _, h3, h4, h5⟩ := hu' _ .here
      rw [withArgs_present h4] at ht
      cases a <;> simp only [withName, momentTree, STree.apply.injEq, reduceCtorEq] at ht
      unfold withArgs at ht
      split at ht
      · have := ht.1; simp only [STree.word.injEq] at this; exact absurd this.symm h3
      · have := ht.1; cases this
    | _ => simp [momentTree] at ht
  | _, v', _, t', .list xs ts hs, h', e, hu, hu' => by
    subst e
    generalize ht : STree.apply (.word c!"array") ts = t at h'
    cases h' with
    | list ys ts' h =>
      simp only [STree.apply.injEq, true_and] at ht
      exact .list _ _ (sameAll_of_says hs h ht (fun x hx y hy => hu y (.list _ _ hx hy)) (fun x hx y hy => hu' y (.list _ _ hx hy)))
    | aliased c a => cases a <;> simp [withName] at ht
    | curried f n ik is pk ps a its pts =>
      obtain ⟨h3, _, _, h4, h5⟩ := hu' _ .here
      rw [withArgs_present h4] at ht
      cases a <;> simp only [withName, STree.apply.injEq, reduceCtorEq] at ht
      unfold withArgs at ht
      split at ht
      · have := ht.1; simp only [STree.word.injEq] at this; exact absurd this.symm h3
      · have := ht.1; cases this
    | _ => simp [momentTree] at ht
  | _, v', _, t', .tuple xs ts hs, h', e, hu, hu' => by
    subst e
    generalize ht : STree.apply (.word c!"tuple") ts = t at h'
    cases h' with
    | tuple ys ts' h =>
      simp only [STree.apply.injEq, true_and] at ht
      exact .tuple _ _ (sameAll_of_says hs h ht (fun x hx y hy => hu y (.tuple _ _ hx hy)) (fun x hx y hy => hu' y (.tuple _ _ hx hy)))
    | aliased c a => cases a <;> simp [withName] at ht
    | curried f n ik is pk ps a its pts =>
      obtain ⟨_, h3, _, h4, h5⟩ := hu' _ .here
      rw [withArgs_present h4] at ht
      cases a <;> simp only [withName, STree.apply.injEq, reduceCtorEq] at ht
      unfold withArgs at ht
      split at ht
      · have := ht.1; simp only [STree.word.injEq] at this; exact absurd this.symm h3
      · have := ht.1; cases this
    | _ => simp [momentTree] at ht
  | _, v', _, t', .column c, h', e, hu, hu' => by
    subst e
    generalize ht : STree.word (columnWord al c) = t at h'
    cases h' with
    | token v' w' h' => cases ht; exact absurd h' (hu _ .here _)
    | column c' => exact .column _ _ (by simpa using ht)
    | aliased c a =>
      cases a with
      | none => exact absurd rfl (hu' _ .here).1
      | some a => simp [withName] at ht
    | curried f n ik is pk ps a its pts =>
      rw [withArgs_present (hu' _ .here).2.2.2.1] at ht
      cases a <;> simp [withName] at ht
    | _ => simp [momentTree] at ht
  | _, v', _, t', .aliased c a, h', e, hu, hu' => by
    subst e
    cases a with
    | none => exact absurd rfl (hu _ .here).1
    | some a =>
    generalize ht : withName (.word (columnWord al c)) (some a) = t at h'
    cases h' with
    | aliased c' a' =>
      obtain ⟨h1, h2⟩ := withName_inj (by simp) (by simp) ht
      subst h2
      exact .aliased _ _ _ (by simpa using h1)
    | curried f n ik is pk ps a its pts =>
      rw [withArgs_present (hu' _ .here).2.2.2.1] at ht
      have := (withName_inj (by simp) (by simp) ht).1
      cases this
    | _ => simp [momentTree, withName] at ht
  | _, v', _, t', .curried f n ik is pk ps a its pts hi hp, h', e, hu, hu' => by
    subst e
    obtain ⟨h1, h2, h3, h4, h5⟩ := hu _ .here
    generalize ht : withName (withArgs (withArgs (.word n) ik its) pk pts) a = t at h'
    cases h' with
    | curried f' n' ik' is' pk' ps' a' its' pts' hi' hp' =>
      obtain ⟨_, _, _, h4', h5'⟩ := hu' _ .here
      obtain ⟨he, ha⟩ := withName_inj withArgs_not_named withArgs_not_named ht
      subst ha
      rw [withArgs_present h4, withArgs_present h4'] at he
      have ht : withArgs (.word n) ik its = withArgs (.word n') ik' its' ∧ pts = pts' := by
        simpa only [STree.apply.injEq] using he
      have z : ik = .absent → its = [] := fun hk => by have := h5 hk; subst this; exact hi.nil_of
      have z' : ik' = .absent → its' = [] := fun hk => by have := h5' hk; subst this; exact hi'.nil_of
      obtain ⟨rfl, hk, he⟩ := withArgs_word_inj z z' ht.1
      exact .curried _ _ _ _ _ _ _ _ _ _ _ _ hk (by simp [h4, h4'])
        (sameAll_of_says hi hi' he (fun x hx y hy => hu y (.init _ _ _ _ _ _ _ _ hx hy)) (fun x hx y hy => hu' y (.init _ _ _ _ _ _ _ _ hx hy)))
        (sameAll_of_says hp hp' ht.2 (fun x hx y hy => hu y (.param _ _ _ _ _ _ _ _ hx hy)) (fun x hx y hy => hu' y (.param _ _ _ _ _ _ _ _ hx hy)))
    | aliased c a' =>
      rw [withArgs_present h4] at ht
      have := (withName_inj (by simp) (by simp) ht).1
      cases this
    | list ys ts' h =>
      rw [withArgs_present h4] at ht
      obtain ⟨ht, _⟩ := withName_inj (by simp) (by simp) (a' := none) (t' := .apply (.word c!"array") ts') ht
      simp only [STree.apply.injEq] at ht
      unfold withArgs at ht
      split at ht
      · have := ht.1; simp only [STree.word.injEq] at this; exact absurd this h1
      · have := ht.1; cases this
    | tuple ys ts' h =>
      rw [withArgs_present h4] at ht
      obtain ⟨ht, _⟩ := withName_inj (by simp) (by simp) (a' := none) (t' := .apply (.word c!"tuple") ts') ht
      simp only [STree.apply.injEq] at ht
      unfold withArgs at ht
      split at ht
      · have := ht.1; simp only [STree.word.injEq] at this; exact absurd this h2
      · have := ht.1; cases this
    | date d s hs =>
      rw [withArgs_present h4] at ht
      obtain ⟨ht, _⟩ := withName_inj (by simp) (by simp) (a' := none) (t' := .apply (.word c!"toDateTime") [.text s]) ht
      simp only [STree.apply.injEq] at ht
      unfold withArgs at ht
      split at ht
      · have := ht.1; simp only [STree.word.injEq] at this; exact absurd this h3
      · have := ht.1; cases this
    | datetime d u s _ _ hs =>
      rw [withArgs_present h4] at ht
      obtain ⟨ht, _⟩ := withName_inj (by simp) (by simp) (a' := none) (t' := .apply (.word c!"toDateTime") [.text s]) ht
      simp only [STree.apply.injEq] at ht
      unfold withArgs at ht
      split at ht
      · have := ht.1; simp only [STree.word.injEq] at this; exact absurd this h3
      · have := ht.1; cases this
    | _ =>
      rw [withArgs_present h4] at ht
      cases a <;> simp [withName] at ht
  | _, v', _, t', .ident n, h', e, _, hu' => by
    subst e
    generalize ht : STree.tick n = t at h'
    cases h' with
    | ident n' => cases ht; exact .refl _
    | aliased c a => cases a <;> simp [withName] at ht
    | curried f n ik is pk ps a its pts =>
      rw [withArgs_present (hu' _ .here).2.2.2.1] at ht
      cases a <;> simp [withName] at ht
    | _ => simp [momentTree] at ht
  | _, v', _, t', .lam k ids b tb hb, h', e, hu, hu' => by
    subst e
    generalize ht : STree.lambda ids tb = t at h'
    cases h' with
    | lam k' ids' b' tb' hb' =>
      simp only [STree.lambda.injEq] at ht
      obtain ⟨rfl, ht⟩ := ht
      exact .lam _ _ _ _ _ (same_of_says hb hb' ht (fun y hy => hu y (.body _ _ _ hy)) (fun y hy => hu' y (.body _ _ _ hy)))
    | aliased c a => cases a <;> simp [withName] at ht
    | curried f n ik is pk ps a its pts =>
      rw [withArgs_present (hu' _ .here).2.2.2.1] at ht
      cases a <;> simp [withName] at ht
    | _ => simp [momentTree] at ht

theorem sameAll_of_says {al : Bool} : ∀ {xs ys : List Val} {ts ts' : List STree}, SaysAll al xs ts → SaysAll al ys ts' → ts = ts' →
    (∀ x ∈ xs, UnambiguousVal al x) → (∀ y ∈ ys, UnambiguousVal al y) → SameAll al xs ys
  | _, _, _, _, .nil, h', e, _, _ => by
    subst e
    cases h'
    exact .nil
  | _, _, _, _, .cons x xs t ts h hs, h', e, hu, hu' => by
    subst e
    cases h' with
    | cons y ys _ _ h' hs' =>
      exact .cons _ _ _ _ (same_of_says h h' rfl (hu _ (by simp)) (hu' _ (by simp)))
        (sameAll_of_says hs hs' rfl (fun x hx => hu x (by simp [hx])) (fun x hx => hu' x (by simp [hx])))
end

/-- **C56** (what a text means): if two expressions have the same text, they say the same: they differ at most in
what SnQL cannot express. -/
theorem C56_same_text_partial [U : PyUnicode] (useAliases : Bool) (v v' : Val) (hb : Built v) (hb' : Built v')
    (hr : ReadableVal v) (hr' : ReadableVal v') (hu : UnambiguousVal useAliases v) (hu' : UnambiguousVal useAliases v')
    (t : Str) (h : translate ⟨useAliases, false⟩ v = .ok t) (h' : translate ⟨useAliases, false⟩ v' = .ok t) :
    Same useAliases v v' := by
  obtain ⟨tr, h1, h2⟩ := C56_reads_partial useAliases v hb hr t h
  obtain ⟨tr', h1', h2'⟩ := C56_reads_partial useAliases v' hb' hr' t h'
  rw [h1] at h1'
  exact same_of_says h2 h2' (Option.some.inj h1') hu hu'

/-! ### Examples -/

section Examples
local instance : PyUnicode := asciiUnicode

theorem readableVal_iff {v : Val} :
    ReadableVal v ↔ (SmoothNames v ∧ NoComma v ∧ OperandNode v) ∧ ∀ c ∈ v.children, ReadableVal c := by
  constructor
  · intro h
    exact ⟨⟨h.1 v .here, h.2 v .here⟩, fun c hc =>
      ⟨fun x hx => h.1 x (part_iff.2 (.inr ⟨c, hc, hx⟩)), fun x hx => h.2 x (part_iff.2 (.inr ⟨c, hc, hx⟩))⟩⟩
  · rintro ⟨h1, h2⟩
    constructor
    · intro x hx
      rcases part_iff.1 hx with rfl | ⟨c, hc, hx⟩
      · exact h1.1
      · exact (h2 c hc).1 x hx
    · intro x hx
      rcases part_iff.1 hx with rfl | ⟨c, hc, hx⟩
      · exact h1.2
      · exact (h2 c hc).2 x hx

theorem unambiguousVal_iff {al : Bool} {v : Val} :
    UnambiguousVal al v ↔ Unambiguous al v ∧ ∀ c ∈ v.children, UnambiguousVal al c := by
  constructor
  · intro h
    exact ⟨h v .here, fun c hc x hx => h x (part_iff.2 (.inr ⟨c, hc, hx⟩))⟩
  · rintro ⟨h1, h2⟩ x hx
    rcases part_iff.1 hx with rfl | ⟨c, hc, hx⟩
    · exact h1
    · exact h2 c hc x hx

/-- The column `tags[a, (b]`. -/
private def tagColumn : Val := .column ⟨c!"tags[a, (b]", none, some c!"tags", some c!"a, (b"⟩

/-- A list with a string that looks like more items. -/
private def tagValues : Val := .list [.str c!"x', (y", .none]

/-- ``quantile(1)(tags[a, (b], array('x\', (y', NULL)) AS `p` ``. -/
private def quantile : Val :=
  .curried false c!"quantile" .list [.int 1] .tuple [tagColumn, tagValues] (some c!"p")

private theorem tagColumn_built : Built tagColumn :=
  .column (U := asciiUnicode) (.str c!"tags[a, (b]") .none _ (.literal _ (.str _)) (.literal _ .none) rfl

private theorem tagValues_built : Built tagValues := .list _ (by
  intro x hx
  simp only [List.mem_cons, List.not_mem_nil, or_false] at hx
  rcases hx with rfl | rfl
  · exact .literal _ (.str _)
  · exact .literal _ .none)

private theorem quantile_built : Built quantile :=
  .curried (U := asciiUnicode) (.str c!"quantile") (.list [.int 1]) (.tuple [tagColumn, tagValues]) (.str c!"p") _
    (.literal _ (.str _)) (.list _ (by intro x hx; simp at hx; subst hx; exact .literal _ (.int _)))
    (.tuple _ (by intro x hx; simp at hx; rcases hx with rfl | rfl; exact tagColumn_built; exact tagValues_built))
    (.literal _ (.str _)) rfl

private theorem tagColumn_readable : ReadableVal tagColumn :=
  readableVal_iff.2 ⟨⟨fun e h => (by cases h), fun e a h => (by cases h), .column _⟩, by simp [tagColumn, Val.children]⟩

private theorem literal_readable {v : Val} (h : Literal v) : ReadableVal v :=
  readableVal_iff.2 ⟨⟨by cases h <;> trivial, by cases h <;> trivial, .literal _ h⟩, by cases h <;> simp [Val.children]⟩

private theorem tagValues_readable : ReadableVal tagValues :=
  readableVal_iff.2 ⟨⟨trivial, trivial, .list _⟩, by
    intro x hx
    simp only [tagValues, Val.children, List.mem_cons, List.not_mem_nil, or_false] at hx
    rcases hx with rfl | rfl
    · exact literal_readable (.str _)
    · exact literal_readable .none⟩

private theorem quantile_readable : ReadableVal quantile :=
  readableVal_iff.2 ⟨⟨show Smooth c!"quantile" by unfold Smooth; decide, show ',' ∉ c!"quantile" by decide, .curried ..⟩, by
    intro x hx
    simp only [quantile, Val.children, List.cons_append, List.nil_append, List.mem_cons, List.not_mem_nil, or_false] at hx
    rcases hx with rfl | rfl | rfl
    · exact literal_readable (.int _)
    · exact tagColumn_readable
    · exact tagValues_readable⟩

private theorem quantile_unambiguous : UnambiguousVal false quantile :=
  unambiguousVal_iff.2 ⟨⟨by decide, by decide, by decide, by decide, by simp⟩, by
    have lit : ∀ {v : Val}, Literal v → UnambiguousVal false v := fun h =>
      unambiguousVal_iff.2 ⟨by cases h <;> trivial, by cases h <;> simp [Val.children]⟩
    intro x hx
    simp only [quantile, Val.children, List.cons_append, List.nil_append, List.mem_cons, List.not_mem_nil, or_false] at hx
    rcases hx with rfl | rfl | rfl
    · exact lit (.int _)
    · refine unambiguousVal_iff.2 ⟨?_, by simp [tagColumn, Val.children]⟩
      intro v
      have : readToken (columnWord false ⟨c!"tags[a, (b]", none, some c!"tags", some c!"a, (b"⟩) = none := by rfl
      rw [this]; simp
    · refine unambiguousVal_iff.2 ⟨trivial, ?_⟩
      intro x hx
      simp only [tagValues, Val.children, List.mem_cons, List.not_mem_nil, or_false] at hx
      rcases hx with rfl | rfl
      · exact lit (.str _)
      · exact lit .none⟩

/-- The hypotheses of `C56_reads_partial` and `C56_same_text_partial` hold for a curried function whose arguments
contain commas, quotes and parentheses. -/
example : Built quantile ∧ ReadableVal quantile ∧ UnambiguousVal false quantile ∧
    translate ⟨false, false⟩ quantile = .ok c!"quantile(1)(tags[a, (b], array('x\\', (y', NULL)) AS `p`" ∧
    readExpression c!"quantile(1)(tags[a, (b], array('x\\', (y', NULL)) AS `p`" =
      some (.named (.apply (.apply (.word c!"quantile") [.word c!"1"])
        [.word c!"tags[a, (b]", .apply (.word c!"array") [.text c!"x', (y", .word c!"NULL"]]) c!"p") :=
  ⟨quantile_built, quantile_readable, quantile_unambiguous, rfl, rfl⟩

/-- A call of `hh` with two arguments. -/
private def twoArguments : Val :=
  .curried true c!"hh" .absent [] .list [.curried true c!"ff" .absent [] .list [.column ⟨c!"a", none, none, none⟩] none,
    .curried true c!"gg" .absent [] .list [] none] none

private theorem fn_built (n : Str) (ps : List Val) (h : ∀ x ∈ ps, Built x)
    (hm : mkFunction (.str n) (.list ps) .none = .ok (.curried true n .absent [] .list ps none)) :
    Built (.curried true n .absent [] .list ps none) :=
  .function (U := asciiUnicode) (.str n) (.list ps) .none _ (.literal _ (.str _)) (.list _ h) (.literal _ .none) hm

/-- A call of `hh` with one argument, a call of the function named `ff(a), gg`. -/
private def fakeArguments : Val :=
  .curried true c!"hh" .absent [] .list [.curried true c!"ff(a), gg" .absent [] .list [] none] none

private theorem fakeArguments_built : Built fakeArguments :=
  fn_built _ _ (by intro x hx; simp at hx; subst hx; exact fn_built _ _ (by simp) rfl) rfl

private theorem twoArguments_built : Built twoArguments :=
  fn_built _ _ (by
    intro x hx
    simp only [List.mem_cons, List.not_mem_nil, or_false] at hx
    rcases hx with rfl | rfl
    · exact fn_built _ _ (by
        intro x hx
        simp only [List.mem_singleton] at hx
        subst hx
        exact .column (U := asciiUnicode) (.str c!"a") .none _ (.literal _ (.str _)) (.literal _ .none) rfl) rfl
    · exact fn_built _ _ (by simp) rfl) rfl

/-- **C56** does not hold for all function names: a function may be called `ff(a), gg`, and then a call with one
argument has the same text as a call with two. -/
theorem C56_fails_for_function_names : ∃ v v' t, Built v ∧ Built v' ∧ translate ⟨false, false⟩ v = .ok t ∧
    translate ⟨false, false⟩ v' = .ok t ∧ ¬ Same false v v' := by
  refine ⟨fakeArguments, twoArguments, c!"hh(ff(a), gg())", fakeArguments_built, twoArguments_built, rfl, rfl, ?_⟩
  intro h
  cases h with
  | text _ _ s h1 _ => cases h1
  | curried _ _ _ _ _ _ _ _ _ _ _ _ _ _ _ h =>
    cases h with
    | cons _ _ _ _ _ h => cases h

/-- **C56** does not hold for all names: a column may be called `NULL`. -/
theorem C56_fails_for_column_names : ∃ v t, Built v ∧ translate ⟨false, false⟩ v = .ok t ∧
    translate ⟨false, false⟩ .none = .ok t ∧ ¬ Same false v .none := by
  refine ⟨.column ⟨c!"NULL", none, none, none⟩, c!"NULL",
    .column (U := asciiUnicode) (.str c!"NULL") .none _ (.literal _ (.str _)) (.literal _ .none) rfl, rfl, rfl, ?_⟩
  intro h
  cases h with
  | text _ _ s h1 _ => cases h1

end Examples

end Verif
