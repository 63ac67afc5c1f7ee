import Verif.Lemmas.TemplateQuery

/-!
# Metrics queries are templates of the values in their filters
-/

namespace Verif
open Spec

/-- The template of two texts after one another. -/
theorem templated_append {m : Bool} {F G H : (Val → Val) → Except Err Str} {s t : Str} (h : Templated m F s) (h' : Templated m G t)
    (hH : ∀ f a b, Replaces f → F f = .ok a → G f = .ok b → H f = .ok (a ++ b)) : Templated m H (s ++ t) := by
  simpa using fits_pair [] h h' (H := H) fun f a b hf ha hb => by simpa using hH f a b hf ha hb

theorem aggregateParamsMql_fits {v : Val} {t : Str} (hw : ∀ k xs, SeqOf v k xs → ∀ x ∈ xs, tidy x = true) (h : aggregateParamsMql v = .ok t) :
    Templated true (fun f => aggregateParamsMql (revalueClause f v)) t := by
  by_cases ht : v.truthy = true
  case neg =>
    have : t = [] := by simpa [aggregateParamsMql, ht, eq_comm] using h
    subst this
    exact fits_fixed fun f hf => by simp [aggregateParamsMql, revalueClause_truthy, ht]
  have go : ∀ (mk : List Val → Val) xs, v = mk xs → (∃ k, SeqOf v k xs) → (∀ f ys, revalueClause f (mk ys) = mk (revalueAll f ys)) →
      (∀ ys, iterItems (mk ys) = .ok ys) → Templated true (fun f => aggregateParamsMql (revalueClause f v)) t := by
    intro mk xs hv hs hr hg
    obtain ⟨k, hs⟩ := hs
    have hwx := (tidyAll_iff xs).2 (hw k xs hs)
    have ht' : ∀ f, (revalueClause f v).truthy = true := fun f => by rw [revalueClause_truthy, ht]
    subst hv
    simp only [aggregateParamsMql, ht, hg xs, if_true, ok_bind, bind_eq_ok, Except.ok.injEq] at h
    obtain ⟨ts, hts, rfl⟩ := h
    exact fits_join ['('] c!", " [')'] (translateAll_fits xs ts hwx hts) fun f as hf has => by
      change translateAll .mql _ = _ at has
      have := ht' f
      simp only [hr] at this ⊢
      simp only [aggregateParamsMql, this, hg, if_true, ok_bind, has]
  cases v <;> first
    | exact go .list _ rfl ⟨_, .list _⟩ (fun _ _ => rfl) fun _ => rfl
    | exact go .tuple _ rfl ⟨_, .tuple _⟩ (fun _ _ => rfl) fun _ => rfl
    | exact fits_fixed fun _ _ => h

section
variable [R : PyRepr]

theorem timeseriesMql_fits {x : TimeseriesObj} {t : Str} (hp : ∀ k xs, SeqOf x.aggregateParams k xs → ∀ y ∈ xs, tidy y = true)
    (hw : ∀ k xs, SeqOf x.filters k xs → ∀ y ∈ xs, tidy y = true) (h : timeseriesMql x = .ok t) :
    Templated true (fun f => timeseriesMql { x with aggregateParams := revalueClause f x.aggregateParams, filters := revalueClause f x.filters }) t := by
  simp only [timeseriesMql, bind_eq_ok, Except.ok.injEq] at h
  obtain ⟨m, hm, ps, hps, fs, hfs, g, hg, rfl⟩ := h
  have empty : ∀ f as, aggregateParamsMql (revalueClause f x.aggregateParams) = .ok as → as.isEmpty = ps.isEmpty := by
    intro f as has
    simp only [aggregateParamsMql, revalueClause_truthy] at has hps
    split at hps
    · rename_i ht
      simp only [ht, if_true, bind_eq_ok, Except.ok.injEq] at has hps
      obtain ⟨_, _, _, _, rfl⟩ := has
      obtain ⟨_, _, _, _, rfl⟩ := hps
      rfl
    · rename_i ht
      simp only [ht] at has
      cases has
      cases hps
      rfl
  have head : Templated true (fun f => do
      let as ← aggregateParamsMql (revalueClause f x.aggregateParams)
      let agg := pyStr (.val x.aggregate) ++ as
      .ok (if agg.isEmpty then m else agg ++ ['('] ++ m ++ [')']))
      (if (pyStr (.val x.aggregate) ++ ps).isEmpty then m else pyStr (.val x.aggregate) ++ ps ++ ['('] ++ m ++ [')']) := by
    by_cases he : (pyStr (.val x.aggregate) ++ ps).isEmpty = true
    · rw [if_pos he]
      obtain ⟨pc, h1, h2, h3⟩ := aggregateParamsMql_fits hp hps
      refine ⟨.fixed m :: pc, fun v hv => h1 v (by simpa using hv), ?_, fun f hf hs => ?_⟩
      · have : ps = [] := by
          simp only [List.isEmpty_iff, List.append_eq_nil_iff] at he
          exact he.2
        simp [fill, h2, this]
      · have hv := h3 f hf fun v hv => hs v (by simp [hv])
        have hem := empty f _ hv
        simp only [List.isEmpty_iff, List.append_eq_nil_iff] at he
        rw [he.2] at hem
        simp only [List.isEmpty_nil, List.isEmpty_iff] at hem
        simp only [hv, ok_bind, he.1, List.nil_append, hem, List.isEmpty_nil, if_true, fill, List.append_nil]
    · rw [if_neg he]
      have := fits_around (H := fun f => do
        let as ← aggregateParamsMql (revalueClause f x.aggregateParams)
        let agg := pyStr (.val x.aggregate) ++ as
        .ok (if agg.isEmpty then m else agg ++ ['('] ++ m ++ [')'])) (pyStr (.val x.aggregate)) (['('] ++ m ++ [')'])
        (aggregateParamsMql_fits hp hps) fun f as hf has => by
          have hem := empty f as has
          have : (pyStr (.val x.aggregate) ++ as).isEmpty = (pyStr (.val x.aggregate) ++ ps).isEmpty := by
            cases pyStr (.val x.aggregate) with
            | nil => simpa using hem
            | cons c s => rfl
          simp only [has, ok_bind, this, if_neg he, List.append_assoc]
      simpa only [List.append_assoc] using this
  have tail := fits_around (H := fun f => do
      let fs ← filtersMql (revalueClause f x.filters)
      .ok (fs ++ g)) [] g (filtersMql_fits hw hfs) fun f as hf has => by simp only [has, ok_bind, List.nil_append]
  have := templated_append (H := fun f => timeseriesMql { x with aggregateParams := revalueClause f x.aggregateParams, filters := revalueClause f x.filters })
    head tail fun f a b hf ha hb => by
      simp only [bind_eq_ok, Except.ok.injEq] at ha hb
      obtain ⟨as, has, rfl⟩ := ha
      obtain ⟨bs, hbs, rfl⟩ := hb
      simp only [timeseriesMql, hm, has, hbs, hg, ok_bind, List.append_assoc]
  simpa only [List.nil_append, List.append_assoc] using this

/-- The text of a formula around the texts of its parameters. -/
theorem formulaHead_shape {n a : Val} {ts : List Str} {t : Str} (h : formulaHead n a ts = .ok t) :
    ∃ pre sep post, ∀ us, formulaHead n a us = .ok (pre ++ joinWith sep us ++ post) := by
  unfold formulaHead at h
  split at h
  · rename_i s
    cases hi : infixOf s with
    | some o => exact ⟨['('], [' '] ++ o ++ [' '], [')'], fun us => by simp only [formulaHead, hi]⟩
    | none =>
      simp only [hi, bind_eq_ok] at h
      obtain ⟨p, hp, _⟩ := h
      exact ⟨prefixName (.str s) ++ p ++ ['('], c!", ", [')'], fun us => by simp only [formulaHead, hi, hp, ok_bind]⟩
  · rename_i v hv
    simp only [bind_eq_ok] at h
    obtain ⟨_, he, p, hp, _⟩ := h
    refine ⟨prefixName n ++ p ++ ['('], c!", ", [')'], fun us => ?_⟩
    unfold formulaHead
    split
    · rename_i s _
      exact absurd rfl (hv s)
    · simp only [he, hp, ok_bind]

variable [U : PyUnicode]

omit R in
theorem Spec.ClauseBuilt.tidied {v : Val} (h : ClauseBuilt v) : ∀ k xs, SeqOf v k xs → ∀ x ∈ xs, tidy x = true :=
  fun k xs hs x hx => tidy_wf (built_wf (h k xs hs x hx))

/-- The template of a formula from those of its parameters. -/
theorem formulaMql_fits {n a fs g : Val} {P : MVal} {t : Str} (hp : ∀ ts, paramsMql P = .ok ts → TemplatedAll true (fun f => paramsMql (revalueMetric f P)) ts)
    (hb : ClauseBuilt fs) (h : paramMql (.formula n P a fs g) = .ok t) : Templated true (fun f => paramMql (revalueMetric f (.formula n P a fs g))) t := by
  simp only [paramMql, bind_eq_ok, Except.ok.injEq] at h
  obtain ⟨ps, hps, hd, hhd, ft, hft, gt, hgt, rfl⟩ := h
  obtain ⟨pre, sep, post, hshape⟩ := formulaHead_shape hhd
  have : hd = pre ++ joinWith sep ps ++ post := by
    have := hshape ps
    rw [hhd] at this
    exact Except.ok.inj this
  subst this
  have head := fits_join (H := fun f => do
    let ps ← paramsMql (revalueMetric f P)
    formulaHead n a ps) pre sep post (hp ps hps) fun f as hf has => by simp only [has, ok_bind, hshape]
  have tail := fits_around (H := fun f => do
    let ft ← filtersMql (revalueClause f fs)
    .ok (ft ++ gt)) [] gt (filtersMql_fits hb.tidied hft) fun f as hf has => by simp only [has, ok_bind, List.nil_append]
  have := templated_append (H := fun f => paramMql (revalueMetric f (.formula n P a fs g))) head tail fun f x y hf hx hy => by
    simp only [bind_eq_ok, Except.ok.injEq] at hx hy
    obtain ⟨as, has, hx⟩ := hx
    obtain ⟨bs, hbs, rfl⟩ := hy
    simp only [revalueMetric, paramMql, has, hx, hbs, hgt, ok_bind, List.append_assoc]
  simpa only [List.nil_append, List.append_assoc] using this

theorem paramsMqlAll_fits : ∀ (xs : List MVal) (ts : List Str),
    (∀ x ∈ xs, ∀ t, paramMql x = .ok t → Templated true (fun f => paramMql (revalueMetric f x)) t) → paramsMqlAll xs = .ok ts →
    TemplatedAll true (fun f => paramsMqlAll (revalueMetrics f xs)) ts
  | [], ts, _, h => by
    cases h
    exact fitsAll_nil fun _ _ => rfl
  | x :: xs, ts, hb, h => by
    simp only [paramsMqlAll, bind_eq_ok, Except.ok.injEq] at h
    obtain ⟨t, ht, ts, hts, rfl⟩ := h
    exact fitsAll_cons (hb x (by simp) t ht) (paramsMqlAll_fits xs ts (fun y hy => hb y (List.mem_cons_of_mem _ hy)) hts)
      fun f y z hf hy hz => by simp only [revalueMetrics, paramsMqlAll, hy, hz, ok_bind]

theorem paramMql_fits {x : MVal} (hb : FiltersBuilt x) : ∀ t, paramMql x = .ok t → Templated true (fun f => paramMql (revalueMetric f x)) t := by
  induction hb with
  | ts x h1 h2 =>
    intro t h
    simp only [paramMql] at h
    simpa only [revalueMetric, paramMql] using timeseriesMql_fits h1.tidied h2.tidied h
  | list n xs a fs g _ hb ih =>
    intro t h
    refine formulaMql_fits (fun ts hts => ?_) hb h
    simp only [paramsMql] at hts
    simpa only [revalueMetric, paramsMql] using paramsMqlAll_fits xs ts ih hts
  | tuple n xs a fs g _ hb ih =>
    intro t h
    refine formulaMql_fits (fun ts hts => ?_) hb h
    simp only [paramsMql] at hts
    simpa only [revalueMetric, paramsMql] using paramsMqlAll_fits xs ts ih hts
  | val v => exact fun t h => fits_fixed fun f hf => by simpa only [revalueMetric] using h

end
end Verif
