import Verif.Spec.LegacyHalts
import Verif.Lemmas.LegacyMessages

/-!
# Lemmas: the constructor that refuses speaks for the conversion
-/

namespace Verif.LegacyHalts
open Spec LegacyMsg QueryMsg

variable [PyShow] [PyText] [U : PyUnicode] [D : PyDecimal]

omit [PyShow] [PyText] U D in
theorem list_iter (xs : List Val) : (elsewhere (Val.list xs).iter : Except Raised (List Val)) = .ok xs := rfl

theorem exps_ok {ys zs : List Val} (h : ConvertsAll ys zs) : parseExpsMsg ys = .ok zs :=
  ok_of_drop ((drop_exps ys).trans ((parseExps_iff fun _ _ _ => converts_iff).2 h))

theorem exp_ok {v x : Val} (h : Converts v x) : parseExpMsg v = .ok x := ok_of_drop ((drop_exp v).trans (converts_iff.2 h))

theorem exps_error {pre post zs : List Val} {v : Val} {r : Raised} (h : parseExpsMsg pre = .ok zs) (hv : parseExpMsg v = .error r) :
    parseExpsMsg (pre ++ v :: post) = .error r := by
  induction pre generalizing zs with
  | nil => simp only [List.nil_append, parseExpsMsg, hv, error_bind]
  | cons p pre ih =>
    simp only [parseExpsMsg, bind_eq_ok] at h
    obtain ⟨x, h1, xs, h2, _⟩ := h
    simp only [List.cons_append, parseExpsMsg, h1, ok_bind, ih h2, error_bind]

theorem not_condition {xs : List Val} (h : ¬ ConditionShape xs) : isLegacyCondition xs = false := by
  rw [← conditionShape_iff] at h
  simpa using h

omit [PyShow] [PyText] U D in
theorem ends_bracket {f : Str} (h : ¬ EndsWith f [')']) : ¬ EndsWith f ['(', ')'] := by
  rintro ⟨r, rfl⟩
  exact h ⟨r ++ ['('], by simp⟩

theorem call_error {f : Str} {b al : Val} {rest : List Val} {lhs ch : Except Raised Val} {r : Raised}
    (hn : ¬ ConditionShape (.str f :: b :: rest)) (ha : AliasItem rest al) (h : legacyCallMsg (.str f) b al ch = .error r) :
    legacyListMsg (.str f) b rest lhs ch = .error r := by
  rw [legacyListMsg, not_condition hn, aliasItem_iff.2 ha]
  exact h

/-- The head of a list that is no condition: only the first argument matters. -/
theorem list_error {f : Str} {b al : Val} {rest : List Val} {r : Raised} (hn : ¬ ConditionShape (.str f :: b :: rest)) (ha : AliasItem rest al)
    (h : ∀ ch, legacyCallMsg (.str f) b al ch = .error r) : parseExpMsg (.list (.str f :: b :: rest)) = .error r := by
  by_cases hb : ∃ ys, b = .list ys
  · obtain ⟨ys, rfl⟩ := hb
    rw [parseExpMsg]
    exact call_error hn ha (h _)
  · rw [parseExpMsg]
    · exact call_error hn ha (h _)
    · exact fun ys h => hb ⟨ys, h⟩

theorem made_error {c : BuildCall} {x : Err} {t : Str} (h : Refusal c x t) : c.run = .error (x, some t) := (C89_message c _).2 ⟨x, t, rfl, h⟩

theorem exp_error {v : Val} {c : BuildCall} (h : ComesTo v c) : ∀ {x : Err} {t : Str}, Refusal c x t → parseExpMsg v = .error (x, some t) := by
  induction h with
  | @column s hs hq =>
    intro x t hr
    have h : mkColumnMsg (.str s) .none = .error (x, some t) := made_error hr
    have he : s.isEmpty = false := by cases s with | nil => exact absurd rfl hs | cons => rfl
    rw [parseExpMsg, parseExpTextMsg, he, not_between_iff.2 hq]
    exact h
  | @left a op r c hc _ ih =>
    intro x t hr
    have h1 := conditionShape_iff.2 hc
    cases hc
    rw [parseExpMsg]
    · simp only [legacyListMsg, h1, if_true, conditionFunctionMsg, conditionPartsMsg, ih hr, error_bind]
    · nofun
  | @comparison a op c l r o f hc ha ho hrhs hf =>
    intro x t hr
    have h : mkFunctionMsg (.str f) (.tuple [l, r]) .none = .error (x, some t) := made_error hr
    have h1 := conditionShape_iff.2 hc
    have h2 := rhsFor_iff.2 hrhs
    have h3 := opOf_iff.2 ho
    cases hc
    rw [parseExpMsg]
    · simp only [legacyListMsg, h1, if_true, conditionFunctionMsg, conditionPartsMsg, exp_ok ha, h2, h3, compares_iff.2 hf, elsewhere, ok_bind, h]
    · nofun
  | @argument f v al pre post zs rest c hn ha hp _ ih =>
    intro x t hr
    rw [parseExpMsg]
    refine call_error hn ha ?_
    have ht : (Val.list (pre ++ v :: post)).truthy = true := by cases pre <;> rfl
    have := exps_error (post := post) (exps_ok hp) (ih hr)
    simp only [legacyCallMsg, textMethod, elsewhere, ok_bind, ht, Bool.not_true, Bool.and_false, Bool.false_eq_true, if_false, this, Except.map,
      error_bind]
  | @call f al ys zs rest hn ha hy hz =>
    intro x t hr
    have h : mkFunctionMsg (.str f) (.list zs) al = .error (x, some t) := made_error hr
    rw [parseExpMsg]
    refine call_error hn ha ?_
    have ht : (Val.list ys).truthy = true := by cases ys with | nil => exact absurd rfl hy | cons => rfl
    simp only [legacyCallMsg, textMethod, elsewhere, ok_bind, ht, Bool.not_true, Bool.and_false, Bool.false_eq_true, if_false, exps_ok hz,
      Except.map, h]
  | @emptyCall f name args al rest hn ha hf he hb =>
    intro x t hr
    have h : mkFunctionMsg (.str name) (.list []) al = .error (x, some t) := made_error hr
    refine list_error hn ha fun ch => ?_
    simp only [legacyCallMsg, textMethod, elsewhere, ok_bind, truthy_false_iff.2 hf, endsWith_iff.2 he, Bool.not_false, Bool.and_self, if_true,
      bare_iff.2 hb, h]
  | @noCall f args al rest hn ha hf he =>
    intro x t hr
    have h : mkFunctionMsg (.str f) (.list []) al = .error (x, some t) := made_error hr
    refine list_error hn ha fun ch => ?_
    have h1 : endsWith f c!"()" = false := by
      have := ends_bracket he
      rw [← endsWith_iff] at this
      simpa using this
    have h2 : endsWith f c!")" = false := by
      rw [← endsWith_iff] at he
      simpa using he
    simp only [legacyCallMsg, textMethod, elsewhere, ok_bind, truthy_false_iff.2 hf, h1, h2, Bool.not_false, Bool.and_self, Bool.false_and,
      Bool.false_eq_true, if_false, if_true, h]

theorem items_error {v : Val} {c : BuildCall} (h : ListComesTo v c) {x : Err} {t : Str} (hr : Refusal c x t) :
    ∃ xs, v = .list xs ∧ parseExpsMsg (xs.map tupleAsList) = .error (x, some t) := by
  cases h with
  | mk hp hw hc =>
    refine ⟨_, rfl, ?_⟩
    rw [List.map_append, List.map_cons, asList_iff.2 hw]
    exact exps_error (ok_of_drop ((drop_exps _).trans (convertsItems_iff.2 hp))) (exp_error hc hr)

theorem condition_error {v : Val} {c : BuildCall} (h : ConditionComesTo v c) {x : Err} {t : Str} (hr : Refusal c x t)
    (g : List Val → Except Raised (List Val)) : legacyEntryMsg g v = .error (x, some t) := by
  cases h with
  | left hs hc =>
    simp only [legacyEntryMsg, list_iter, ok_bind, conditionShape_iff.2 hs, if_true, parseConditionItemsMsg, conditionPartsMsg,
      exp_error hc hr, error_bind, Except.map]
  | @condition a op c l r o hs ha ho hrhs =>
    have h : mkConditionMsg l (.op o) r = .error (x, some t) := made_error hr
    rw [legacyEntryMsg, list_iter]
    simp only [elsewhere, ok_bind, conditionShape_iff.2 hs, if_true, parseConditionItemsMsg, conditionPartsMsg, exp_ok ha, rhsFor_iff.2 hrhs,
      opOf_iff.2 ho, h, Except.map]

theorem entries_error {g : List Val → Except Raised (List Val)} {pre post cs : List Val} {v : Val} {r : Raised}
    (h : legacyEntriesMsg g pre = .ok cs) (hv : legacyEntryMsg g v = .error r) : legacyEntriesMsg g (pre ++ v :: post) = .error r := by
  induction pre generalizing cs with
  | nil => simp only [List.nil_append, legacyEntriesMsg, hv, error_bind]
  | cons p pre ih =>
    simp only [legacyEntriesMsg, bind_eq_ok] at h
    obtain ⟨x, h1, xs, h2, _⟩ := h
    simp only [List.cons_append, legacyEntriesMsg, h1, ok_bind, ih h2, error_bind]

omit [PyShow] [PyText] U D in
theorem same_getD {b b' : LegacyBody} {k : Str} (h : ∀ v, Has b k v ↔ Has b' k v) (d : Val) : b.getD k d = b'.getD k d := by
  rcases getD_cases b' k d with h' | ⟨h', e⟩
  · exact has_getD ((h _).2 h') d
  · rw [e]
    exact has_not_getD (fun w hw => h' w ((h w).1 hw)) d

omit [PyShow] [PyText] U D in
theorem same_get {b b' : LegacyBody} {k : Str} (h : ∀ v, Has b k v ↔ Has b' k v) : b.get k = b'.get k := same_getD h _

theorem same_select {b b' : LegacyBody} (h2 : ∀ v, Has b' c!"aggregations" v ↔ Has b c!"aggregations" v)
    (h3 : ∀ v, Has b' c!"selected_columns" v ↔ Has b c!"selected_columns" v) : legacySelectMsg b' = legacySelectMsg b := by
  simp only [legacySelectMsg, same_getD h2, same_getD h3]

theorem same_groupby {b b' : LegacyBody} (h : ∀ v, Has b' c!"groupby" v ↔ Has b c!"groupby" v) : legacyGroupbyMsg b' = legacyGroupbyMsg b := by
  simp only [legacyGroupbyMsg, same_getD h]

theorem same_times {b b' : LegacyBody} (h7 : ∀ v, Has b' c!"from_date" v ↔ Has b c!"from_date" v)
    (h8 : ∀ v, Has b' c!"to_date" v ↔ Has b c!"to_date" v) (e : Str) : legacyTimesMsg b' e = legacyTimesMsg b e := by
  simp only [legacyTimesMsg, same_get h7, same_get h8]

theorem clause_refused [N : PyNumberText] {σ : SetOrders} (hσ : PossibleOrders σ) {b b' : LegacyBody} {entity : Str} {req : RequestObj}
    (hb : (jsonToSnql b entity).1 = .ok req) {key : Str} (hs : SameBefore key b' b) {v : Val} (hv : Has b' key v) {c : BuildCall}
    (hc : ClauseComesTo key v c) {x : Err} {t : Str} (hr : Refusal c x t) : jsonToSnqlMsg σ b' entity = .error (x, some t) := by
  have hb : jsonToSnqlMsg σ b entity = .ok req := ok_of_drop ((drop_conversion hσ b entity).trans hb)
  simp only [jsonToSnqlMsg, legacyStartMsg, bind_eq_ok] at hb
  obtain ⟨q, ⟨smp, h1, en, h2, q0, h3, sel, h4, q1, h5, q2, h6, gs, h7, q3, h8, ws, h9, q4, h10, _⟩, _⟩ := hb
  cases hc with
  | selected hl =>
    have k1 := hs c!"sample" (by decide)
    have k2 := hs c!"aggregations" (by decide)
    obtain ⟨xs, rfl, he⟩ := items_error hl hr
    simp only [legacySelectMsg, bind_eq_ok] at h4
    obtain ⟨as, a1, ys, a2, _⟩ := h4
    simp only [jsonToSnqlMsg, legacyStartMsg, legacySelectMsg, same_get k1, h1, h2, h3, same_getD k2, a1, a2, has_getD hv, list_iter, he, ok_bind,
      error_bind]
  | groupby hl =>
    have k1 := hs c!"sample" (by decide)
    have k2 := hs c!"aggregations" (by decide)
    have k3 := hs c!"selected_columns" (by decide)
    have k4 := hs c!"arrayjoin" (by decide)
    obtain ⟨xs, rfl, he⟩ := items_error hl hr
    have hg : legacyGroupbyMsg b' = .error (x, some t) := by
      simp only [legacyGroupbyMsg, has_getD hv, wrapList, list_iter, ok_bind, he]
    simp only [jsonToSnqlMsg, legacyStartMsg, same_get k1, h1, h2, h3, same_select k2 k3, h4, same_get k4, h5, h6, hg, ok_bind, error_bind]
  | @conditions pre post cs w c hp hw =>
    have he := entries_error (post := post) (ok_of_drop ((drop_entries drop_whereGroup pre).trans (whereEntries_iff.2 hp)))
      (condition_error hw hr whereGroupMsg)
    have k1 := hs c!"sample" (by decide)
    have k2 := hs c!"aggregations" (by decide)
    have k3 := hs c!"selected_columns" (by decide)
    have k4 := hs c!"arrayjoin" (by decide)
    have k5 := hs c!"groupby" (by decide)
    have k6 := hs c!"organization" (by decide)
    have k7 := hs c!"from_date" (by decide)
    have k8 := hs c!"to_date" (by decide)
    have k9 := hs c!"project" (by decide)
    have hw : legacyWhereMsg b' entity = .error (x, some t) := by
      simp only [legacyWhereMsg, bind_eq_ok] at h9
      obtain ⟨org, w1, tms, w2, prj, w3, _⟩ := h9
      simp only [legacyWhereMsg, same_get k6, same_times k7 k8, same_get k9, w1, w2, w3, has_getD hv, list_iter, ok_bind, he, error_bind]
    simp only [jsonToSnqlMsg, legacyStartMsg, same_get k1, h1, h2, h3, same_select k2 k3, h4, same_get k4, h5, h6, same_groupby k5, h7, h8, hw,
      ok_bind, error_bind]
  | @having pre post cs w c hp hw =>
    have he := entries_error (post := post) (ok_of_drop ((drop_entries drop_havingGroup pre).trans (havingEntries_iff.2 hp)))
      (condition_error hw hr havingGroupMsg)
    have k1 := hs c!"sample" (by decide)
    have k2 := hs c!"aggregations" (by decide)
    have k3 := hs c!"selected_columns" (by decide)
    have k4 := hs c!"arrayjoin" (by decide)
    have k5 := hs c!"groupby" (by decide)
    have k6 := hs c!"organization" (by decide)
    have k7 := hs c!"from_date" (by decide)
    have k8 := hs c!"to_date" (by decide)
    have k9 := hs c!"project" (by decide)
    have k10 := hs c!"conditions" (by decide)
    have hwh : legacyWhereMsg b' entity = .ok ws := by
      rw [← h9]
      simp only [legacyWhereMsg, same_get k6, same_times k7 k8, same_get k9, same_getD k10]
    have hh : legacyHavingMsg b' = .error (x, some t) := by
      simp only [legacyHavingMsg, has_getD hv, list_iter, ok_bind, he]
    simp only [jsonToSnqlMsg, legacyStartMsg, same_get k1, h1, h2, h3, same_select k2 k3, h4, same_get k4, h5, h6, same_groupby k5, h7, h8, hwh, h10,
      hh, ok_bind, error_bind]

theorem bound_refused [N : PyNumberText] {σ : SetOrders} (hσ : PossibleOrders σ) {b b' : LegacyBody} {entity c : Str} {req : RequestObj}
    (hb : (jsonToSnql b entity).1 = .ok req) (hc : TimeColumn entity c) {key s u : Str} (hk : key ∈ [c!"from_date", c!"to_date"])
    (hb' : SameBefore key b' b) (hv : Has b' key (.str s)) (hs : s ≠ []) (hd : ∀ t, ¬ LegacyDate s t) (hu : ShownDate s u) :
    jsonToSnqlMsg σ b' entity = .error (.valueError, some (u ++ c!" is not a recognized datetime")) := by
  have hb : jsonToSnqlMsg σ b entity = .ok req := ok_of_drop ((drop_conversion hσ b entity).trans hb)
  obtain ⟨col, hcol⟩ : ∃ x, mkColumnMsg (.str c) .none = .ok x :=
    ⟨_, ok_of_drop ((BuildMsg.drop_column _ _).trans (mkColumn_ident (timeColumn_ident hc)))⟩
  have hbad : ∀ o, timeConditionMsg c o (.str s) = .error (.valueError, some (u ++ c!" is not a recognized datetime")) := by
    intro o
    have hn : parseDatetime s = none := by
      cases h : parseDatetime s with
      | none => rfl
      | some t => exact absurd (parseDatetime_iff.1 h) (hd t)
    have ht : (Val.str s).truthy = true := by cases s with | nil => exact absurd rfl hs | cons => rfl
    rw [timeConditionMsg, if_pos ht, hcol, ok_bind, parseDateMsg, hn, shown_eq hu]
    rfl
  have same : ∀ k ∈ [c!"sample", c!"aggregations", c!"selected_columns", c!"arrayjoin", c!"groupby", c!"organization"],
      ∀ v, Has b' k v ↔ Has b k v := by
    intro k h
    apply hb'
    revert k
    simp only [List.mem_cons, List.not_mem_nil, or_false] at hk
    rcases hk with rfl | rfl <;> decide
  simp only [List.forall_mem_cons] at same
  obtain ⟨k1, k2, k3, k4, k5, k6, _⟩ := same
  simp only [jsonToSnqlMsg, legacyStartMsg, legacyWhereMsg, bind_eq_ok] at hb
  obtain ⟨q, ⟨smp, h1, en, h2, q0, h3, sel, h4, q1, h5, q2, h6, gs, h7, q3, h8, ws, ⟨org, h9, tms, h10, _⟩, _⟩, _⟩ := hb
  have htm : legacyTimesMsg b' entity = .error (.valueError, some (u ++ c!" is not a recognized datetime")) := by
    unfold legacyTimesMsg at h10 ⊢
    rw [timeColumn_iff.2 hc] at h10 ⊢
    simp only [bind_eq_ok] at h10
    obtain ⟨x, h11, _⟩ := h10
    simp only [List.mem_cons, List.not_mem_nil, or_false] at hk
    have hg := fun d => has_getD hv d
    rcases hk with rfl | rfl
    · simp only [LegacyBody.get, hg, hbad, error_bind]
    · simp only [same_get (hb' c!"from_date" (by decide)), h11, ok_bind]
      simp only [LegacyBody.get, hg, hbad, error_bind]
  simp only [jsonToSnqlMsg, legacyStartMsg, legacyWhereMsg, same_get k1, h1, h2, h3, same_select k2 k3, h4, same_get k4, h5, h6, same_groupby k5, h7,
    h8, same_get k6, h9, htm, ok_bind, error_bind]

omit D in
theorem extraDemands_eq {f : Field} {v : Val} {ds : List Demand} (h : extraDemand f v ds) : extraDemands f v = ds := by
  rcases h with ⟨rfl, rfl⟩ | ⟨hn, rfl⟩
  · rfl
  · cases v <;> first | exact absurd rfl hn | rfl

theorem extras_refused [N : PyNumberText] {σ : SetOrders} (hσ : PossibleOrders σ) {b b' : LegacyBody} {entity : Str} {req : RequestObj}
    (hb : (jsonToSnql b entity).1 = .ok req) (hs : SameBefore c!"limit" b' b) :
    RefusedBy (jsonToSnqlMsg σ b' entity) (allExtras b') := by
  have hb : jsonToSnqlMsg σ b entity = .ok req := ok_of_drop ((drop_conversion hσ b entity).trans hb)
  have k : ∀ k ∈ [c!"sample", c!"aggregations", c!"selected_columns", c!"arrayjoin", c!"groupby", c!"organization", c!"from_date", c!"to_date",
      c!"project", c!"conditions", c!"having", c!"orderby", c!"limitby"], ∀ v, Has b' k v ↔ Has b k v := by
    intro k h
    apply hs
    revert k
    decide
  simp only [List.forall_mem_cons] at k
  obtain ⟨k1, k2, k3, k4, k5, k6, k7, k8, k9, k10, k11, k12, k13, _⟩ := k
  have hst : legacyStartMsg σ b' entity = legacyStartMsg σ b entity := by
    simp only [legacyStartMsg, same_get k1, same_select k2 k3, same_get k4, same_groupby k5, legacyWhereMsg, same_get k6, same_times k7 k8,
      same_get k9, same_getD k10, legacyHavingMsg, same_getD k11]
  have fin : ∀ {q : Query}, Reach q → legacyFinishMsg σ b entity q = .ok req →
      RefusedBy (legacyFinishMsg σ b' entity q) (allExtras b') := by
    intro q hq hb
    unfold legacyFinishMsg at hb ⊢
    obtain ⟨q1, h1, _⟩ := bind_eq_ok.1 hb
    rw [same_get k13, h1, ok_bind]
    have r1 : Reach q1 := by
      unfold legacyLimitbyMsg at h1
      split at h1
      · obtain ⟨p, _, h1⟩ := bind_eq_ok.1 h1
        obtain ⟨c, _, h1⟩ := bind_eq_ok.1 h1
        obtain ⟨n, _, h1⟩ := bind_eq_ok.1 h1
        obtain ⟨l, _, h1⟩ := bind_eq_ok.1 h1
        exact set_reach hσ hq (f := .limitby) h1
      · cases h1; exact hq
    intro r
    have := MetricsMsg.by_bind (es := []) (extras_by hσ r1 b')
      (f := fun q => (.ok (legacyRequest b' entity q) : Except Raised RequestObj)) (fun a _ _ => MetricsMsg.by_ok _) r
    rwa [List.append_nil] at this
  unfold jsonToSnqlMsg at hb ⊢
  obtain ⟨q, h0, hb⟩ := bind_eq_ok.1 hb
  have hq := (says_start hσ).2 q h0
  rw [hst, h0, ok_bind, same_get k12]
  split at hb
  · rename_i ht
    obtain ⟨obs, h1, hb⟩ := bind_eq_ok.1 hb
    obtain ⟨q', h2, hb⟩ := bind_eq_ok.1 hb
    rw [if_pos ht, h1, ok_bind, h2, ok_bind]
    exact fin (set_reach hσ hq (f := .orderby) h2) hb
  · rename_i ht
    rw [if_neg ht]
    exact fin hq hb

end Verif.LegacyHalts
