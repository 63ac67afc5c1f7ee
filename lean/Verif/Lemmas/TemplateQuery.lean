import Verif.Lemmas.Template
import Verif.Lemmas.WF
import Verif.Lemmas.Built
import Verif.Lemmas.ValInd
import Verif.Model.Metrics

/-!
# Queries are templates of their values
-/

namespace Verif
open Spec

section Wf
variable [U : PyUnicode]

omit U in
theorem tidyAll_iff (xs : List Val) : tidyAll xs = true ↔ ∀ x ∈ xs, tidy x = true := by
  induction xs with
  | nil => simp [tidyAll]
  | cons x xs ih => simp [tidyAll, ih]

theorem tidy_wf {v : Val} (h : WF v) : tidy v = true := by
  induction h with
  | literal v h => cases h <;> rfl
  | list xs _ ih => simpa only [tidy, tidyAll_iff] using ih
  | tuple xs _ ih => simpa only [tidy, tidyAll_iff] using ih
  | curried f n ik is pk ps a _ _ _ _ h1 h2 _ _ ih1 ih2 =>
    simp only [tidy, Bool.and_eq_true, Bool.or_eq_true, bne_iff_ne, ne_eq, List.isEmpty_iff, tidyAll_iff]
    refine ⟨⟨⟨?_, ?_⟩, ih1⟩, ih2⟩
    · by_cases hk : ik = .absent
      · exact .inr (h1 hk)
      · exact .inl hk
    · by_cases hk : pk = .absent
      · exact .inr (h2 hk)
      · exact .inl hk
  | lam k ids b _ _ _ ih => simpa only [tidy] using ih
  | cond l o r _ _ _ _ _ ih1 ih2 => simp only [tidy, ih1, ih2, Bool.and_self]
  | boolCond cls o k cs _ _ _ _ _ ih => simpa only [tidy, tidyAll_iff] using ih
  | orderby e d _ _ ih => simpa only [tidy] using ih
  | _ => rfl

end Wf

/-! ### Clauses -/

section Clauses
variable {al : Bool}

/-- A template for a clause: nothing, or it begins with its keyword. -/
def ClauseShape (ps : List Piece) : Prop := ps = [] ∨ ∃ c t rest, ps = .fixed (c :: t) :: rest

/-- There is a template for the clause `t`. -/
def FitsClause (F : (Val → Val) → Except Err Str) (t : Str) : Prop :=
  ∃ ps, ClauseShape ps ∧ SlotsOk false ps ∧ fill (slotText false) ps = t ∧
    ∀ f, Replaces f → SlotsShown false f ps → F f = .ok (fill (fun v => slotText false (f v)) ps)

theorem fitsClause_fixed {F : (Val → Val) → Except Err Str} {t : Str} (h : ∀ f, Replaces f → F f = .ok t) : FitsClause F t := by
  cases t with
  | nil => exact ⟨[], .inl rfl, fun v hv => by simp at hv, rfl, fun f hf _ => h f hf⟩
  | cons c t => exact ⟨[.fixed (c :: t)], .inr ⟨c, t, [], rfl⟩, fun v hv => by simp at hv, by simp [fill], fun f hf _ => by simp [fill, h f hf]⟩

theorem revalueAll_isEmpty (f : Val → Val) (xs : List Val) : (revalueAll f xs).isEmpty = xs.isEmpty := by cases xs <;> rfl

/-- The items of a clause. -/
def itemsOf : Val → List Val
  | .list xs => xs
  | .tuple xs => xs
  | _ => []

theorem listItems_fits {F : (Val → Val) → Except Err (List Str)} {H : (Val → Val) → Except Err Str} {ts : List Str} {k sep : Str} {c : Char}
    (h : TemplatedAll false F ts) (hH : ∀ f as, Replaces f → F f = .ok as → H f = .ok (c :: k ++ [' '] ++ joinWith sep as)) :
    FitsClause H (c :: k ++ [' '] ++ joinWith sep ts) := by
  obtain ⟨pss, hs, ht, hF⟩ := h
  refine ⟨.fixed (c :: k ++ [' ']) :: joinPieces sep pss, .inr ⟨_, _, _, rfl⟩, fun v hv => ?_, ?_, fun f hf hsh => ?_⟩
  · obtain ⟨ps, hps, hv⟩ := slot_joinPieces (sep := sep) (pss := pss) (v := v) (by simpa using hv)
    exact hs ps hps v hv
  · simp [fill, fill_joinPieces, ht]
  · rw [hH f _ hf (hF f hf fun ps hps v hv => hsh v (by simp [slot_of_joined hps hv]))]
    simp [fill, fill_joinPieces]

theorem listClause_fits {c : Char} {k sep : Str} {v : Val} {t : Str} (hw : tidyAll (itemsOf v) = true)
    (h : listClause ⟨al, false⟩ (c :: k) sep v = .ok t) :
    FitsClause (fun f => listClause ⟨al, false⟩ (c :: k) sep (revalueClause f v)) t := by
  have go : ∀ xs, tidyAll xs = true → ∀ w : List Val → Val, (∀ ys, (w ys).truthy = !ys.isEmpty) → (∀ ys, (w ys).iter = .ok ys) →
      listClause ⟨al, false⟩ (c :: k) sep (w xs) = .ok t →
      FitsClause (fun f => listClause ⟨al, false⟩ (c :: k) sep (w (revalueAll f xs))) t := by
    intro xs hx w hw hi h
    simp only [listClause, hw, hi] at h
    by_cases he : xs.isEmpty = true
    · simp only [he, Bool.not_true, Bool.false_eq_true, if_false, Except.ok.injEq] at h
      exact fitsClause_fixed fun f _ => by simp [listClause, hw, revalueAll_isEmpty, he, h]
    · simp only [he, Bool.not_false, if_true, ok_bind, bind_eq_ok, Except.ok.injEq] at h
      obtain ⟨ts, hts, rfl⟩ := h
      refine listItems_fits (translateAll_fits xs ts hx hts) fun f as _ has => ?_
      simp [listClause, hw, hi, revalueAll_isEmpty, he, has]
  cases v <;> first
    | exact go _ hw .list (fun _ => rfl) (fun _ => rfl) h
    | exact go _ hw .tuple (fun _ => rfl) (fun _ => rfl) h
    | exact fitsClause_fixed fun _ _ => h

/-- The items in the clauses of a query. -/
def tidyBody (b : Body) : Bool :=
  tidyAll (itemsOf b.select) && tidyAll (itemsOf b.groupby) && tidyAll (itemsOf b.arrayJoin) && tidyAll (itemsOf b.where_) &&
  tidyAll (itemsOf b.having) && tidyAll (itemsOf b.orderby)

/-- The same for a query and its subqueries. -/
def tidyQuery : Query → Bool
  | .base _ b => tidyBody b
  | .nested q b => tidyQuery q && tidyBody b

theorem filter_clauses (r : Val → Str) (pss : List (List Piece)) (h : ∀ ps ∈ pss, ClauseShape ps) :
    (pss.map (fill r)).filter (fun c => !c.isEmpty) = (pss.filter fun ps => !ps.isEmpty).map (fill r) := by
  induction pss with
  | nil => rfl
  | cons ps pss ih =>
    have ih := ih fun q hq => h q (List.mem_cons_of_mem _ hq)
    rcases h ps (by simp) with rfl | ⟨c, t, rest, rfl⟩
    · simp [fill, ih]
    · simp [fill, ih]

theorem bodyClauses_fits {b : Body} {ts : List Str} (hw : tidyBody b = true) (h : bodyClauses ⟨al, false⟩ b = .ok ts) :
    ∃ pss : List (List Piece), (∀ ps ∈ pss, ClauseShape ps ∧ SlotsOk false ps) ∧ pss.map (fill (slotText false)) = ts ∧
      ∀ f, Replaces f → (∀ ps ∈ pss, SlotsShown false f ps) →
        bodyClauses ⟨al, false⟩ (revalueBody f b) = .ok (pss.map (fill (fun v => slotText false (f v)))) := by
  simp only [bodyClauses, bind_eq_ok, Except.ok.injEq] at h
  obtain ⟨c1, h1, c2, h2, c3, h3, c4, h4, c5, h5, c6, h6, c7, h7, c8, h8, c9, h9, c10, h10, c11, h11, rfl⟩ := h
  simp only [tidyBody, Bool.and_eq_true] at hw
  obtain ⟨⟨⟨⟨⟨w1, w2⟩, w3⟩, w4⟩, w5⟩, w6⟩ := hw
  obtain ⟨p1, s1, o1, t1, F1⟩ := listClause_fits w1 h1
  obtain ⟨p2, s2, o2, t2, F2⟩ := listClause_fits w2 h2
  obtain ⟨p3, s3, o3, t3, F3⟩ := listClause_fits w3 h3
  obtain ⟨p4, s4, o4, t4, F4⟩ := listClause_fits w4 h4
  obtain ⟨p5, s5, o5, t5, F5⟩ := listClause_fits w5 h5
  obtain ⟨p6, s6, o6, t6, F6⟩ := listClause_fits w6 h6
  obtain ⟨p7, s7, o7, t7, F7⟩ := fitsClause_fixed fun _ _ => h7
  obtain ⟨p8, s8, o8, t8, F8⟩ := fitsClause_fixed fun _ _ => h8
  obtain ⟨p9, s9, o9, t9, F9⟩ := fitsClause_fixed fun _ _ => h9
  obtain ⟨p10, s10, o10, t10, F10⟩ := fitsClause_fixed fun _ _ => h10
  obtain ⟨p11, s11, o11, t11, F11⟩ := fitsClause_fixed fun _ _ => h11
  refine ⟨[p1, p2, p3, p4, p5, p6, p7, p8, p9, p10, p11], ?_, ?_, fun f hf hs => ?_⟩
  · simp only [List.forall_mem_cons, List.not_mem_nil, false_implies, implies_true, and_true]
    exact ⟨⟨s1, o1⟩, ⟨s2, o2⟩, ⟨s3, o3⟩, ⟨s4, o4⟩, ⟨s5, o5⟩, ⟨s6, o6⟩, ⟨s7, o7⟩, ⟨s8, o8⟩, ⟨s9, o9⟩, ⟨s10, o10⟩, ⟨s11, o11⟩⟩
  · simp only [List.map_cons, List.map_nil, t1, t2, t3, t4, t5, t6, t7, t8, t9, t10, t11]
  · simp only [List.forall_mem_cons, List.not_mem_nil, false_implies, implies_true, and_true] at hs
    obtain ⟨k1, k2, k3, k4, k5, k6, k7, k8, k9, k10, k11⟩ := hs
    simp only [bodyClauses, revalueBody, F1 f hf k1, F2 f hf k2, F3 f hf k3, F4 f hf k4, F5 f hf k5, F6 f hf k6, F7 f hf k7, F8 f hf k8,
      F9 f hf k9, F10 f hf k10, F11 f hf k11, ok_bind, List.map_cons, List.map_nil]

/-- The clauses put together, after the template of the match. -/
theorem combine_fits {b : Body} {ts : List Str} {H M : (Val → Val) → Except Err Str} {sep head : Str} (pre post : Str) {c : Char} (hw : tidyBody b = true)
    (h : bodyClauses ⟨al, false⟩ b = .ok ts) (hM : Templated false M head)
    (hH : ∀ f mt ts, Replaces f → M f = .ok mt → bodyClauses ⟨al, false⟩ (revalueBody f b) = .ok ts →
      H f = .ok (combineClauses sep ((c :: pre ++ mt ++ post) :: ts))) :
    Templated false H (combineClauses sep ((c :: pre ++ head ++ post) :: ts)) := by
  obtain ⟨pss, hs, ht, hF⟩ := bodyClauses_fits hw h
  obtain ⟨ms, hms, hmt, hMF⟩ := hM
  have shape : ∀ ps ∈ (.fixed (c :: pre) :: (ms ++ [.fixed post])) :: pss, ClauseShape ps := by
    intro ps hps
    rcases List.mem_cons.1 hps with rfl | hps
    · exact .inr ⟨_, _, _, rfl⟩
    · exact (hs ps hps).1
  have text : ∀ r : Val → Str, combineClauses sep ((c :: pre ++ fill r ms ++ post) :: pss.map (fill r)) =
      fill r (joinPieces sep (((.fixed (c :: pre) :: (ms ++ [.fixed post])) :: pss).filter fun ps => !ps.isEmpty)) := by
    intro r
    rw [fill_joinPieces, combineClauses, ← filter_clauses r _ shape]
    simp [fill, fill_append]
  have slot_mem : ∀ v ps, ps ∈ pss → .slot v ∈ ps →
      .slot v ∈ joinPieces sep (((.fixed (c :: pre) :: (ms ++ [.fixed post])) :: pss).filter fun ps => !ps.isEmpty) := by
    intro v ps hps hv
    refine slot_of_joined (List.mem_filter.2 ⟨List.mem_cons_of_mem _ hps, ?_⟩) hv
    cases ps with
    | nil => simp at hv
    | cons _ _ => rfl
  have slot_mem' : ∀ v, .slot v ∈ ms →
      .slot v ∈ joinPieces sep (((.fixed (c :: pre) :: (ms ++ [.fixed post])) :: pss).filter fun ps => !ps.isEmpty) := by
    intro v hv
    exact slot_of_joined (List.mem_filter.2 ⟨List.mem_cons_self .., rfl⟩) (by simp [hv])
  refine ⟨joinPieces sep (((.fixed (c :: pre) :: (ms ++ [.fixed post])) :: pss).filter fun ps => !ps.isEmpty), fun v hv => ?_, ?_,
    fun f hf hsh => ?_⟩
  · obtain ⟨ps, hps, hv⟩ := slot_joinPieces hv
    rcases List.mem_cons.1 (List.mem_filter.1 hps).1 with rfl | hps
    · exact hms v (by simpa using hv)
    · exact (hs ps hps).2 v hv
  · rw [← text, ht, hmt]
  · rw [hH f _ _ hf (hMF f hf fun v hv => hsh v (slot_mem' v hv)) (hF f hf fun ps hps v hv => hsh v (slot_mem v ps hps hv)), text]

theorem printQuery_fits (q : Query) : ∀ sep t, tidyQuery q = true → printQuery sep q = .ok t →
    Templated false (fun f => printQuery sep (revalueQuery f q)) t := by
  induction q with
  | base mv b =>
    intro sep t hw h
    simp only [printQuery, bind_eq_ok, Except.ok.injEq] at h
    obtain ⟨mt, hm, ts, hts, rfl⟩ := h
    have := combine_fits (M := fun _ => .ok mt) (H := fun f => printQuery sep (revalueQuery f (.base mv b))) (sep := sep)
      c!"ATCH " [] (c := 'M') hw hts (fits_fixed fun _ _ => rfl) (fun f x ts hf hx hts => by
        cases hx
        simp only [revalueQuery, printQuery, hm, hts, ok_bind, List.append_nil])
    simpa using this
  | nested q b ih =>
    intro sep t hw h
    simp only [printQuery, bind_eq_ok, Except.ok.injEq] at h
    obtain ⟨mt, hm, ts, hts, rfl⟩ := h
    simp only [tidyQuery, Bool.and_eq_true] at hw
    have := combine_fits (H := fun f => printQuery sep (revalueQuery f (.nested q b))) (sep := sep)
      c!"ATCH { " c!" }" (c := 'M') hw.2 hts (ih _ _ hw.1 hm) (fun f x ts hf hx hts => by
        simp only [revalueQuery, printQuery, hx, hts, ok_bind])
    simpa using this

end Clauses

/-! ### Validation -/

section Checks
variable {f : Val → Val} (hf : Replaces f)
include hf

mutual
theorem revalue_findColumns : ∀ v, findColumns (revalue f v) = findColumns v
  | .list xs => by simp only [revalue, findColumns, revalue_allScalar hf]
  | .tuple xs => by simp only [revalue, findColumns, revalue_allScalar hf]
  | .curried _ n ik is pk ps a => by simp only [revalue, findColumns, revalue_findInExprs is, revalue_findInExprs ps]
  | .lam k ids b => by simp only [revalue, findColumns, revalue_findColumns b]
  | .cond l o r => by simp only [revalue, findColumns, revalue_findColumns l, revalue_findColumns r, revalue_isExpression hf]
  | .boolCond cls o k cs => by simp only [revalue, findColumns, revalue_findInAll cs]
  | .orderby e d => by simp only [revalue, findColumns, revalue_findColumns e]
  | .none => (hf.literal _ .none).finds
  | .bool b => (hf.literal _ (.bool b)).finds
  | .int b => (hf.literal _ (.int b)).finds
  | .float b => (hf.literal _ (.float b)).finds
  | .str b => (hf.literal _ (.str b)).finds
  | .bytes b => (hf.literal _ (.bytes b)).finds
  | .date b => (hf.literal _ (.date b)).finds
  | .datetime b => (hf.literal _ (.datetime b)).finds
  | .limitby .. | .join .. | .column _ | .aliased .. | .ident _
  | .limit _ | .offset _ | .granularity _ | .totals _ | .extrapolate _ | .entity _ | .storage _ | .rel _
  | .op _ | .boolOp _ | .direction _ | .dataModel _ | .other _ => rfl

theorem revalue_findInExprs : ∀ xs, findInExprs (revalueAll f xs) = findInExprs xs
  | [] => rfl
  | x :: xs => by simp only [revalueAll, findInExprs, revalue_isExpression hf, revalue_findColumns x, revalue_findInExprs xs]

theorem revalue_findInAll : ∀ xs, findInAll (revalueAll f xs) = findInAll xs
  | [] => rfl
  | x :: xs => by simp only [revalueAll, findInAll, revalue_findColumns x, revalue_findInAll xs]
end

omit hf in
theorem revalueClause_truthy (v : Val) : (revalueClause f v).truthy = v.truthy := by
  cases v <;> simp [revalueClause, Val.truthy, revalueAll_isEmpty]

theorem revalue_searchTerms (v : Val) : searchTerms (revalueClause f v) = searchTerms v := by
  simp only [searchTerms, revalueClause_truthy]
  cases v <;> first | rfl | simp only [revalueClause, Val.iter, Val.seq?, ok_bind, revalue_findInAll hf]

theorem revalue_searchBody (b : Body) : searchBody (revalueBody f b) = searchBody b := by
  simp only [searchBody, revalueBody, revalue_searchTerms hf]

variable [U : PyUnicode]

omit U in
theorem revalue_checkParams (xs : List Val) : checkParams (revalueAll f xs) = checkParams xs := by
  induction xs with
  | nil => rfl
  | cons x xs ih => simp only [revalueAll, checkParams, revalue_isParamExpr hf, revalue_isScalar hf, ih]

omit U in
theorem revalue_checkInits (xs : List Val) : checkInits (revalueAll f xs) = checkInits xs := by
  simp only [checkInits, revalueAll_map, List.all_map]
  congr 2
  funext x
  simp only [Function.comp, revalue_isColumn hf, revalue_isLiteral hf]

omit U in
theorem revalue_checkUnary (o : Op) (v : Val) : checkUnary o (revalue f v) = checkUnary o v := by
  have e : ∀ w : Val, w ≠ .none → checkUnary o w = if isUnary o then .error .invalidCondition else .ok () := by
    intro w hw
    cases w <;> first | rfl | exact absurd rfl hw
  by_cases hv : v = .none
  · rw [(revalue_none hf v).2 hv, hv]
  · rw [e _ hv, e _ fun h => hv ((revalue_none hf v).1 h)]

omit U in
theorem revalue_checkCondition (l : Val) (o r : Val) : checkCondition (revalue f l) o (revalue f r) = checkCondition l o r := by
  simp only [checkCondition, revalue_isColOrFn hf, revalue_checkUnary hf, checkRhs, revalue_isScalar hf]

omit U in
theorem revalue_checkItems (cs : List Val) : checkConditionItems (revalueAll f cs) = checkConditionItems cs := by
  have : (cs.map (revalue f)).all Val.isCondition = cs.all Val.isCondition := by
    rw [List.all_map]
    congr 1
    funext x
    exact revalue_isCondition hf x
  simp only [checkConditionItems, revalueAll_map, List.length_map, this]

omit hf in
theorem literal_validate {v : Val} (h : Literal v) : v.validate = .error .attributeError := by cases h <;> rfl

theorem revalue_validate (v : Val) : (revalue f v).validate = v.validate := by
  cases v <;> first
    | rfl
    | (rw [revalue, literal_validate (hf.literal _ (by constructor))]; rfl)
    | (simp only [revalue, Val.validate, revalue_checkInits hf, revalue_checkParams hf, revalue_isCurried hf, revalue_checkCondition hf,
        revalue_checkItems hf, revalue_isColOrFn hf]; done)

theorem revalue_validateAll (xs : List Val) : validateAll (revalueAll f xs) = validateAll xs := by
  induction xs with
  | nil => rfl
  | cons x xs ih => simp only [revalueAll, validateAll, revalue_validate hf, ih]

theorem revalue_listValidate (v : Val) : listValidate (revalueClause f v) = listValidate v := by
  cases v <;> first | rfl | simp only [revalueClause, listValidate, Val.iter, Val.seq?, ok_bind, revalue_validateAll hf]

theorem revalue_validateClauses (b : Body) : validateClauses (revalueBody f b) = validateClauses b := by
  simp only [validateClauses, revalueBody, revalue_listValidate hf]

omit U in
theorem revalue_innerNames (xs : List Val) : innerNames (revalueAll f xs) = innerNames xs := by
  have lit : ∀ v, Literal v → ∀ rest, innerNames (v :: rest) = innerNames rest := by
    intro v h rest
    cases h <;> rfl
  induction xs with
  | nil => rfl
  | cons x xs ih =>
    simp only [revalueAll]
    cases x <;> first
      | (simp only [revalue, innerNames, ih]; done)
      | (rw [revalue, lit _ (hf.literal _ (by constructor)), ih, lit _ (by constructor)])

omit U in
theorem revalue_validateSubquery (b : Body) (cols : List ColumnObj) : validateSubquery (revalueBody f b) cols = validateSubquery b cols := by
  simp only [validateSubquery, revalueBody]
  cases b.select <;> first | rfl | simp only [revalueClause, Val.iter, Val.seq?, ok_bind, revalue_innerNames hf]

omit U in
theorem revalue_combineChecks (b : Body) : combineChecks (revalueBody f b) = combineChecks b := by
  have : selectMissing (revalueClause f b.select) = selectMissing b.select := by
    cases b.select <;> first | rfl | simp only [revalueClause, selectMissing, Val.iter, Val.seq?, ok_bind, revalueAll_isEmpty]
  simp only [combineChecks, revalueBody, this, revalueClause_truthy]

omit hf U in
theorem revalueQuery_body (q : Query) : (revalueQuery f q).body = revalueBody f q.body := by cases q <;> rfl

theorem revalue_validateQuery (q : Query) : (revalueQuery f q).validate = q.validate := by
  induction q with
  | base m b =>
    simp only [revalueQuery, Query.validate, revalue_validateClauses hf, validateMatchBase, revalue_searchBody hf, revalue_combineChecks hf]
  | nested q b ih =>
    simp only [revalueQuery, Query.validate, ih, revalue_validateClauses hf, revalue_searchBody hf, revalueQuery_body,
      revalue_validateSubquery hf, revalue_combineChecks hf]

/-! ### The OR optimiser -/

omit U in
theorem revalue_collectRhs {s : Val} (hs : s.truthy = true) (hs' : (revalue f s).truthy = true) : ∀ cs,
    (∀ l r, .cond l .eq r ∈ cs → pyEq (revalue f l) (revalue f s) = pyEq l s) →
    collectRhs (revalue f s) (revalueAll f cs) = (collectRhs s cs).map (List.map (revalue f)) := by
  have lit : ∀ v, Literal v → ∀ x rest, collectRhs x (v :: rest) = none := by
    intro v h x rest
    cases h <;> rfl
  intro cs
  induction cs with
  | nil => intro _; rfl
  | cons c cs ih =>
    intro h
    have ih := ih fun l r hm => h l r (List.mem_cons_of_mem _ hm)
    simp only [revalueAll]
    cases c <;> first
      | rfl
      | (rw [revalue, lit _ (hf.literal _ (by constructor)), lit _ (by constructor)]; rfl)
      | skip
    rename_i l o r
    simp only [revalue, collectRhs, hs, hs', Bool.true_and]
    by_cases ho : o = .eq
    · subst ho
      simp only [h l r (by simp), ih]
      split
      · rfl
      · cases collectRhs s cs <;> rfl
    · simp [ho]

omit hf U in
theorem truthy_colOrFn {v : Val} (h : v.isColOrFn = true) : v.truthy = true := by
  cases v <;> first | rfl | (simp [Val.isColOrFn, Val.isColumn, Val.isCurried] at h)

omit U in
theorem revalue_optimizeCondition (c : Val) (hw : ∀ cls k cs, c = .boolCond cls .or k cs → ∀ l o r, .cond l o r ∈ cs → l.isColOrFn = true)
    (hk : ∀ cls k cs l r l' r', c = .boolCond cls .or k cs → .cond l .eq r ∈ cs → .cond l' .eq r' ∈ cs →
      pyEq (revalue f l) (revalue f l') = pyEq l l') :
    optimizeCondition (revalue f c) = (optimizeCondition c).map (Option.map (revalue f)) := by
  have lit : ∀ v, Literal v → optimizeCondition v = .ok none := by
    intro v h
    cases h <;> rfl
  cases c <;> first
    | rfl
    | (rw [revalue, lit _ (hf.literal _ (by constructor))]; rfl)
    | skip
  rename_i cls bo k cs
  cases bo with
  | and => rfl
  | or =>
    replace hw := hw cls k cs rfl
    replace hk := fun l r l' r' => hk cls k cs l r l' r' rfl
    cases cs with
    | nil => rfl
    | cons c cs =>
      have lit2 : ∀ v, Literal v → ∀ rest, optimizeCondition (.boolCond cls .or k (v :: rest)) = .ok none := by
        intro v h rest
        cases h <;> rfl
      simp only [revalue, revalueAll]
      cases c <;> first
        | rfl
        | (rw [revalue, lit2 _ (hf.literal _ (by constructor))]; rfl)
        | skip
      rename_i l o r
      by_cases ho : o = .eq
      · subst ho
        have hl := hw l .eq r (by simp)
        have ht := truthy_colOrFn hl
        have ht' := truthy_colOrFn (v := revalue f l) (by rw [revalue_isColOrFn hf]; exact hl)
        simp only [revalue, optimizeCondition, revalue_collectRhs hf ht ht' cs fun l' r' hm => hk l' r' l r (by simp [hm]) (by simp)]
        cases collectRhs l cs with
        | none => rfl
        | some rs =>
          have e : Val.list (revalue f r :: rs.map (revalue f)) = revalue f (.list (r :: rs)) := by
            simp [revalue, revalueAll, revalueAll_map]
          simp only [Option.map_some, mkCondition, e, revalue_checkCondition hf]
          cases checkCondition l (.op .in_) (.list (r :: rs)) <;> rfl
      · cases o <;> first | rfl | exact absurd rfl ho

omit U in
theorem revalue_optimizeLoop : ∀ xs, (∀ x ∈ xs, ∀ cls k cs, x = .boolCond cls .or k cs → ∀ l o r, .cond l o r ∈ cs → l.isColOrFn = true) →
    KeepsSides f xs → optimizeLoop (revalueAll f xs) = (optimizeLoop xs).map fun p => (revalueAll f p.1, p.2) := by
  intro xs
  induction xs with
  | nil => intro _ _; rfl
  | cons x xs ih =>
    intro hw hk
    have ih := ih (fun y hy => hw y (List.mem_cons_of_mem _ hy)) (fun cls k cs l r l' r' hm => hk cls k cs l r l' r' (List.mem_cons_of_mem _ hm))
    have hx := revalue_optimizeCondition hf x (hw x (by simp)) (fun cls k cs l r l' r' he => hk cls k cs l r l' r' (by simp [he]))
    simp only [revalueAll, optimizeLoop, ih, hx]
    cases optimizeCondition x with
    | error e => rfl
    | ok o =>
      cases optimizeLoop xs with
      | error e => cases o <;> rfl
      | ok p => cases o <;> rfl

/-- The left-hand sides of conditions joined by OR are columns or functions. -/
def SidesOk (xs : List Val) : Prop := ∀ x ∈ xs, ∀ cls k cs, x = .boolCond cls .or k cs → ∀ l o r, .cond l o r ∈ cs → l.isColOrFn = true

omit U in
theorem revalue_optimize (xs : List Val) (hw : SidesOk xs) (hk : KeepsSides f xs) :
    optimize (revalueAll f xs) = (optimize xs).map (Option.map (revalueAll f)) := by
  simp only [optimize, revalue_optimizeLoop hf xs hw hk]
  cases optimizeLoop xs with
  | error e => rfl
  | ok p =>
    obtain ⟨new, b⟩ := p
    cases b <;> rfl

theorem revalue_withBody (q : Query) (b : Body) : (revalueQuery f q).withBody (revalueBody f b) = (q.withBody b).map (revalueQuery f) := by
  cases q with
  | base m c =>
    simp only [revalueQuery, Query.withBody]
    cases m <;> rfl
  | nested i c =>
    simp only [revalueQuery, Query.withBody, mkNested, revalue_validateQuery hf]
    cases i.validate <;> rfl

theorem revalue_optimizeOf (q : Query) (hw : ∀ k xs, SeqOf q.body.where_ k xs → SidesOk xs) (hk : KeepsWhere q f) :
    (revalueQuery f q).optimize = q.optimize.map (revalueQuery f) := by
  have go : ∀ (w : Val) (mk : List Val → Val) (xs : List Val), w = mk xs → q.body.where_ = w →
      (∀ ys, revalueClause f (mk ys) = mk (revalueAll f ys)) → (∀ ys, mk ys ≠ .none) → (∀ ys, (mk ys).iter = .ok ys) → (∃ k, SeqOf w k xs) →
      (revalueQuery f q).optimize = q.optimize.map (revalueQuery f) := by
    intro w mk xs hmk hb hr hn hi hs
    obtain ⟨k, hs⟩ := hs
    have e : ∀ (q : Query) ys, q.body.where_ = mk ys → q.optimize = (do
        let o ← optimize ys
        match o with
        | some new => q.withBody { q.body with where_ := .list new }
        | none => .ok q) := by
      intro q ys h
      have := hn ys
      have hi := hi ys
      simp only [Query.optimize, h]
      generalize mk ys = z at this hi
      cases z <;> first | exact absurd rfl this | (simp only [hi, ok_bind]; rfl)
    have hb' : (revalueQuery f q).body.where_ = mk (revalueAll f xs) := by
      rw [revalueQuery_body, revalueBody, hb, hmk, hr]
    rw [e _ _ hb', e _ _ (hb.trans hmk), revalue_optimize hf xs (hw k xs (hb ▸ hs)) (hk k xs (hb ▸ hs))]
    cases optimize xs with
    | error e => rfl
    | ok o =>
      cases o with
      | none => rfl
      | some new =>
        have := revalue_withBody hf q { q.body with where_ := .list new }
        change (revalueQuery f q).withBody { (revalueQuery f q).body with where_ := .list (revalueAll f new) } = (q.withBody _).map (revalueQuery f)
        rw [← this, revalueQuery_body]
        rfl
  have items : ∀ xs : List Val, (∀ x ∈ xs, Literal x) → optimize xs = .ok none := by
    intro xs hx
    have : optimizeLoop xs = .ok (xs, false) := by
      induction xs with
      | nil => rfl
      | cons x xs ih =>
        have h1 : optimizeCondition x = .ok none := by cases hx x (by simp) <;> rfl
        simp only [optimizeLoop, h1, ih fun y hy => hx y (List.mem_cons_of_mem _ hy), ok_bind]
    simp only [optimize, this, ok_bind]
    rfl
  cases hb : q.body.where_ <;> first
    | exact go _ .list _ rfl hb (fun _ => rfl) (fun _ h => nomatch h) (fun _ => rfl) ⟨_, .list _⟩
    | exact go _ .tuple _ rfl hb (fun _ => rfl) (fun _ h => nomatch h) (fun _ => rfl) ⟨_, .tuple _⟩
    | (simp only [Query.optimize, revalueQuery_body, revalueBody, hb, revalueClause, Val.iter, Val.seq?, error_bind]; rfl)
    | (simp only [Query.optimize, revalueQuery_body, revalueBody, hb, revalueClause, Val.iter, Val.seq?, ok_bind]
       rw [items _ (by simp only [List.mem_map]; rintro _ ⟨_, _, rfl⟩; constructor)]
       rfl)

end Checks

section Built
variable [U : PyUnicode]

theorem tidy_items {b : Body} (h : ItemsBuilt b) : tidyBody b = true := by
  have key : ∀ v ∈ [b.select, b.groupby, b.arrayJoin, b.where_, b.having, b.orderby], tidyAll (itemsOf v) = true := by
    intro v hv
    rw [tidyAll_iff]
    intro x hx
    refine tidy_wf (built_wf ?_)
    cases v <;> first
      | (simp [itemsOf] at hx; done)
      | exact h _ hv _ _ (.list _) x hx
      | exact h _ hv _ _ (.tuple _) x hx
  simp only [List.forall_mem_cons, List.not_mem_nil, false_implies, implies_true, and_true] at key
  obtain ⟨k1, k2, k3, k4, k5, k6⟩ := key
  simp only [tidyBody, k1, k2, k3, k4, k5, k6, Bool.and_self]

theorem tidy_query {q : Query} (h : AllItemsBuilt q) : tidyQuery q = true := by
  induction q with
  | base m b => exact tidy_items h
  | nested q b ih => simp only [tidyQuery, ih h.1, tidy_items h.2, Bool.and_self]

theorem Spec.AllItemsBuilt.body {q : Query} (h : AllItemsBuilt q) : ItemsBuilt q.body := by
  cases q with
  | base m b => exact h
  | nested q b => exact h.2

theorem sides_of_built {xs : List Val} (h : ∀ x ∈ xs, Built x) : SidesOk xs := by
  intro x hx cls k cs hc l o r hm
  have hw := built_wf (h x hx)
  subst hc
  cases hw with
  | literal _ h => cases h
  | boolCond _ _ _ _ hcs _ _ _ _ =>
    have := hcs _ hm
    cases this with
    | literal _ h => cases h
    | cond _ _ _ _ _ hl _ _ => cases hl <;> rfl

omit U in
theorem collectRhs_tidy {s : Val} : ∀ {cs rs : List Val}, collectRhs s cs = some rs → tidyAll cs = true → tidyAll rs = true := by
  intro cs
  induction cs with
  | nil => intro rs h _; simp only [collectRhs, Option.some.injEq] at h; subst h; rfl
  | cons c cs ih =>
    intro rs h ht
    simp only [tidyAll, Bool.and_eq_true] at ht
    cases c <;> first | (simp [collectRhs] at h; done) | skip
    rename_i l o r
    simp only [collectRhs] at h
    split at h
    · cases h
    · simp only [Option.map_eq_some_iff] at h
      obtain ⟨rs', h', rfl⟩ := h
      simp only [tidy, Bool.and_eq_true] at ht
      simp only [tidyAll, ht.1.2, ih h' ht.2, Bool.and_self]

omit U in
theorem optimizeCondition_tidy {c n : Val} (h : optimizeCondition c = .ok (some n)) (ht : tidy c = true) : tidy n = true := by
  unfold optimizeCondition at h
  split at h
  · split at h
    · split at h
      · cases h
      · rename_i rs hr
        simp only [bind_eq_ok, mkCondition, Except.ok.injEq, Option.some.injEq] at h
        obtain ⟨_, ⟨o, _, rfl⟩, rfl⟩ := h
        simp only [tidy, tidyAll, Bool.and_eq_true] at ht
        simp only [tidy, tidyAll, ht.1.1, ht.1.2, collectRhs_tidy hr ht.2, Bool.and_self]
    · cases h
  · cases h

omit U in
theorem optimizeLoop_tidy : ∀ {xs new : List Val} {o : Bool}, optimizeLoop xs = .ok (new, o) → tidyAll xs = true → tidyAll new = true := by
  intro xs
  induction xs with
  | nil => intro new o h _; cases h; rfl
  | cons x xs ih =>
    intro new o h ht
    simp only [optimizeLoop, bind_eq_ok] at h
    obtain ⟨res, h1, ⟨rest, opt⟩, h2, h⟩ := h
    simp only [tidyAll, Bool.and_eq_true] at ht
    cases res with
    | none => cases h; simp only [tidyAll, ht.1, ih h2 ht.2, Bool.and_self]
    | some n => cases h; simp only [tidyAll, optimizeCondition_tidy h1 ht.1, ih h2 ht.2, Bool.and_self]

theorem optimize_tidy {q o : Query} (h : q.optimize = .ok o) (ht : tidyQuery q = true) : tidyQuery o = true := by
  have hb : tidyBody q.body = true := by
    cases q with
    | base m b => exact ht
    | nested q b => simp only [tidyQuery, Bool.and_eq_true] at ht; exact ht.2
  unfold Query.optimize at h
  split at h
  · cases h; exact ht
  · simp only [bind_eq_ok] at h
    obtain ⟨xs, hx, r, hr, h⟩ := h
    cases r with
    | none => cases h; exact ht
    | some new =>
      have hnew : tidyAll new = true := by
        simp only [optimize, bind_eq_ok] at hr
        obtain ⟨⟨n, b⟩, hl, hr⟩ := hr
        have : n = new := by
          cases b <;> simp at hr
          exact hr
        subst this
        refine optimizeLoop_tidy hl ?_
        simp only [tidyBody, Bool.and_eq_true] at hb
        have := hb.1.1.2
        have lits : ∀ xs : List Val, (∀ x ∈ xs, Literal x) → tidyAll xs = true := by
          intro xs hxs
          rw [tidyAll_iff]
          intro x hx
          cases hxs x hx <;> rfl
        generalize q.body.where_ = w at hx this
        cases w <;> simp only [Val.iter, Val.seq?, Except.ok.injEq, reduceCtorEq] at hx <;> subst hx <;> first
          | exact this
          | exact lits _ (by simp only [List.mem_map]; rintro _ ⟨_, _, rfl⟩; constructor)
      have hb' : tidyBody { q.body with where_ := .list new } = true := by
        simp only [tidyBody, Bool.and_eq_true] at hb ⊢
        exact ⟨⟨⟨hb.1.1.1, by simpa only [itemsOf] using hnew⟩, hb.1.2⟩, hb.2⟩
      cases q with
      | base m b =>
        simp only [Query.withBody, mkQuery] at h
        split at h
        · cases h
          exact hb'
        · cases h
      | nested i b =>
        simp only [Query.withBody, mkNested] at h
        split at h
        · cases h
          simp only [tidyQuery, Bool.and_eq_true] at ht ⊢
          exact ⟨ht.1, hb'⟩
        · cases h

end Built

/-! ### Filters of metrics queries -/

section Filters

theorem rhsMql_fits {a : Bool} {o : Op} {r : Val} {t : Str} (hw : tidy r = true) (h : rhsMql ⟨a, true⟩ o r = .ok t) :
    Templated true (fun f => rhsMql ⟨a, true⟩ o (revalue f r)) t := by
  have red : ∀ f, Replaces f → rhsMql ⟨a, true⟩ o (revalue f r) = if isUnary o then .ok [] else translate ⟨a, true⟩ (revalue f r) := by
    intro f hf
    simp only [rhsMql, revalue_isCurried hf, revalue_isColumn hf, revalue_isScalar hf] at h ⊢
    split
    · rfl
    · rename_i hu
      simp only [if_neg hu] at h
      split
      · rename_i hc; simp [hc] at h
      · rename_i hc
        simp only [if_neg hc] at h
        split
        · rfl
        · rename_i hcol
          simp only [if_neg hcol, bind_eq_ok] at h
          obtain ⟨b, hb, h⟩ := h
          cases b
          · simp at h
          · simp [hb]
  by_cases hu : isUnary o = true
  · have : t = [] := by simpa [rhsMql, hu, eq_comm] using h
    subst this
    exact fits_fixed fun f hf => by rw [red f hf, if_pos hu]
  · have ht : translate ⟨a, true⟩ r = .ok t := by
      simp only [rhsMql, if_neg hu] at h
      split at h
      · cases h
      · split at h
        · exact h
        · simp only [bind_eq_ok] at h
          obtain ⟨b, _, h⟩ := h
          cases b
          · simp at h
          · simpa using h
    obtain ⟨ps, h1, h2, h3⟩ := translate_fits r t hw ht
    exact ⟨ps, h1, h2, fun f hf hs => (red f hf).trans ((if_neg hu).trans (h3 f hf hs))⟩

mutual
theorem condMql_fits {a : Bool} : ∀ v t, tidy v = true → condMql ⟨a, true⟩ v = .ok t → Templated true (fun f => condMql ⟨a, true⟩ (revalue f v)) t
  | .cond l o r, t, hw, h => by
    simp only [condMql, bind_eq_ok, Except.ok.injEq] at h
    obtain ⟨rs, hr, ls, hl, rfl⟩ := h
    simp only [tidy, Bool.and_eq_true] at hw
    have := fits_pair (H := fun f => do
        let rs ← rhsMql ⟨a, true⟩ o (revalue f r)
        let ls ← translate ⟨a, true⟩ (revalue f l)
        .ok (ls ++ [':'] ++ rs)) [':'] (translate_fits l ls hw.1 hl) (rhsMql_fits hw.2 hr) fun f x y hf hx hy => by simp only [hx, hy, ok_bind]
    have := fits_around (H := fun f => condMql ⟨a, true⟩ (revalue f (.cond l o r))) (mqlNeg o) [] this fun f x hf hx => by
      simp only [bind_eq_ok, Except.ok.injEq] at hx
      obtain ⟨y, hy, z, hz, rfl⟩ := hx
      simp only [revalue, condMql, hy, hz, ok_bind, List.append_nil, List.append_assoc]
    simpa only [List.append_nil, List.append_assoc] using this
  | .boolCond cls op k cs, t, hw, h => by
    simp only [condMql, bind_eq_ok, Except.ok.injEq] at h
    obtain ⟨ts, hts, rfl⟩ := h
    simp only [tidy] at hw
    exact fits_join ['('] ([' '] ++ op.value ++ [' ']) [')'] (condMqlAll_fits cs ts hw hts) fun f as hf has => by simp only [revalue, condMql, has, ok_bind]
  | .none, _, _, h | .bool _, _, _, h | .int _, _, _, h | .float _, _, _, h | .str _, _, _, h | .bytes _, _, _, h | .date _, _, _, h
  | .datetime _, _, _, h | .list _, _, _, h | .tuple _, _, _, h | .curried .., _, _, h | .lam .., _, _, h | .orderby .., _, _, h
  | .limitby .., _, _, h | .join .., _, _, h | .column _, _, _, h | .aliased .., _, _, h | .ident _, _, _, h
  | .limit _, _, _, h | .offset _, _, _, h | .granularity _, _, _, h | .totals _, _, _, h | .extrapolate _, _, _, h | .entity _, _, _, h
  | .storage _, _, _, h | .rel _, _, _, h | .op _, _, _, h | .boolOp _, _, _, h | .direction _, _, _, h | .dataModel _, _, _, h
  | .other _, _, _, h => by simp [condMql] at h

theorem condMqlAll_fits {a : Bool} : ∀ xs ts, tidyAll xs = true → condMqlAll ⟨a, true⟩ xs = .ok ts →
    TemplatedAll true (fun f => condMqlAll ⟨a, true⟩ (revalueAll f xs)) ts
  | [], ts, _, h => by
    cases h
    exact fitsAll_nil fun _ _ => rfl
  | x :: xs, ts, hw, h => by
    simp only [tidyAll, Bool.and_eq_true] at hw
    simp only [condMqlAll] at h
    by_cases hc : x.isCondition = true
    · simp only [if_pos hc, bind_eq_ok, Except.ok.injEq] at h
      obtain ⟨t, ht, ts, hts, rfl⟩ := h
      exact fitsAll_cons (condMql_fits x t hw.1 ht) (condMqlAll_fits xs ts hw.2 hts) fun f y z hf hy hz => by
        simp only [revalueAll, condMqlAll, revalue_isCondition hf, if_pos hc, hy, hz, ok_bind]
    · simp only [if_neg hc] at h
      obtain ⟨pss, h1, h2, h3⟩ := condMqlAll_fits xs ts hw.2 h
      exact ⟨pss, h1, h2, fun f hf hs => by simp only [revalueAll, condMqlAll, revalue_isCondition hf, if_neg hc]; exact h3 f hf hs⟩
end

theorem filtersMql_fits {v : Val} {t : Str} (hw : ∀ k xs, SeqOf v k xs → ∀ x ∈ xs, tidy x = true) (h : filtersMql v = .ok t) :
    Templated true (fun f => filtersMql (revalueClause f v)) t := by
  have go : ∀ (mk : List Val → Val) xs, v = mk xs → (∃ k, SeqOf v k xs) → (∀ f ys, revalueClause f (mk ys) = mk (revalueAll f ys)) →
      (∀ ys, (mk ys).given = true ∧ iterItems (mk ys) = .ok ys) → Templated true (fun f => filtersMql (revalueClause f v)) t := by
    intro mk xs hv hs hr hg
    obtain ⟨k, hs⟩ := hs
    have hwx := (tidyAll_iff xs).2 (hw k xs hs)
    subst hv
    simp only [filtersMql, (hg xs).1, (hg xs).2, if_true, ok_bind, bind_eq_ok, Except.ok.injEq] at h
    obtain ⟨ts, hts, rfl⟩ := h
    exact fits_join ['{'] c!" AND " ['}'] (condMqlAll_fits xs ts hwx hts) fun f as hf has => by
      change condMqlAll .mql _ = _ at has
      simp only [hr, filtersMql, (hg _).1, (hg _).2, if_true, ok_bind, has]
  cases v <;> first
    | exact go .list _ rfl ⟨_, .list _⟩ (fun _ _ => rfl) fun _ => ⟨rfl, rfl⟩
    | exact go .tuple _ rfl ⟨_, .tuple _⟩ (fun _ _ => rfl) fun _ => ⟨rfl, rfl⟩
    | exact fits_fixed fun _ _ => h

end Filters

/-! ### Equality -/

section Equality
variable {f : Val → Val}

theorem revalue_pyEqList : ∀ {as bs : List Val}, (∀ a ∈ as, ∀ b ∈ bs, pyEq (revalue f a) (revalue f b) = pyEq a b) →
    pyEqList (revalueAll f as) (revalueAll f bs) = pyEqList as bs
  | [], [], _ => rfl
  | [], _ :: _, _ => rfl
  | _ :: _, [], _ => rfl
  | a :: as, b :: bs, h => by
    simp only [revalueAll, pyEqList]
    rw [h a (by simp) b (by simp), revalue_pyEqList fun x hx y hy => h x (by simp [hx]) y (by simp [hy])]

theorem pyEq_literal {a b : Val} (h : Literal a) (h' : ¬ Literal b) : pyEq a b = false ∧ pyEq b a = false := by
  cases h <;> cases b <;> first
    | exact ⟨rfl, rfl⟩
    | exact absurd (by constructor) h'

theorem revalue_literal (v : Val) : (Literal v ∧ revalue f v = f v) ∨ (¬ Literal v ∧ ¬ Literal (revalue f v)) := by
  cases v <;> first
    | exact .inl ⟨by constructor, rfl⟩
    | exact .inr ⟨nofun, nofun⟩

theorem revalue_pyEq (hf : Replaces f) (he : ∀ v w, Literal v → Literal w → pyEq (f v) (f w) = pyEq v w) :
    ∀ a b, pyEq (revalue f a) (revalue f b) = pyEq a b := by
  intro a
  induction a using Val.childInd with
  | step v ih =>
    intro b
    rcases revalue_literal (f := f) v with ⟨hv, ev⟩ | ⟨hv, hv'⟩
    · rcases revalue_literal (f := f) b with ⟨hb, eb⟩ | ⟨hb, hb'⟩
      · rw [ev, eb, he v b hv hb]
      · rw [ev, (pyEq_literal (hf.literal v hv) hb').1, (pyEq_literal hv hb).1]
    · rcases revalue_literal (f := f) b with ⟨hb, eb⟩ | ⟨hb, hb'⟩
      · rw [eb, (pyEq_literal (hf.literal b hb) hv').2, (pyEq_literal hb hv).2]
      · clear hv' hb'
        cases v <;> first
          | exact absurd (by constructor) hv
          | skip
        all_goals cases b <;> first
          | rfl
          | exact absurd (by constructor) hb
          | skip
        all_goals simp only [Val.children] at ih
        case list.list => exact revalue_pyEqList fun x hx y _ => ih x hx y
        case tuple.tuple => exact revalue_pyEqList fun x hx y _ => ih x hx y
        case curried.curried =>
          simp only [revalue, pyEq]
          rw [revalue_pyEqList fun x hx y _ => ih x (by simp [hx]) y, revalue_pyEqList fun x hx y _ => ih x (by simp [hx]) y]
        case lam.lam => simp only [revalue, pyEq, ih _ (List.mem_singleton_self _)]
        case orderby.orderby => simp only [revalue, pyEq, ih _ (List.mem_singleton_self _)]
        case cond.cond l o r l' o' r' => simp only [revalue, pyEq, ih l (by simp) l', ih r (by simp) r']
        case boolCond.boolCond => simp only [revalue, pyEq, revalue_pyEqList fun x hx y _ => ih x hx y]

end Equality
end Verif
