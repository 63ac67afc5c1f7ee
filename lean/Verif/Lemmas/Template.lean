import Verif.Spec.Template
import Verif.Lemmas.Str

/-!
# Texts are templates of the values in a query
-/

namespace Verif
open Spec

/-! ### What does not depend on the values -/

theorem Spec.Literal.col {v : Val} (h : Literal v) : v.isColumn = false := by cases h <;> rfl
theorem Spec.Literal.fn {v : Val} (h : Literal v) : v.isCurried = false := by cases h <;> rfl
theorem Spec.Literal.cnd {v : Val} (h : Literal v) : v.isCondition = false := by cases h <;> rfl
theorem Spec.Literal.par {v : Val} (h : Literal v) : v.isParamExpr = false := by cases h <;> rfl
theorem Spec.Literal.expr {v : Val} (h : Literal v) : v.isExpression = false := by cases h <;> rfl
theorem Spec.Literal.lit {v : Val} (h : Literal v) : isLiteral v = true := by cases h <;> rfl
theorem Spec.Literal.scal {v : Val} (h : Literal v) : isScalar v = .ok true := by cases h <;> rfl
theorem Spec.Literal.finds {v : Val} (h : Literal v) : findColumns v = .ok [] := by cases h <;> rfl
theorem Spec.Literal.same {v : Val} (h : Literal v) (a m : Bool) : translate ⟨a, m⟩ v = translate ⟨false, m⟩ v := by cases h <;> rfl

section Same
variable {f : Val → Val} (hf : Replaces f)
include hf

theorem revalue_isColumn (v : Val) : (revalue f v).isColumn = v.isColumn := by
  cases v <;> first | rfl | exact (hf.literal _ (by constructor)).col
theorem revalue_isCurried (v : Val) : (revalue f v).isCurried = v.isCurried := by
  cases v <;> first | rfl | exact (hf.literal _ (by constructor)).fn
theorem revalue_isColOrFn (v : Val) : (revalue f v).isColOrFn = v.isColOrFn := by
  simp only [Val.isColOrFn, revalue_isColumn hf, revalue_isCurried hf]
theorem revalue_isCondition (v : Val) : (revalue f v).isCondition = v.isCondition := by
  cases v <;> first | rfl | exact (hf.literal _ (by constructor)).cnd
theorem revalue_isParamExpr (v : Val) : (revalue f v).isParamExpr = v.isParamExpr := by
  cases v <;> first | rfl | exact (hf.literal _ (by constructor)).par
theorem revalue_isExpression (v : Val) : (revalue f v).isExpression = v.isExpression := by
  cases v <;> first | rfl | exact (hf.literal _ (by constructor)).expr
theorem revalue_isLiteral (v : Val) : isLiteral (revalue f v) = isLiteral v := by
  cases v <;> first | rfl | exact (hf.literal _ (by constructor)).lit

theorem revalue_none (v : Val) : revalue f v = .none ↔ v = .none := by
  cases v <;> first | exact hf.none _ (by constructor) | simp [revalue]

mutual
theorem revalue_isScalar : ∀ v, isScalar (revalue f v) = isScalar v
  | .list xs => by simp only [revalue, isScalar, revalue_allScalar xs]
  | .tuple xs => by simp only [revalue, isScalar, revalue_allScalar xs]
  | .none => (hf.literal _ .none).scal
  | .bool b => (hf.literal _ (.bool b)).scal
  | .int b => (hf.literal _ (.int b)).scal
  | .float b => (hf.literal _ (.float b)).scal
  | .str b => (hf.literal _ (.str b)).scal
  | .bytes b => (hf.literal _ (.bytes b)).scal
  | .date b => (hf.literal _ (.date b)).scal
  | .datetime b => (hf.literal _ (.datetime b)).scal
  | .column _ | .curried .. | .ident _ | .lam ..
  | .aliased .. | .cond .. | .boolCond .. | .orderby .. | .limitby .. | .limit _ | .offset _ | .granularity _ | .totals _
  | .extrapolate _ | .entity _ | .storage _ | .rel _ | .join .. | .op _ | .boolOp _ | .direction _ | .dataModel _ | .other _ => rfl

theorem revalue_allScalar : ∀ xs, allScalar (revalueAll f xs) = allScalar xs
  | [] => rfl
  | x :: xs => by simp only [revalueAll, allScalar, revalue_isScalar x, revalue_isExpression hf, revalue_allScalar xs]
end

theorem revalue_usesParam (v : Val) : usesParam (revalue f v) = usesParam v := by
  simp only [usesParam, revalue_isParamExpr hf, revalue_isScalar hf]

theorem revalue_rhsText (o : Op) (v : Val) (t : Except Err Str) : rhsText o (revalue f v) t = rhsText o v t := by
  simp only [rhsText, revalue_isColOrFn hf, revalue_isScalar hf]

end Same

theorem revalueAll_map (f : Val → Val) (xs : List Val) : revalueAll f xs = xs.map (revalue f) := by
  induction xs with
  | nil => rfl
  | cons x xs ih => simp [revalueAll, ih]

/-! ### Templates -/

theorem fill_append (r : Val → Str) (ps qs : List Piece) : fill r (ps ++ qs) = fill r ps ++ fill r qs := by
  induction ps with
  | nil => rfl
  | cons p ps ih => cases p <;> simp [fill, ih]

theorem fill_congr {r r' : Val → Str} {ps : List Piece} (h : ∀ v, .slot v ∈ ps → r v = r' v) : fill r ps = fill r' ps := by
  induction ps with
  | nil => rfl
  | cons p ps ih =>
    have := ih fun v hv => h v (List.mem_cons_of_mem _ hv)
    cases p with
    | fixed t => simp only [fill, this]
    | slot v => simp only [fill, this, h v (List.mem_cons_self ..)]

/-- The text of a literal, if it has one. -/
def slotText (m : Bool) (v : Val) : Str :=
  match translate ⟨false, m⟩ v with
  | .ok t => t
  | .error _ => []

/-- All slots are for literals that have a text. -/
def SlotsOk (m : Bool) (ps : List Piece) : Prop := ∀ v, .slot v ∈ ps → Literal v ∧ ∃ u, translate ⟨false, m⟩ v = .ok u

/-- The values in the slots have texts after the replacement. -/
def SlotsShown (m : Bool) (f : Val → Val) (ps : List Piece) : Prop := ∀ v, .slot v ∈ ps → ∃ u, translate ⟨false, m⟩ (f v) = .ok u

/-- There is a template for `t`. -/
def Templated (m : Bool) (F : (Val → Val) → Except Err Str) (t : Str) : Prop :=
  ∃ ps, SlotsOk m ps ∧ fill (slotText m) ps = t ∧
    ∀ f, Replaces f → SlotsShown m f ps → F f = .ok (fill (fun v => slotText m (f v)) ps)

/-- There are templates for several texts. -/
def TemplatedAll (m : Bool) (F : (Val → Val) → Except Err (List Str)) (ts : List Str) : Prop :=
  ∃ pss : List (List Piece), (∀ ps ∈ pss, SlotsOk m ps) ∧ pss.map (fill (slotText m)) = ts ∧
    ∀ f, Replaces f → (∀ ps ∈ pss, SlotsShown m f ps) → F f = .ok (pss.map (fill (fun v => slotText m (f v))))

theorem slotText_eq {m : Bool} {v : Val} {t : Str} (h : translate ⟨false, m⟩ v = .ok t) : slotText m v = t := by
  simp only [slotText, h]

theorem Templated.stands {m : Bool} {F : (Val → Val) → Except Err Str} {t : Str} (h : Templated m F t) (may : (Val → Val) → Prop) (G : (Val → Val) → Except Err Str)
    (hG : ∀ f, Replaces f → may f → G f = F f) : ∃ ps, Stands m t may G ps := by
  obtain ⟨ps, hs, ht, hF⟩ := h
  refine ⟨ps, fun v hv => (hs v hv).1, ⟨slotText m, fun v hv => ?_, ht.symm⟩, fun f text hf hm hl => ?_⟩
  · obtain ⟨_, u, hu⟩ := hs v hv
    rw [slotText_eq hu]
    exact hu
  · rw [hG f hf hm, hF f hf fun v hv => ⟨_, hl v hv⟩]
    exact congrArg _ (fill_congr fun v hv => slotText_eq (hl v hv))

theorem fits_fixed {m : Bool} {F : (Val → Val) → Except Err Str} {t : Str} (h : ∀ f, Replaces f → F f = .ok t) : Templated m F t :=
  ⟨[.fixed t], fun v hv => by simp at hv, by simp [fill], fun f hf _ => by simp [fill, h f hf]⟩

theorem fits_slot {a m : Bool} {v : Val} {t : Str} (hv : Literal v) (h : translate ⟨a, m⟩ v = .ok t)
    (hr : ∀ f, revalue f v = f v) : Templated m (fun f => translate ⟨a, m⟩ (revalue f v)) t := by
  rw [hv.same] at h
  refine ⟨[.slot v], fun w hw => ?_, by simp [fill, slotText_eq h], fun f hf hs => ?_⟩
  · simp only [List.mem_singleton, Piece.slot.injEq] at hw
    subst hw
    exact ⟨hv, _, h⟩
  · obtain ⟨u, hu⟩ := hs v (by simp)
    simp only [hr, (hf.literal v hv).same, hu, fill, slotText_eq hu, List.append_nil]

theorem fits_around {m : Bool} {F H : (Val → Val) → Except Err Str} {t : Str} (pre post : Str) (h : Templated m F t)
    (hH : ∀ f a, Replaces f → F f = .ok a → H f = .ok (pre ++ a ++ post)) : Templated m H (pre ++ t ++ post) := by
  obtain ⟨ps, hs, ht, hF⟩ := h
  refine ⟨.fixed pre :: (ps ++ [.fixed post]), fun v hv => hs v (by simpa using hv), ?_, fun f hf hsh => ?_⟩
  · simp [fill, fill_append, ht]
  · rw [hH f _ hf (hF f hf fun v hv => hsh v (by simp [hv]))]
    simp [fill, fill_append]

theorem fits_pair {m : Bool} {F G H : (Val → Val) → Except Err Str} {s t : Str} (mid : Str) (h : Templated m F s) (h' : Templated m G t)
    (hH : ∀ f a b, Replaces f → F f = .ok a → G f = .ok b → H f = .ok (a ++ mid ++ b)) : Templated m H (s ++ mid ++ t) := by
  obtain ⟨ps, hs, ht, hF⟩ := h
  obtain ⟨qs, hs', ht', hG⟩ := h'
  refine ⟨ps ++ .fixed mid :: qs, fun v hv => ?_, ?_, fun f hf hsh => ?_⟩
  · rcases List.mem_append.1 hv with hv | hv
    · exact hs v hv
    · exact hs' v (by simpa using hv)
  · simp [fill, fill_append, ht, ht']
  · rw [hH f _ _ hf (hF f hf fun v hv => hsh v (by simp [hv])) (hG f hf fun v hv => hsh v (by simp [hv]))]
    simp [fill, fill_append]

theorem fitsAll_nil {m : Bool} {F : (Val → Val) → Except Err (List Str)} (h : ∀ f, Replaces f → F f = .ok []) : TemplatedAll m F [] :=
  ⟨[], by simp, rfl, fun f hf _ => by simp [h f hf]⟩

theorem fitsAll_cons {m : Bool} {F : (Val → Val) → Except Err Str} {G H : (Val → Val) → Except Err (List Str)} {t : Str} {ts : List Str}
    (h : Templated m F t) (h' : TemplatedAll m G ts)
    (hH : ∀ f a b, Replaces f → F f = .ok a → G f = .ok b → H f = .ok (a :: b)) : TemplatedAll m H (t :: ts) := by
  obtain ⟨ps, hs, ht, hF⟩ := h
  obtain ⟨pss, hs', ht', hG⟩ := h'
  refine ⟨ps :: pss, fun qs hq => ?_, by simp [ht, ht'], fun f hf hsh => ?_⟩
  · rcases List.mem_cons.1 hq with rfl | hq
    · exact hs
    · exact hs' _ hq
  · rw [hH f _ _ hf (hF f hf (hsh _ (by simp))) (hG f hf fun qs hq => hsh _ (by simp [hq]))]
    rfl

/-- Templates with a separator between them. -/
def joinPieces (sep : Str) : List (List Piece) → List Piece
  | [] => []
  | [p] => p
  | p :: q :: ps => p ++ .fixed sep :: joinPieces sep (q :: ps)

theorem fill_joinPieces (r : Val → Str) (sep : Str) : ∀ pss, fill r (joinPieces sep pss) = joinWith sep (pss.map (fill r))
  | [] => rfl
  | [p] => rfl
  | p :: q :: ps => by
    have := fill_joinPieces r sep (q :: ps)
    simp only [joinPieces, fill_append, fill, this, List.map_cons, joinWith, List.append_assoc]

theorem slot_joinPieces {sep : Str} {v : Val} : ∀ {pss}, .slot v ∈ joinPieces sep pss → ∃ ps ∈ pss, .slot v ∈ ps
  | [] => by simp [joinPieces]
  | [p] => by simp [joinPieces]
  | p :: q :: ps => fun h => by
    simp only [joinPieces, List.mem_append, List.mem_cons, reduceCtorEq, false_or] at h
    rcases h with h | h
    · exact ⟨p, by simp, h⟩
    · obtain ⟨x, hx, hv⟩ := slot_joinPieces h
      exact ⟨x, List.mem_cons_of_mem _ hx, hv⟩

theorem slot_of_joined {sep : Str} {v : Val} : ∀ {pss ps}, ps ∈ pss → .slot v ∈ ps → .slot v ∈ joinPieces sep pss
  | [], _, h, _ => by simp at h
  | [p], _, h, hv => by simp only [List.mem_singleton] at h; subst h; exact hv
  | p :: q :: ps, x, h, hv => by
    simp only [joinPieces, List.mem_append, List.mem_cons, reduceCtorEq, false_or]
    rcases List.mem_cons.1 h with rfl | h
    · exact .inl hv
    · exact .inr (slot_of_joined h hv)

theorem fits_join {m : Bool} {F : (Val → Val) → Except Err (List Str)} {H : (Val → Val) → Except Err Str} {ts : List Str}
    (pre sep post : Str) (h : TemplatedAll m F ts)
    (hH : ∀ f as, Replaces f → F f = .ok as → H f = .ok (pre ++ joinWith sep as ++ post)) :
    Templated m H (pre ++ joinWith sep ts ++ post) := by
  obtain ⟨pss, hs, ht, hF⟩ := h
  refine ⟨.fixed pre :: (joinPieces sep pss ++ [.fixed post]), fun v hv => ?_, ?_, fun f hf hsh => ?_⟩
  · obtain ⟨ps, hps, hv⟩ := slot_joinPieces (sep := sep) (pss := pss) (v := v) (by simpa using hv)
    exact hs ps hps v hv
  · simp [fill, fill_append, fill_joinPieces, ht]
  · rw [hH f _ hf (hF f hf fun ps hps v hv => hsh v (by simp [slot_of_joined hps hv]))]
    simp [fill, fill_append, fill_joinPieces]

theorem fits_paren {m : Bool} {F : (Val → Val) → Except Err (List Str)} {ts : List Str} (k : SeqKind) (h : TemplatedAll m F ts)
    (hk : k = .absent → ts = [] ∧ ∀ f, F f = .ok []) : Templated m (fun f => (F f).map (parenClause k)) (parenClause k ts) := by
  by_cases ha : k = .absent
  · obtain ⟨h1, h2⟩ := hk ha
    exact fits_fixed fun f _ => by simp [h2, ha, Except.map, parenClause]
  · simp only [parenClause, ha, if_false]
    refine fits_join ['('] c!", " [')'] h fun f as _ has => ?_
    simp [has, Except.map, parenClause, ha]

private theorem mapped {α β : Type} {x : Except Err α} {g : α → β} {b : β} (h : x.map g = .ok b) : ∃ y, x = .ok y ∧ g y = b := by
  cases x with
  | error e => cases h
  | ok y => exact ⟨y, rfl, Except.ok.inj h⟩

mutual
/-- A sequence of a function that is `None` has no items. -/
def tidy : Val → Bool
  | .list xs => tidyAll xs
  | .tuple xs => tidyAll xs
  | .curried _ _ ik is pk ps _ => (ik != .absent || is.isEmpty) && (pk != .absent || ps.isEmpty) && tidyAll is && tidyAll ps
  | .lam _ _ b => tidy b
  | .cond l _ r => tidy l && tidy r
  | .boolCond _ _ _ cs => tidyAll cs
  | .orderby e _ => tidy e
  | _ => true

/-- The same for several values. -/
def tidyAll : List Val → Bool
  | [] => true
  | x :: xs => tidy x && tidyAll xs
end

/-! ### Expressions -/

section
variable {a m : Bool}

mutual
theorem translate_fits : ∀ v t, tidy v = true → translate ⟨a, m⟩ v = .ok t → Templated m (fun f => translate ⟨a, m⟩ (revalue f v)) t
  | .none, t, _, h => fits_slot .none h fun _ => rfl
  | .bool b, t, _, h => fits_slot (.bool b) h fun _ => rfl
  | .int b, t, _, h => fits_slot (.int b) h fun _ => rfl
  | .float b, t, _, h => fits_slot (.float b) h fun _ => rfl
  | .str b, t, _, h => fits_slot (.str b) h fun _ => rfl
  | .bytes b, t, _, h => fits_slot (.bytes b) h fun _ => rfl
  | .date b, t, _, h => fits_slot (.date b) h fun _ => rfl
  | .datetime b, t, _, h => fits_slot (.datetime b) h fun _ => rfl
  | .list xs, t, hw, h => by
    simp only [translate, bind_eq_ok, Except.ok.injEq] at h
    obtain ⟨b, hb, ps, hps, rfl⟩ := h
    refine fits_join _ _ _ (translateAll_fits xs ps (by simpa [tidy] using hw) hps) fun f as hf has => ?_
    simp only [revalue, translate, revalue_allScalar hf, hb, has, ok_bind]
  | .tuple xs, t, hw, h => by
    simp only [translate, bind_eq_ok, Except.ok.injEq] at h
    obtain ⟨b, hb, ps, hps, rfl⟩ := h
    refine fits_join _ _ _ (translateAll_fits xs ps (by simpa [tidy] using hw) hps) fun f as hf has => ?_
    simp only [revalue, translate, revalue_allScalar hf, hb, has, ok_bind]
  | .curried isFn n ik is pk ps al, t, hw, h => by
    simp only [translate, bind_eq_ok, Except.ok.injEq] at h
    obtain ⟨i, hi, p, hp, rfl⟩ := h
    simp only [tidy, Bool.and_eq_true] at hw
    obtain ⟨⟨⟨h1, h2⟩, h3⟩, h4⟩ := hw
    have fi := fits_paren ik (translateInits_fits is i h3 hi) (fun hk => by
      simp only [hk, bne_self_eq_false, Bool.false_or, List.isEmpty_iff] at h1
      subst h1
      simp only [translateInits, Except.ok.injEq] at hi
      exact ⟨hi.symm, fun f => rfl⟩)
    have fp := fits_paren pk (translateParams_fits ps p h4 hp) (fun hk => by
      simp only [hk, bne_self_eq_false, Bool.false_or, List.isEmpty_iff] at h2
      subst h2
      simp only [translateParams, Except.ok.injEq] at hp
      exact ⟨hp.symm, fun f => rfl⟩)
    have := fits_around (H := fun f => translate ⟨a, m⟩ (revalue f (.curried isFn n ik is pk ps al))) n (aliasClause al)
      (fits_pair (H := fun f => do
          let i ← translateInits ⟨a, m⟩ (revalueAll f is)
          let p ← translateParams ⟨a, m⟩ (revalueAll f ps)
          .ok (parenClause ik i ++ [] ++ parenClause pk p)) [] fi fp (fun f x y _ hx hy => by
        obtain ⟨x', hx', rfl⟩ := mapped hx
        obtain ⟨y', hy', rfl⟩ := mapped hy
        simp only [hx', hy', ok_bind])) (fun f x hf hx => by
        simp only [bind_eq_ok, Except.ok.injEq] at hx
        obtain ⟨x', hx', y', hy', rfl⟩ := hx
        simp only [revalue, translate, hx', hy', ok_bind, List.append_nil, List.append_assoc])
    simpa only [List.append_nil, List.append_assoc] using this
  | .lam k ids b, t, hw, h => by
    simp only [translate, bind_eq_ok, Except.ok.injEq] at h
    obtain ⟨u, hu, rfl⟩ := h
    have := fits_around (H := fun f => translate ⟨a, m⟩ (revalue f (.lam k ids b)))
      (['('] ++ joinWith c!", " (ids.map fun i => ['`'] ++ i ++ ['`']) ++ c!") -> ") [] (translate_fits b u (by simpa [tidy] using hw) hu)
      (fun f x hf hx => by simp only [revalue, translate, hx, ok_bind, List.append_nil])
    simpa only [List.append_nil] using this
  | .cond l o r, t, hw, h => by
    simp only [translate, bind_eq_ok, Except.ok.injEq] at h
    obtain ⟨rs, hr, ls, hl, rfl⟩ := h
    simp only [tidy, Bool.and_eq_true] at hw
    have fl := translate_fits l ls hw.1 hl
    have fr : Templated m (fun f => rhsText o (revalue f r) (translate ⟨a, m⟩ (revalue f r))) rs := by
      simp only [rhsText] at hr
      by_cases hu : isUnary o = true
      · simp only [hu, if_true, Except.ok.injEq] at hr
        exact fits_fixed fun f _ => by simp [rhsText, hu, hr]
      · simp only [hu] at hr
        by_cases hc : r.isColOrFn = true
        · simp only [hc, if_true, bind_eq_ok, Except.ok.injEq, Bool.false_eq_true, if_false] at hr
          obtain ⟨u, hu', rfl⟩ := hr
          have := fits_around (H := fun f => rhsText o (revalue f r) (translate ⟨a, m⟩ (revalue f r))) [' '] [] (translate_fits r u hw.2 hu')
            (fun f x hf hx => by simp only [revalue_rhsText hf]; simp [rhsText, hu, hc, hx])
          simpa using this
        · simp only [hc, bind_eq_ok, Bool.false_eq_true, if_false] at hr
          obtain ⟨b, hb, hr⟩ := hr
          cases b with
          | false => simp at hr
          | true =>
            simp only [if_true, bind_eq_ok, Except.ok.injEq] at hr
            obtain ⟨u, hu', rfl⟩ := hr
            have := fits_around (H := fun f => rhsText o (revalue f r) (translate ⟨a, m⟩ (revalue f r))) [' '] [] (translate_fits r u hw.2 hu')
              (fun f x hf hx => by simp only [revalue_rhsText hf]; simp [rhsText, hu, hc, hb, hx])
            simpa using this
    have := fits_pair (H := fun f => translate ⟨a, m⟩ (revalue f (.cond l o r))) ([' '] ++ o.value) fl fr
      (fun f x y hf hx hy => by simp only [revalue, translate, hx, hy, ok_bind, List.append_assoc])
    simpa only [List.append_assoc] using this
  | .boolCond cls o k cs, t, hw, h => by
    simp only [translate, bind_eq_ok, Except.ok.injEq] at h
    obtain ⟨ps, hps, rfl⟩ := h
    refine fits_join _ _ _ (translateAll_fits cs ps (by simpa [tidy] using hw) hps) fun f as hf has => ?_
    simp only [revalue, translate, has, ok_bind]
  | .orderby e d, t, hw, h => by
    simp only [translate, bind_eq_ok, Except.ok.injEq] at h
    obtain ⟨u, hu, rfl⟩ := h
    have := fits_around (H := fun f => translate ⟨a, m⟩ (revalue f (.orderby e d))) [] ([' '] ++ d.value)
      (translate_fits e u (by simpa [tidy] using hw) hu)
      (fun f x hf hx => by simp only [revalue, translate, hx, ok_bind, List.nil_append, List.append_assoc])
    simpa only [List.nil_append, List.append_assoc] using this
  | .column _, t, _, h | .ident _, t, _, h | .aliased .., t, _, h | .limitby .., t, _, h | .limit _, t, _, h | .offset _, t, _, h
  | .granularity _, t, _, h | .totals _, t, _, h | .entity _, t, _, h | .storage _, t, _, h | .rel _, t, _, h | .join .., t, _, h =>
    fits_fixed fun _ _ => h
  | .extrapolate _, _, _, h | .op _, _, _, h | .boolOp _, _, _, h | .direction _, _, _, h | .dataModel _, _, _, h | .other _, _, _, h => by
    simp [translate] at h

theorem translateAll_fits : ∀ xs ts, tidyAll xs = true → translateAll ⟨a, m⟩ xs = .ok ts →
    TemplatedAll m (fun f => translateAll ⟨a, m⟩ (revalueAll f xs)) ts
  | [], ts, _, h => by
    simp only [translateAll, Except.ok.injEq] at h
    subst h
    exact fitsAll_nil fun f _ => rfl
  | x :: xs, ts, hw, h => by
    simp only [translateAll, bind_eq_ok, Except.ok.injEq] at h
    obtain ⟨t, ht, ts, hts, rfl⟩ := h
    simp only [tidyAll, Bool.and_eq_true] at hw
    exact fitsAll_cons (translate_fits x t hw.1 ht) (translateAll_fits xs ts hw.2 hts)
      fun f p q hf hp hq => by simp only [revalueAll, translateAll, hp, hq, ok_bind]

theorem translateInits_fits : ∀ xs ts, tidyAll xs = true → translateInits ⟨a, m⟩ xs = .ok ts →
    TemplatedAll m (fun f => translateInits ⟨a, m⟩ (revalueAll f xs)) ts
  | [], ts, _, h => by
    simp only [translateInits, Except.ok.injEq] at h
    subst h
    exact fitsAll_nil fun f _ => rfl
  | x :: xs, ts, hw, h => by
    simp only [tidyAll, Bool.and_eq_true] at hw
    simp only [translateInits] at h
    split at h
    · rename_i hx
      simp only [bind_eq_ok, Except.ok.injEq] at h
      obtain ⟨t, ht, ts, hts, rfl⟩ := h
      exact fitsAll_cons (translate_fits x t hw.1 ht) (translateInits_fits xs ts hw.2 hts)
        fun f p q hf hp hq => by
          simp only [revalueAll, translateInits, revalue_isColumn hf, revalue_isLiteral hf, hx, if_true, hp, hq, ok_bind]
    · rename_i hx
      obtain ⟨pss, h1, h2, h3⟩ := translateInits_fits xs ts hw.2 h
      refine ⟨pss, h1, h2, fun f hf hs => ?_⟩
      simp only [revalueAll, translateInits, revalue_isColumn hf, revalue_isLiteral hf, hx, if_false, Bool.false_eq_true]
      exact h3 f hf hs

theorem translateParams_fits : ∀ xs ts, tidyAll xs = true → translateParams ⟨a, m⟩ xs = .ok ts →
    TemplatedAll m (fun f => translateParams ⟨a, m⟩ (revalueAll f xs)) ts
  | [], ts, _, h => by
    simp only [translateParams, Except.ok.injEq] at h
    subst h
    exact fitsAll_nil fun f _ => rfl
  | x :: xs, ts, hw, h => by
    simp only [tidyAll, Bool.and_eq_true] at hw
    simp only [translateParams, bind_eq_ok] at h
    obtain ⟨use, hx, h⟩ := h
    cases use with
    | true =>
      simp only [if_true, bind_eq_ok, Except.ok.injEq] at h
      obtain ⟨t, ht, ts, hts, rfl⟩ := h
      exact fitsAll_cons (translate_fits x t hw.1 ht) (translateParams_fits xs ts hw.2 hts)
        fun f p q hf hp hq => by
          simp only [revalueAll, translateParams, revalue_usesParam hf, hx, if_true, hp, hq, ok_bind]
    | false =>
      obtain ⟨pss, h1, h2, h3⟩ := translateParams_fits xs ts hw.2 (by simpa using h)
      refine ⟨pss, h1, h2, fun f hf hs => ?_⟩
      simp only [revalueAll, translateParams, revalue_usesParam hf, hx, ok_bind, if_false, Bool.false_eq_true]
      exact h3 f hf hs
end

end

end Verif
