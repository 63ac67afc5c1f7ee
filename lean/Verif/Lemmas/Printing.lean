import Verif.Lemmas.Query
import Verif.Spec.Printing

/-!
# Lemmas about printing
-/

namespace Verif
open Spec

section Map
variable {fc : ColumnObj → ColumnObj} {fe : EntityObj → EntityObj}

theorem mapVals_eq_map : ∀ xs : List Val, mapVals fc fe xs = xs.map (mapVal fc fe)
  | [] => rfl
  | x :: xs => by rw [mapVals, mapVals_eq_map xs, List.map_cons]

theorem mapVal_kinds (v : Val) : (mapVal fc fe v).isExpression = v.isExpression ∧
    (mapVal fc fe v).isColOrFn = v.isColOrFn ∧ (mapVal fc fe v).isParamExpr = v.isParamExpr ∧
    (mapVal fc fe v).isColumn = v.isColumn ∧ isLiteral (mapVal fc fe v) = isLiteral v ∧
    (mapVal fc fe v).truthy = v.truthy := by
  cases v <;> simp [mapVal, Val.isExpression, Val.isColOrFn, Val.isParamExpr, Val.isColumn, Val.isCurried,
    isLiteral, Val.truthy, mapVals_eq_map]

theorem allScalar_map {xs : List Val} (h : ∀ x ∈ xs, isScalar (mapVal fc fe x) = isScalar x) :
    allScalar (mapVals fc fe xs) = allScalar xs := by
  induction xs with
  | nil => rfl
  | cons x xs ih =>
    simp only [List.mem_cons, forall_eq_or_imp] at h
    simp only [mapVals, allScalar, h.1, ih h.2, (mapVal_kinds x).1]

theorem isScalar_map (v : Val) : isScalar (mapVal fc fe v) = isScalar v := by
  induction v using Val.childInd with
  | step v ih =>
    cases v with
    | list xs => simp only [mapVal, isScalar]; exact allScalar_map fun x hx => ih x hx
    | tuple xs => simp only [mapVal, isScalar]; exact allScalar_map fun x hx => ih x hx
    | _ => simp [mapVal, isScalar, isLiteral]

variable {cfg cfg' : Cfg} (hq : cfg'.isMql = cfg.isMql) (hc : ∀ c, colStr cfg' (fc c) = colStr cfg c)
  (he : ∀ e, entityStr cfg' (fe e) = entityStr cfg e)

theorem translateAll_map {xs : List Val} (h : ∀ x ∈ xs, translate cfg' (mapVal fc fe x) = translate cfg x) :
    translateAll cfg' (mapVals fc fe xs) = translateAll cfg xs := by
  induction xs with
  | nil => rfl
  | cons x xs ih =>
    simp only [List.mem_cons, forall_eq_or_imp] at h
    simp only [mapVals, translateAll, h.1, ih h.2]

theorem translateInits_map {xs : List Val} (h : ∀ x ∈ xs, translate cfg' (mapVal fc fe x) = translate cfg x) :
    translateInits cfg' (mapVals fc fe xs) = translateInits cfg xs := by
  induction xs with
  | nil => rfl
  | cons x xs ih =>
    simp only [List.mem_cons, forall_eq_or_imp] at h
    obtain ⟨_, _, _, k4, k5, _⟩ := mapVal_kinds (fc := fc) (fe := fe) x
    simp only [mapVals, translateInits, h.1, ih h.2, k4, k5]

theorem translateParams_map {xs : List Val} (h : ∀ x ∈ xs, translate cfg' (mapVal fc fe x) = translate cfg x) :
    translateParams cfg' (mapVals fc fe xs) = translateParams cfg xs := by
  induction xs with
  | nil => rfl
  | cons x xs ih =>
    simp only [List.mem_cons, forall_eq_or_imp] at h
    obtain ⟨_, _, k3, _, _, _⟩ := mapVal_kinds (fc := fc) (fe := fe) x
    simp only [mapVals, translateParams, h.1, ih h.2, usesParam, k3, isScalar_map]

include hq hc he

theorem translate_map (v : Val) : translate cfg' (mapVal fc fe v) = translate cfg v := by
  have hlit : cfg'.quote = cfg.quote := by simp [Cfg.quote, hq]
  have h1 : arrayOpen cfg' = arrayOpen cfg := by simp [arrayOpen, hq]
  have h2 : tupleOpen cfg' = tupleOpen cfg := by simp [tupleOpen, hq]
  have h3 : seqClose cfg' = seqClose cfg := by simp [seqClose, hq]
  have hrel : ∀ r : RelObj, relStr cfg' ⟨fe r.lhs, r.name, fe r.rhs⟩ = relStr cfg r := by
    intro r; simp [relStr, he]
  induction v using Val.childInd with
  | step v ih =>
    cases v with
    | list xs =>
      simp only [mapVal, translate, h1, h3, allScalar_map fun x _ => isScalar_map x,
        translateAll_map (xs := xs) fun x hx => ih x hx]
    | tuple xs =>
      simp only [mapVal, translate, h2, h3, allScalar_map fun x _ => isScalar_map x,
        translateAll_map (xs := xs) fun x hx => ih x hx]
    | curried f n ik is pk ps a =>
      simp only [mapVal, translate,
        translateInits_map (xs := is) fun x hx => ih x (by simp [Val.children, hx]),
        translateParams_map (xs := ps) fun x hx => ih x (by simp [Val.children, hx])]
    | lam k ids b => simp only [mapVal, translate, ih b (by simp [Val.children])]
    | cond l o r =>
      simp only [mapVal, translate, ih l (by simp [Val.children]), ih r (by simp [Val.children]), rhsText,
        (mapVal_kinds r).2.1, isScalar_map]
    | boolCond cls o k cs => simp only [mapVal, translate, translateAll_map (xs := cs) fun x hx => ih x hx]
    | orderby e d => simp only [mapVal, translate, ih e (by simp [Val.children])]
    | join k rels =>
      simp only [mapVal, translate, joinStr, List.map_map]
      congr 2
      apply List.map_congr_left
      intro r _; exact hrel r
    | rel r => simp only [mapVal, translate, hrel]
    | limitby k cs n =>
      simp only [mapVal, translate, List.map_map]
      congr 4
      funext c; exact hc c
    | column c => simp only [mapVal, translate, hc]
    | aliased c a => simp only [mapVal, translate, hc]
    | entity e => simp only [mapVal, translate, he]
    | str s => simp only [mapVal, translate, strLit, hlit]
    | bytes s => simp only [mapVal, translate, strLit, hlit]
    | _ => rfl

theorem listClause_map (kw sep : Str) (v : Val) :
    listClause cfg' kw sep (mapVal fc fe v) = listClause cfg kw sep v := by
  unfold listClause
  rw [(mapVal_kinds v).2.2.2.2.2]
  split
  · cases v with
    | list xs => simp only [mapVal, Val.iter, Val.seq?, ok_bind, translateAll_map fun x _ => translate_map hq hc he x]
    | tuple xs => simp only [mapVal, Val.iter, Val.seq?, ok_bind, translateAll_map fun x _ => translate_map hq hc he x]
    | str s =>
      have h := translateAll_map (xs := s.map fun c => Val.str [c]) fun x _ => translate_map hq hc he x
      have h' : mapVals fc fe (s.map fun c => Val.str [c]) = s.map fun c => Val.str [c] := by
        simp [mapVals_eq_map, mapVal]
      rw [h'] at h
      simp only [mapVal, Val.iter, Val.seq?, ok_bind, h]
    | bytes s =>
      have h := translateAll_map (xs := s.map fun c => Val.int c.toNat) fun x _ => translate_map hq hc he x
      have h' : mapVals fc fe (s.map fun c => Val.int c.toNat) = s.map fun c => Val.int c.toNat := by
        simp [mapVals_eq_map, mapVal]
      rw [h'] at h
      simp only [mapVal, Val.iter, Val.seq?, ok_bind, h]
    | _ => rfl
  · rfl

theorem optClause_map (kw : Str) (v : Val) : optClause cfg' kw (mapVal fc fe v) = optClause cfg kw v := by
  have h := translate_map hq hc he v
  cases v with
  | none => rfl
  | _ => simp only [mapVal, optClause] at h ⊢ <;> rw [h]

theorem bodyClauses_map (b : Body) : bodyClauses cfg' (mapBody fc fe b) = bodyClauses cfg b := by
  simp only [bodyClauses, mapBody, listClause_map hq hc he, optClause_map hq hc he]

end Map

theorem qualify_col (c : ColumnObj) (m : Bool) : colStr ⟨false, m⟩ (qualifyColumn c) = colStr ⟨true, m⟩ c := by
  unfold colStr qualifyColumn
  cases hc : c.entity with
  | none => simp [hc]
  | some e => cases ha : e.alias <;> simp [optStr, ha]

theorem qualify_ent (e : EntityObj) (m : Bool) :
    entityStr ⟨false, m⟩ (qualifyEntity e) = entityStr ⟨true, m⟩ e := by
  unfold entityStr qualifyEntity
  cases ha : e.alias <;> simp [ha]

theorem bare_col (c : ColumnObj) (m : Bool) : colStr ⟨false, m⟩ (bareColumn c) = colStr ⟨false, m⟩ c := by
  unfold colStr bareColumn
  cases hc : c.entity <;> simp

theorem bare_ent (e : EntityObj) (m : Bool) : entityStr ⟨false, m⟩ (bareEntity e) = entityStr ⟨false, m⟩ e := by
  unfold entityStr bareEntity
  cases ha : e.alias <;> simp

end Verif
