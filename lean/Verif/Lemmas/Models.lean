import Verif.Spec.Models
import Verif.Lemmas.Query
import Verif.Lemmas.Finder
import Verif.Lemmas.Equal
import Verif.Model.Printer

/-!
# What data models matter for
-/

namespace Verif
open Spec

section Text
variable {f : Option DataModel → Option DataModel}

theorem remodelAll_map (xs : List Val) : remodelAll f xs = xs.map (remodel f) := by
  induction xs with
  | nil => rfl
  | cons x xs ih => simp [remodelAll, ih]

theorem remodel_isColumn (v : Val) : (remodel f v).isColumn = v.isColumn := by cases v <;> rfl
theorem remodel_isCurried (v : Val) : (remodel f v).isCurried = v.isCurried := by cases v <;> rfl
theorem remodel_isColOrFn (v : Val) : (remodel f v).isColOrFn = v.isColOrFn := by cases v <;> rfl
theorem remodel_isCondition (v : Val) : (remodel f v).isCondition = v.isCondition := by cases v <;> rfl
theorem remodel_isParamExpr (v : Val) : (remodel f v).isParamExpr = v.isParamExpr := by cases v <;> rfl
theorem remodel_isExpression (v : Val) : (remodel f v).isExpression = v.isExpression := by cases v <;> rfl
theorem remodel_isLiteral (v : Val) : isLiteral (remodel f v) = isLiteral v := by cases v <;> rfl
theorem remodel_isJoin (v : Val) : (remodel f v).isJoin = v.isJoin := by cases v <;> rfl
theorem remodel_isMatch (v : Val) : (remodel f v).isMatch = v.isMatch := by cases v <;> rfl

theorem remodel_truthy (v : Val) : (remodel f v).truthy = v.truthy := by
  cases v <;> first | rfl | (rename_i xs; cases xs <;> rfl)

theorem remodel_seq (v : Val) : (remodel f v).seq? = v.seq?.map fun p => (p.1, p.2.map (remodel f)) := by
  cases v <;> simp [remodel, Val.seq?, remodelAll_map]

mutual
theorem remodel_isScalar : ∀ v, isScalar (remodel f v) = isScalar v
  | .list xs => by simp only [remodel, isScalar, remodel_allScalar xs]
  | .tuple xs => by simp only [remodel, isScalar, remodel_allScalar xs]
  | .none | .bool _ | .int _ | .float _ | .str _ | .bytes _ | .date _ | .datetime _ | .column _ | .curried .. | .ident _ | .lam ..
  | .aliased .. | .cond .. | .boolCond .. | .orderby .. | .limitby .. | .limit _ | .offset _ | .granularity _ | .totals _
  | .extrapolate _ | .entity _ | .storage _ | .rel _ | .join .. | .op _ | .boolOp _ | .direction _ | .dataModel _ | .other _ => rfl

theorem remodel_allScalar : ∀ xs, allScalar (remodelAll f xs) = allScalar xs
  | [] => rfl
  | x :: xs => by simp only [remodelAll, allScalar, remodel_isScalar x, remodel_isExpression, remodel_allScalar xs]
end

theorem remodel_colStr (cfg : Cfg) (c : ColumnObj) : colStr cfg (remodelColumn f c) = colStr cfg c := by
  obtain ⟨n, e, s, k⟩ := c
  cases e <;> rfl

theorem remodel_entityStr (cfg : Cfg) (e : EntityObj) : entityStr cfg (remodelEntity f e) = entityStr cfg e := rfl

theorem remodel_relStr (cfg : Cfg) (r : RelObj) : relStr cfg (remodelRel f r) = relStr cfg r := rfl

theorem remodel_usesParam (v : Val) : usesParam (remodel f v) = usesParam v := by
  simp only [usesParam, remodel_isParamExpr, remodel_isScalar]

theorem remodel_rhsText (o : Op) (v : Val) (t : Except Err Str) : rhsText o (remodel f v) t = rhsText o v t := by
  simp only [rhsText, remodel_isColOrFn, remodel_isScalar]

mutual
theorem remodel_translate (cfg : Cfg) : ∀ v, translate cfg (remodel f v) = translate cfg v
  | .list xs => by simp only [remodel, translate, remodel_allScalar, remodel_translateAll cfg xs]
  | .tuple xs => by simp only [remodel, translate, remodel_allScalar, remodel_translateAll cfg xs]
  | .column c => by simp only [remodel, translate, remodel_colStr]
  | .aliased c a => by simp only [remodel, translate, remodel_colStr]
  | .curried _ n ik is pk ps a => by simp only [remodel, translate, remodel_translateInits cfg is, remodel_translateParams cfg ps]
  | .lam k ids b => by simp only [remodel, translate, remodel_translate cfg b]
  | .cond l o r => by simp only [remodel, translate, remodel_translate cfg l, remodel_translate cfg r, remodel_rhsText]
  | .boolCond cls o k cs => by simp only [remodel, translate, remodel_translateAll cfg cs]
  | .orderby e d => by simp only [remodel, translate, remodel_translate cfg e]
  | .limitby k cs n => by
    simp only [remodel, translate, List.map_map]
    congr 4
    funext c
    exact remodel_colStr cfg c
  | .join k rs => by
    simp only [remodel, translate, joinStr, List.map_map]
    rfl
  | .none | .bool _ | .int _ | .float _ | .str _ | .bytes _ | .date _ | .datetime _ | .ident _
  | .limit _ | .offset _ | .granularity _ | .totals _ | .extrapolate _ | .entity _ | .storage _ | .rel _
  | .op _ | .boolOp _ | .direction _ | .dataModel _ | .other _ => rfl

theorem remodel_translateAll (cfg : Cfg) : ∀ xs, translateAll cfg (remodelAll f xs) = translateAll cfg xs
  | [] => rfl
  | x :: xs => by simp only [remodelAll, translateAll, remodel_translate cfg x, remodel_translateAll cfg xs]

theorem remodel_translateInits (cfg : Cfg) : ∀ xs, translateInits cfg (remodelAll f xs) = translateInits cfg xs
  | [] => rfl
  | x :: xs => by
    simp only [remodelAll, translateInits, remodel_isColumn, remodel_isLiteral, remodel_translate cfg x, remodel_translateInits cfg xs]

theorem remodel_translateParams (cfg : Cfg) : ∀ xs, translateParams cfg (remodelAll f xs) = translateParams cfg xs
  | [] => rfl
  | x :: xs => by
    simp only [remodelAll, translateParams, remodel_usesParam, remodel_translate cfg x, remodel_translateParams cfg xs]
end

theorem remodel_iter (v : Val) : (remodel f v).iter = v.iter.map (List.map (remodel f)) := by
  simp only [Val.iter, remodel_seq]
  cases v.seq? <;> rfl

theorem remodel_listClause (cfg : Cfg) (k s : Str) (v : Val) : listClause cfg k s (remodel f v) = listClause cfg k s v := by
  simp only [listClause, remodel_truthy, remodel_iter]
  cases v.iter with
  | error e => rfl
  | ok xs => simp only [Except.map, ok_bind, ← remodelAll_map, remodel_translateAll]

theorem remodel_none {v : Val} : remodel f v = .none ↔ v = .none := by cases v <;> simp [remodel]

theorem remodel_optClause (cfg : Cfg) (k : Str) (v : Val) : optClause cfg k (remodel f v) = optClause cfg k v := by
  have h := remodel_translate (f := f) cfg v
  by_cases hv : v = .none
  · subst hv; rfl
  · have hv' : remodel f v ≠ .none := fun h => hv (remodel_none.1 h)
    have e : ∀ w : Val, w ≠ .none → optClause cfg k w = (do let t ← translate cfg w; .ok (k ++ [' '] ++ t)) := by
      intro w hw; cases w <;> first | rfl | exact absurd rfl hw
    rw [e _ hv, e _ hv', h]

theorem remodel_bodyClauses (cfg : Cfg) (b : Body) : bodyClauses cfg (remodelBody f b) = bodyClauses cfg b := by
  simp only [bodyClauses, remodelBody, remodel_listClause, remodel_optClause]

theorem remodel_printQuery (q : Query) : ∀ sep, printQuery sep (remodelQuery f q) = printQuery sep q := by
  induction q with
  | base m b => intro sep; simp only [remodelQuery, printQuery, remodel_translate, remodel_bodyClauses, remodel_isJoin]
  | nested q b ih => intro sep; simp only [remodelQuery, printQuery, ih, remodel_bodyClauses]

end Text

section Search
variable {f : Option DataModel → Option DataModel}

/-- Both fail in the same way, or both give the columns. -/
theorem map_bind {α β : Type} (h : α → β) (x : Except Err α) (y : Except Err α) (g : α → α → α) (g' : β → β → β)
    (hg : ∀ a b, h (g a b) = g' (h a) (h b)) :
    (do let a ← x.map h; let b ← y.map h; .ok (g' a b)) = (do let a ← x; let b ← y; .ok (g a b) : Except Err α).map h := by
  cases x <;> cases y <;> simp [Except.map, hg]

mutual
theorem remodel_findColumns : ∀ v, findColumns (remodel f v) = (findColumns v).map (List.map (remodelColumn f))
  | .list xs => by
    simp only [remodel, findColumns, remodel_allScalar xs]
    cases allScalar xs <;> rfl
  | .tuple xs => by
    simp only [remodel, findColumns, remodel_allScalar xs]
    cases allScalar xs <;> rfl
  | .curried _ n ik is pk ps a => by
    simp only [remodel, findColumns, remodel_findInExprs is, remodel_findInExprs ps]
    exact map_bind _ _ _ _ _ fun _ _ => List.map_append
  | .lam k ids b => by simp only [remodel, findColumns, remodel_findColumns b]
  | .cond l o r => by
    simp only [remodel, findColumns, remodel_findColumns l, remodel_findColumns r, remodel_isExpression]
    split
    · exact map_bind _ _ _ _ _ fun _ _ => List.map_append
    · cases findColumns l <;> rfl
  | .boolCond cls o k cs => by simp only [remodel, findColumns, remodel_findInAll cs]
  | .orderby e d => by simp only [remodel, findColumns, remodel_findColumns e]
  | .limitby k cs n => rfl
  | .join k rs => rfl
  | .column c => rfl
  | .aliased c a => rfl
  | .none | .bool _ | .int _ | .float _ | .str _ | .bytes _ | .date _ | .datetime _ | .ident _
  | .limit _ | .offset _ | .granularity _ | .totals _ | .extrapolate _ | .entity _ | .storage _ | .rel _
  | .op _ | .boolOp _ | .direction _ | .dataModel _ | .other _ => rfl

theorem remodel_findInExprs : ∀ xs, findInExprs (remodelAll f xs) = (findInExprs xs).map (List.map (remodelColumn f))
  | [] => rfl
  | x :: xs => by
    simp only [remodelAll, findInExprs, remodel_isExpression, remodel_findColumns x, remodel_findInExprs xs]
    split
    · exact map_bind _ _ _ _ _ fun _ _ => List.map_append
    · rfl

theorem remodel_findInAll : ∀ xs, findInAll (remodelAll f xs) = (findInAll xs).map (List.map (remodelColumn f))
  | [] => rfl
  | x :: xs => by
    simp only [remodelAll, findInAll, remodel_findColumns x, remodel_findInAll xs]
    exact map_bind _ _ _ _ _ fun _ _ => List.map_append
end

theorem remodel_searchTerms (v : Val) : searchTerms (remodel f v) = (searchTerms v).map (List.map (remodelColumn f)) := by
  simp only [searchTerms, remodel_truthy, remodel_iter]
  split
  · cases v.iter with
    | error e => rfl
    | ok xs => simp only [Except.map, ok_bind, ← remodelAll_map, remodel_findInAll]
  · rfl

theorem remodel_searchOne (v : Val) : searchOne (remodel f v) = (searchOne v).map (List.map (remodelColumn f)) := by
  simp only [searchOne, remodel_truthy]
  split
  · exact remodel_findColumns v
  · rfl

theorem map_then {α β γ : Type} (h : α → β) (x : Except Err α) (k : β → Except Err γ) :
    (x.map h >>= k) = x >>= fun a => k (h a) := by
  cases x <;> rfl

theorem then_map {α β γ : Type} (h : β → γ) (x : Except Err α) (k : α → Except Err β) :
    (x >>= k).map h = x >>= fun a => (k a).map h := by
  cases x <;> rfl

theorem remodel_searchBody (b : Body) : searchBody (remodelBody f b) = (searchBody b).map (List.map (remodelColumn f)) := by
  simp only [searchBody, remodelBody, remodel_searchTerms, remodel_searchOne, map_then, then_map]
  simp only [Except.map, List.map_append]

end Search

section Validation
variable {f : Option DataModel → Option DataModel}

/-- The first passes exactly if the second does and the condition holds; if only the second passes, the first fails because of a
column. -/
structure Refines (x y : Except Err Unit) (P : Prop) : Prop where
  iff : x = .ok () ↔ y = .ok () ∧ P
  only : y = .ok () → x = .ok () ∨ x = .error .invalidColumn

theorem Refines.same {x y : Except Err Unit} (h : y = x) : Refines x y True := by
  subst h
  exact ⟨by simp, .inl⟩

theorem Refines.and {x y x' y' : Except Err Unit} {P P' : Prop} (h : Refines x y P) (h' : Refines x' y' P') :
    Refines (do x; x') (do y; y') (P ∧ P') := by
  constructor
  · simp only [bind_eq_ok]
    constructor
    · rintro ⟨_, h1, h2⟩
      obtain ⟨h3, h4⟩ := h.iff.1 h1
      obtain ⟨h5, h6⟩ := h'.iff.1 h2
      exact ⟨⟨_, h3, h5⟩, h4, h6⟩
    · rintro ⟨⟨_, h1, h2⟩, h3, h4⟩
      exact ⟨_, h.iff.2 ⟨h1, h3⟩, h'.iff.2 ⟨h2, h4⟩⟩
  · simp only [bind_eq_ok]
    rintro ⟨_, h1, h2⟩
    rcases h.only h1 with e | e
    · rcases h'.only h2 with e' | e'
      · exact .inl ⟨_, e, e'⟩
      · exact .inr (by rw [e, e']; rfl)
    · exact .inr (by rw [e]; rfl)

theorem Refines.congr {x y : Except Err Unit} {P Q : Prop} (h : Refines x y P) (hq : P ↔ Q) : Refines x y Q :=
  ⟨by rw [h.iff, hq], h.only⟩

theorem validateDataModel_iff {c : ColumnObj} {d : DataModel} :
    (c.validateDataModel (some d) = .ok () ↔ Knows d c) ∧ (¬ Knows d c → c.validateDataModel (some d) = .error .invalidColumn) := by
  have e : c.validateDataModel (some d) = ensure (d.contains (lookedUp c)) .invalidColumn := by
    obtain ⟨n, e, s, k⟩ := c
    cases s with
    | none => rfl
    | some s => cases s <;> rfl
  have key : d.contains (lookedUp c) = true ↔ Knows d c := by
    simp only [DataModel.contains, List.any_eq_true, beq_iff_eq, Knows]
  rw [e]
  simp only [ensure_eq_ok, key, true_and]
  intro h
  rw [← key] at h
  simp [ensure, h]

variable [U : PyUnicode]

theorem column_refines (c : ColumnObj) :
    Refines (Val.column c).validate (remodel noModel (.column c)).validate (∀ e d, c.entity = some e → e.dataModel = some d → Knows d c) := by
  obtain ⟨n, e, s, k⟩ := c
  have hs : ∀ (c : ColumnObj), (Val.column c).validate = (do ensure (columnNameRe.matches c.name) .invalidColumn; c.checkEntity) := by
    intro c
    simp only [Val.validate, ColumnObj.validate]
    cases ensure (columnNameRe.matches c.name) Err.invalidColumn <;> simp
    cases c.checkEntity <;> rfl
  rw [remodel, hs, hs]
  cases e with
  | none => exact (Refines.same rfl).congr (by simp)
  | some e =>
    refine ((Refines.same rfl).and (y' := (remodelColumn noModel ⟨n, some e, s, k⟩).checkEntity)
      (P' := ∀ d, e.dataModel = some d → Knows d ⟨n, some e, s, k⟩) ?_).congr
      ⟨fun h e' d he => by cases he; exact h.2 d, fun h => ⟨trivial, fun d => h e d rfl⟩⟩
    obtain ⟨en, ea, es, em⟩ := e
    simp only [remodelColumn, ColumnObj.checkEntity, Option.map, remodelEntity, noModel]
    refine ((Refines.same rfl).and (y' := .ok ()) (P' := ∀ d, em = some d → Knows d ⟨n, some ⟨en, ea, es, em⟩, s, k⟩) ?_).congr (by simp)
    cases em with
    | none => exact (Refines.same rfl).congr (by simp)
    | some d =>
      have h := validateDataModel_iff (c := ⟨n, some ⟨en, ea, es, some d⟩, s, k⟩) (d := d)
      refine ⟨by simp [h.1], fun _ => ?_⟩
      by_cases hk : Knows d ⟨n, some ⟨en, ea, es, some d⟩, s, k⟩
      · exact .inl (h.1.2 hk)
      · exact .inr (h.2 hk)

omit U in
theorem remodel_checkParams (xs : List Val) : checkParams (remodelAll f xs) = checkParams xs := by
  induction xs with
  | nil => rfl
  | cons x xs ih => simp only [remodelAll, checkParams, remodel_isParamExpr, remodel_isScalar, ih]

omit U in
theorem remodel_checkInits (xs : List Val) : checkInits (remodelAll f xs) = checkInits xs := by
  simp only [checkInits, remodelAll_map, List.all_map, Function.comp_def, remodel_isColumn, remodel_isLiteral]

omit U in
theorem remodel_checkUnary (o : Op) (v : Val) : checkUnary o (remodel f v) = checkUnary o v := by
  cases v <;> rfl

omit U in
theorem remodel_checkCondition (l o r : Val) : checkCondition (remodel f l) o (remodel f r) = checkCondition l o r := by
  simp only [checkCondition, remodel_isColOrFn, remodel_checkUnary, checkRhs, remodel_isScalar]

omit U in
theorem remodel_checkItems (cs : List Val) : checkConditionItems (remodelAll f cs) = checkConditionItems cs := by
  simp only [checkConditionItems, remodelAll_map, List.length_map, List.all_map, Function.comp_def, remodel_isCondition]

omit U in
theorem remodel_aliasMappings (rs : List RelObj) : aliasMappings (rs.map (remodelRel f)) = aliasMappings rs := by
  simp only [aliasMappings, List.flatMap_map]
  rfl

omit U in
theorem remodel_checkJoin (rs : List RelObj) : checkJoin (rs.map (remodelRel f)) = checkJoin rs := by
  simp only [checkJoin, remodel_aliasMappings, List.isEmpty_map]

theorem remodel_validate (v : Val) (h : v.isColumn = false) : (remodel f v).validate = v.validate := by
  cases v <;> try rfl
  case column => cases h
  case curried => simp only [remodel, Val.validate, remodel_checkInits, remodel_checkParams]
  case lam => simp only [remodel, Val.validate, remodel_isCurried]
  case cond => simp only [remodel, Val.validate, remodel_checkCondition]
  case boolCond => simp only [remodel, Val.validate, remodel_checkItems]
  case orderby => simp only [remodel, Val.validate, remodel_isColOrFn]
  case limitby => simp only [remodel, Val.validate, List.length_map]
  case join => simp only [remodel, Val.validate, remodel_checkJoin]

/-- If the value is a column, it is in the data model of its own entity. -/
private def OwnOne (v : Val) : Prop := ∀ c e d, v = .column c → c.entity = some e → e.dataModel = some d → Knows d c

theorem value_refines (v : Val) : Refines v.validate (remodel noModel v).validate (OwnOne v) := by
  cases hv : v.isColumn with
  | false => exact (Refines.same (remodel_validate v hv)).congr (by
      simp only [true_iff]; rintro c e d rfl; cases hv)
  | true =>
    cases v <;> cases hv
    rename_i c
    exact (column_refines c).congr ⟨fun h c' e d hc => by cases hc; exact h e d, fun h e d => h c e d rfl⟩

theorem all_refines (xs : List Val) : Refines (validateAll xs) (validateAll (xs.map (remodel noModel))) (∀ x ∈ xs, OwnOne x) := by
  induction xs with
  | nil => exact (Refines.same rfl).congr (by simp)
  | cons x xs ih =>
    simp only [validateAll, List.map_cons]
    exact ((value_refines x).and ih).congr (by simp)

/-- The columns listed are in the data models of their own entities. -/
private def OwnList (v : Val) : Prop := ∀ k xs, SeqOf v k xs → ∀ x ∈ xs, OwnOne x

theorem list_refines (v : Val) : Refines (listValidate v) (listValidate (remodel noModel v)) (OwnList v) := by
  have other : ∀ v : Val, remodel noModel v = v → (∀ k xs, ¬ SeqOf v k xs) → Refines (listValidate v) (listValidate (remodel noModel v)) (OwnList v) :=
    fun v h hn => (Refines.same (by rw [h])).congr (by simp only [true_iff]; exact fun k xs hs => (hn k xs hs).elim)
  have bad : ∀ v : Val, v ≠ .none → v.seq? = none → (∀ k xs, ¬ SeqOf v k xs) → Refines (listValidate v) (listValidate (remodel noModel v)) (OwnList v) := by
    intro v hv hs hn
    have hr : remodel noModel v ≠ .none := fun h => hv (remodel_none.1 h)
    have e : ∀ w : Val, w ≠ .none → listValidate w = (do let xs ← w.iter; validateAll xs) := by
      intro w hw; cases w <;> first | rfl | exact absurd rfl hw
    refine (Refines.same ?_).congr (by simp only [true_iff]; exact fun k xs hs => (hn k xs hs).elim)
    rw [e _ hv, e _ hr, remodel_iter]
    simp only [Val.iter, hs]
    rfl
  have seq : ∀ (k : SeqKind) (v : Val) (xs : List Val), SeqOf v k xs → Refines (listValidate v) (listValidate (remodel noModel v)) (OwnList v) := by
    intro k v xs hs
    have h := (all_refines xs).congr (Q := OwnList v) ⟨fun h k' ys hs' => by cases hs <;> cases hs' <;> exact h, fun h => h k xs hs⟩
    cases hs <;> simpa only [remodel, remodelAll_map, listValidate, Val.iter, Val.seq?, ok_bind] using h
  cases v
  case list xs => exact seq _ _ _ (.list xs)
  case tuple xs => exact seq _ _ _ (.tuple xs)
  all_goals first
    | exact other _ rfl (by rintro _ _ ⟨⟩)
    | exact bad _ (by simp) rfl (by rintro _ _ ⟨⟩)

theorem opt_refines (v : Val) : Refines (optValidate v) (optValidate (remodel noModel v)) (OwnOne v) := by
  by_cases hv : v = .none
  · subst hv
    exact (Refines.same rfl).congr (by simp [OwnOne])
  · have hr : remodel noModel v ≠ .none := fun h => hv (remodel_none.1 h)
    have e : ∀ w : Val, w ≠ .none → optValidate w = w.validate := by
      intro w hw; cases w <;> first | rfl | exact absurd rfl hw
    rw [e _ hv, e _ hr]
    exact value_refines v

theorem clauses_refine (b : Body) : Refines (validateClauses b) (validateClauses (remodelBody noModel b)) (OwnModels b) := by
  have h := (list_refines b.select).and ((list_refines b.groupby).and ((list_refines b.arrayJoin).and ((list_refines b.where_).and
    ((list_refines b.having).and ((list_refines b.orderby).and ((opt_refines b.limitby).and ((opt_refines b.limit).and
    ((opt_refines b.offset).and ((opt_refines b.granularity).and (opt_refines b.totals))))))))))
  refine h.congr ?_
  have hl : ∀ v, OwnList v ↔ ∀ k xs, SeqOf v k xs → ∀ c ∈ xs, OwnOne c := fun v => Iff.rfl
  constructor
  · rintro ⟨h1, h2, h3, h4, h5, h6, h7, h8, h9, h10, h11⟩ c e d hi
    rcases hi with ⟨v, hv, k, xs, hs, hm⟩ | hi
    · simp only [List.mem_cons, List.not_mem_nil, or_false] at hv
      have : OwnList v := by rcases hv with rfl | rfl | rfl | rfl | rfl | rfl <;> assumption
      exact this k xs hs _ hm c e d rfl
    · simp only [List.mem_cons, List.not_mem_nil, or_false] at hi
      rcases hi with h | h | h | h | h
      · exact h7 c e d h.symm
      · exact h8 c e d h.symm
      · exact h9 c e d h.symm
      · exact h10 c e d h.symm
      · exact h11 c e d h.symm
  · intro h
    have l : ∀ v ∈ [b.select, b.groupby, b.arrayJoin, b.where_, b.having, b.orderby], OwnList v := fun v hv k xs hs x hx c e d hc =>
      h c e d (.inl ⟨v, hv, k, xs, hs, hc ▸ hx⟩)
    have o : ∀ v ∈ [b.limitby, b.limit, b.offset, b.granularity, b.totals], OwnOne v := fun v hv c e d hc => h c e d (.inr (hc ▸ hv))
    exact ⟨l _ (by simp), l _ (by simp), l _ (by simp), l _ (by simp), l _ (by simp), l _ (by simp), o _ (by simp), o _ (by simp),
      o _ (by simp), o _ (by simp), o _ (by simp)⟩

omit U in
theorem remodel_combineChecks (b : Body) : combineChecks (remodelBody f b) = combineChecks b := by
  have h1 : selectMissing (remodel f b.select) = selectMissing b.select := by
    cases b.select <;> simp [remodel, selectMissing, Val.iter, Val.seq?, remodelAll_map]
  have h2 : totalsSet (remodel f b.totals) = totalsSet b.totals := by
    cases b.totals <;> first | rfl | simp [remodel, totalsSet, Val.truthy, remodelAll_map]
  simp only [combineChecks, remodelBody, h1, h2, remodel_truthy]

omit U in
theorem remodel_innerNames (xs : List Val) : innerNames (xs.map (remodel f)) = innerNames xs := by
  induction xs with
  | nil => rfl
  | cons x xs ih => cases x <;> simp [remodel, innerNames, ih, remodelColumn]

omit U in
theorem remodel_validateSubquery (b : Body) (cs : List ColumnObj) :
    validateSubquery (remodelBody f b) (cs.map (remodelColumn f)) = validateSubquery b cs := by
  have hc : ∀ ns : List (Option Str), (cs.map (remodelColumn f)).all (fun c => ns.contains (some c.name)) = cs.all fun c => ns.contains (some c.name) := by
    intro ns; rw [List.all_map]; rfl
  unfold validateSubquery
  cases h : b.select <;> simp only [remodelBody, h, remodel, Val.iter, Val.seq?, remodelAll_map, ok_bind, remodel_innerNames, hc] <;> rfl

omit U in
theorem remodel_validateJoin (rs : List RelObj) (cs : List ColumnObj) :
    validateJoin (rs.map (remodelRel f)) (cs.map (remodelColumn f)) = validateJoin rs cs := by
  simp only [validateJoin, remodel_aliasMappings, List.all_map]
  congr 2
  funext c
  obtain ⟨n, e, s, k⟩ := c
  cases e <;> rfl

end Validation

section Equality
variable {f : Option DataModel → Option DataModel}

theorem sameModel_iff {a b : Option DataModel} : optEq DataModel.pyEq a b = true ↔ SameModel a b := by
  cases a <;> cases b <;> simp only [optEq, Bool.false_eq_true, false_iff, true_iff]
  · exact .none
  · rintro ⟨⟩
  · rintro ⟨⟩
  · rename_i d d'
    simp only [DataModel.pyEq, Bool.and_eq_true, List.all_eq_true, List.contains_iff_mem, beq_iff_eq]
    exact ⟨fun ⟨⟨h1, h2⟩, h3⟩ => .some _ _ (fun x => ⟨h1 x, h2 x⟩) h3, fun h => by
      cases h with
      | some _ _ h1 h2 => exact ⟨⟨fun x => (h1 x).1, fun x => (h1 x).2⟩, h2⟩⟩

/-- No two data models of the same entity or storage, one in each value, become equal or different. -/
structure Cross (f : Option DataModel → Option DataModel) (a b : Val) : Prop where
  entities : ∀ x y e e', Part x a → Part y b → e ∈ ownEntities x → e' ∈ ownEntities y → e.name = e'.name → e.alias = e'.alias →
    (SameModel (f e.dataModel) (f e'.dataModel) ↔ SameModel e.dataModel e'.dataModel)
  storages : ∀ s s', Part (.storage s) a → Part (.storage s') b → s.name = s'.name →
    (SameModel (f s.dataModel) (f s'.dataModel) ↔ SameModel s.dataModel s'.dataModel)

theorem Cross.child {a b x y : Val} (h : Cross f a b) (hx : x ∈ a.children) (hy : y ∈ b.children) : Cross f x y :=
  ⟨fun u v e e' hu hv => h.entities u v e e' (part_child hx hu) (part_child hy hv),
    fun s s' hs hs' => h.storages s s' (part_child hx hs) (part_child hy hs')⟩

theorem remodel_entityEq {e e' : EntityObj}
    (h : e.name = e'.name → e.alias = e'.alias → (SameModel (f e.dataModel) (f e'.dataModel) ↔ SameModel e.dataModel e'.dataModel)) :
    (remodelEntity f e).pyEq (remodelEntity f e') = e.pyEq e' := by
  simp only [EntityObj.pyEq, remodelEntity]
  by_cases h1 : e.name = e'.name
  · by_cases h2 : e.alias = e'.alias
    · congr 1
      rw [Bool.eq_iff_iff, sameModel_iff, sameModel_iff]
      exact h h1 h2
    · simp only [beq_eq_false_iff_ne.2 h2, Bool.false_and, Bool.and_false]
  · simp only [beq_eq_false_iff_ne.2 h1, Bool.false_and]

theorem remodel_columnEq {c c' : ColumnObj} (h : ∀ e ∈ c.entity.toList, ∀ e' ∈ c'.entity.toList, (remodelEntity f e).pyEq (remodelEntity f e') = e.pyEq e') :
    (remodelColumn f c).pyEq (remodelColumn f c') = c.pyEq c' := by
  obtain ⟨n, e, s, k⟩ := c
  obtain ⟨n', e', s', k'⟩ := c'
  cases e <;> cases e' <;> simp only [ColumnObj.pyEq, remodelColumn, Option.map, optEq]
  rw [h _ (by simp) _ (by simp)]

theorem remodel_listEq {α : Type} {g : α → α → Bool} {r : α → α} : ∀ {as bs : List α}, (∀ a ∈ as, ∀ b ∈ bs, g (r a) (r b) = g a b) →
    listEq g (as.map r) (bs.map r) = listEq g as bs
  | [], [], _ => rfl
  | [], _ :: _, _ => rfl
  | _ :: _, [], _ => rfl
  | a :: as, b :: bs, h => by
    simp only [List.map_cons, listEq]
    rw [h a (by simp) b (by simp), remodel_listEq fun x hx y hy => h x (by simp [hx]) y (by simp [hy])]

theorem remodel_pyEqList : ∀ {as bs : List Val}, (∀ a ∈ as, ∀ b ∈ bs, pyEq (remodel f a) (remodel f b) = pyEq a b) →
    pyEqList (remodelAll f as) (remodelAll f bs) = pyEqList as bs
  | [], [], _ => rfl
  | [], _ :: _, _ => rfl
  | _ :: _, [], _ => rfl
  | a :: as, b :: bs, h => by
    simp only [remodelAll, pyEqList]
    rw [h a (by simp) b (by simp), remodel_pyEqList fun x hx y hy => h x (by simp [hx]) y (by simp [hy])]

theorem remodel_pyEq : ∀ a b : Val, Cross f a b → pyEq (remodel f a) (remodel f b) = pyEq a b := by
  intro a
  induction a using Val.childInd with
  | step v ih =>
    intro b h
    have ih' : ∀ x ∈ v.children, ∀ y ∈ b.children, pyEq (remodel f x) (remodel f y) = pyEq x y :=
      fun x hx y hy => ih x hx y (h.child hx hy)
    have he : ∀ e ∈ ownEntities v, ∀ e' ∈ ownEntities b, (remodelEntity f e).pyEq (remodelEntity f e') = e.pyEq e' :=
      fun e hm e' hm' => remodel_entityEq (h.entities v b e e' .here .here hm hm')
    have hs := h.storages
    clear ih h
    cases v <;> cases b <;> first
      | rfl
      | skip
    all_goals simp only [Val.children, ownEntities] at ih' he
    case list.list => exact remodel_pyEqList ih'
    case tuple.tuple => exact remodel_pyEqList ih'
    case column.column => exact remodel_columnEq he
    case aliased.aliased => simp only [remodel, pyEq, remodel_columnEq he]
    case curried.curried =>
      simp only [remodel, pyEq]
      rw [remodel_pyEqList fun x hx y hy => ih' x (by simp [hx]) y (by simp [hy]),
        remodel_pyEqList fun x hx y hy => ih' x (by simp [hx]) y (by simp [hy])]
    case lam.lam => simp only [remodel, pyEq, ih' _ (List.mem_singleton_self _) _ (List.mem_singleton_self _)]
    case orderby.orderby => simp only [remodel, pyEq, ih' _ (List.mem_singleton_self _) _ (List.mem_singleton_self _)]
    case cond.cond l o r l' o' r' => simp only [remodel, pyEq, ih' l (by simp) l' (by simp), ih' r (by simp) r' (by simp)]
    case boolCond.boolCond => simp only [remodel, pyEq, remodel_pyEqList ih']
    case limitby.limitby =>
      simp only [remodel, pyEq]
      rw [remodel_listEq fun c hc c' hc' => remodel_columnEq fun e hm e' hm' => he e (by
        simp only [List.mem_filterMap]; exact ⟨c, hc, by simpa using hm⟩) e' (by
        simp only [List.mem_filterMap]; exact ⟨c', hc', by simpa using hm'⟩)]
    case entity.entity e e' => exact he e (by simp) e' (by simp)
    case storage.storage s s' =>
      simp only [remodel, pyEq, StorageObj.pyEq]
      by_cases h1 : s.name = s'.name
      · congr 1
        rw [Bool.eq_iff_iff, sameModel_iff, sameModel_iff]
        exact hs s s' .here .here h1
      · simp only [beq_eq_false_iff_ne.2 h1, Bool.false_and]
    case rel.rel r r' =>
      simp only [remodel, pyEq, RelObj.pyEq, remodelRel, he r.lhs (by simp) r'.lhs (by simp), he r.rhs (by simp) r'.rhs (by simp)]
    case join.join k rs k' rs' =>
      simp only [remodel, pyEq]
      rw [remodel_listEq fun r hr r' hr' => by
        have e1 := he r.lhs (by simp only [List.mem_flatMap]; exact ⟨r, hr, by simp⟩) r'.lhs (by simp only [List.mem_flatMap]; exact ⟨r', hr', by simp⟩)
        have e2 := he r.rhs (by simp only [List.mem_flatMap]; exact ⟨r, hr, by simp⟩) r'.rhs (by simp only [List.mem_flatMap]; exact ⟨r', hr', by simp⟩)
        simp only [RelObj.pyEq, remodelRel, e1, e2]]

end Equality

section Queries
variable {f g : Option DataModel → Option DataModel}

theorem remodelColumn_remodel (c : ColumnObj) : remodelColumn g (remodelColumn f c) = remodelColumn (fun d => g (f d)) c := by
  obtain ⟨n, e, s, k⟩ := c
  cases e <;> rfl

mutual
theorem remodel_remodel : ∀ v, remodel g (remodel f v) = remodel (fun d => g (f d)) v
  | .list xs => by simp only [remodel, remodelAll_remodel xs]
  | .tuple xs => by simp only [remodel, remodelAll_remodel xs]
  | .column c => by simp only [remodel, remodelColumn_remodel]
  | .aliased c a => by simp only [remodel, remodelColumn_remodel]
  | .curried _ n ik is pk ps a => by simp only [remodel, remodelAll_remodel is, remodelAll_remodel ps]
  | .lam k ids b => by simp only [remodel, remodel_remodel b]
  | .cond l o r => by simp only [remodel, remodel_remodel l, remodel_remodel r]
  | .boolCond cls o k cs => by simp only [remodel, remodelAll_remodel cs]
  | .orderby e d => by simp only [remodel, remodel_remodel e]
  | .limitby k cs n => by
    simp only [remodel, List.map_map]
    congr 2
    funext c
    exact remodelColumn_remodel c
  | .join k rs => by
    simp only [remodel, List.map_map]
    rfl
  | .none | .bool _ | .int _ | .float _ | .str _ | .bytes _ | .date _ | .datetime _ | .ident _
  | .limit _ | .offset _ | .granularity _ | .totals _ | .extrapolate _ | .entity _ | .storage _ | .rel _
  | .op _ | .boolOp _ | .direction _ | .dataModel _ | .other _ => rfl

theorem remodelAll_remodel : ∀ xs, remodelAll g (remodelAll f xs) = remodelAll (fun d => g (f d)) xs
  | [] => rfl
  | x :: xs => by simp only [remodelAll, remodel_remodel x, remodelAll_remodel xs]
end

theorem remodelQuery_remodel (q : Query) : remodelQuery g (remodelQuery f q) = remodelQuery (fun d => g (f d)) q := by
  induction q with
  | base m b => simp only [remodelQuery, remodelBody, remodel_remodel]
  | nested q b ih => simp only [remodelQuery, remodelBody, remodel_remodel, ih]

theorem occurs_remodel {c : ColumnObj} : ∀ v, Occurs c (remodel f v) → ∃ c0, c = remodelColumn f c0 ∧ Occurs c0 v := by
  have hl : ∀ {xs : List Val} {y : Val}, y ∈ remodelAll f xs → ∃ x ∈ xs, y = remodel f x := by
    intro xs y h
    rw [remodelAll_map, List.mem_map] at h
    obtain ⟨x, hx, rfl⟩ := h
    exact ⟨x, hx, rfl⟩
  intro v
  induction v using Val.childInd with
  | step v ih =>
    intro h
    cases v <;> simp only [remodel] at h <;> try (cases h; done)
    case column c0 => cases h; exact ⟨c0, rfl, .column⟩
    case aliased c0 a => cases h; exact ⟨c0, rfl, .aliased _⟩
    case curried =>
      cases h with
      | init _ _ _ _ _ _ _ y hm h =>
        obtain ⟨x, hx, rfl⟩ := hl hm
        obtain ⟨c0, rfl, h0⟩ := ih x (by simp [Val.children, hx]) h
        exact ⟨c0, rfl, .init _ _ _ _ _ _ _ x hx h0⟩
      | param _ _ _ _ _ _ _ y hm h =>
        obtain ⟨x, hx, rfl⟩ := hl hm
        obtain ⟨c0, rfl, h0⟩ := ih x (by simp [Val.children, hx]) h
        exact ⟨c0, rfl, .param _ _ _ _ _ _ _ x hx h0⟩
    case lam =>
      cases h with
      | lam _ _ _ h =>
        obtain ⟨c0, rfl, h0⟩ := ih _ (by simp [Val.children]) h
        exact ⟨c0, rfl, .lam _ _ _ h0⟩
    case cond =>
      cases h with
      | condL _ _ _ h =>
        obtain ⟨c0, rfl, h0⟩ := ih _ (by simp [Val.children]) h
        exact ⟨c0, rfl, .condL _ _ _ h0⟩
      | condR _ _ _ h1 h2 h =>
        obtain ⟨c0, rfl, h0⟩ := ih _ (by simp [Val.children]) h
        exact ⟨c0, rfl, .condR _ _ _ h1 h2 h0⟩
    case boolCond =>
      cases h with
      | bool _ _ _ _ y hm h =>
        obtain ⟨x, hx, rfl⟩ := hl hm
        obtain ⟨c0, rfl, h0⟩ := ih x (by simp [Val.children, hx]) h
        exact ⟨c0, rfl, .bool _ _ _ _ x hx h0⟩
    case orderby =>
      cases h with
      | orderby _ _ h =>
        obtain ⟨c0, rfl, h0⟩ := ih _ (by simp [Val.children]) h
        exact ⟨c0, rfl, .orderby _ _ h0⟩
    case limitby =>
      cases h with
      | limitby _ _ _ h =>
        rw [List.mem_map] at h
        obtain ⟨c0, hm, rfl⟩ := h
        exact ⟨c0, rfl, .limitby _ _ _ hm⟩

theorem seqOf_remodel {v : Val} {k : SeqKind} {ys : List Val} (h : SeqOf (remodel f v) k ys) : ∃ xs, SeqOf v k xs ∧ ys = xs.map (remodel f) := by
  cases v <;> simp only [remodel] at h <;> cases h
  · exact ⟨_, .list _, remodelAll_map _⟩
  · exact ⟨_, .tuple _, remodelAll_map _⟩

theorem occursInList_remodel {c : ColumnObj} {v : Val} (h : OccursInList c (remodel f v)) :
    ∃ c0, c = remodelColumn f c0 ∧ OccursInList c0 v := by
  obtain ⟨k, ys, hs, y, hy, h⟩ := h
  obtain ⟨xs, hx, rfl⟩ := seqOf_remodel hs
  obtain ⟨x, hm, rfl⟩ := List.mem_map.1 hy
  obtain ⟨c0, rfl, h0⟩ := occurs_remodel x h
  exact ⟨c0, rfl, k, xs, hx, x, hm, h0⟩

theorem occursInBody_remodel {c : ColumnObj} {b : Body} (h : OccursInBody c (remodelBody f b)) :
    ∃ c0, c = remodelColumn f c0 ∧ OccursInBody c0 b := by
  unfold OccursInBody at h ⊢
  rcases h with h | h | h | h | h | h | h | h | h | h | h
  · obtain ⟨c0, e, h⟩ := occursInList_remodel h; exact ⟨c0, e, .inl h⟩
  · obtain ⟨c0, e, h⟩ := occursInList_remodel h; exact ⟨c0, e, .inr (.inl h)⟩
  · obtain ⟨c0, e, h⟩ := occursInList_remodel h; exact ⟨c0, e, .inr (.inr (.inl h))⟩
  · obtain ⟨c0, e, h⟩ := occursInList_remodel h; exact ⟨c0, e, .inr (.inr (.inr (.inl h)))⟩
  · obtain ⟨c0, e, h⟩ := occursInList_remodel h; exact ⟨c0, e, .inr (.inr (.inr (.inr (.inl h))))⟩
  · obtain ⟨c0, e, h⟩ := occursInList_remodel h; exact ⟨c0, e, .inr (.inr (.inr (.inr (.inr (.inl h)))))⟩
  · obtain ⟨c0, e, h⟩ := occurs_remodel _ h; exact ⟨c0, e, .inr (.inr (.inr (.inr (.inr (.inr (.inl h))))))⟩
  · obtain ⟨c0, e, h⟩ := occurs_remodel _ h; exact ⟨c0, e, .inr (.inr (.inr (.inr (.inr (.inr (.inr (.inl h)))))))⟩
  · obtain ⟨c0, e, h⟩ := occurs_remodel _ h; exact ⟨c0, e, .inr (.inr (.inr (.inr (.inr (.inr (.inr (.inr (.inl h))))))))⟩
  · obtain ⟨c0, e, h⟩ := occurs_remodel _ h; exact ⟨c0, e, .inr (.inr (.inr (.inr (.inr (.inr (.inr (.inr (.inr (.inl h)))))))))⟩
  · obtain ⟨c0, e, h⟩ := occurs_remodel _ h; exact ⟨c0, e, .inr (.inr (.inr (.inr (.inr (.inr (.inr (.inr (.inr (.inr h)))))))))⟩

theorem hasItem_remodel {c : ColumnObj} {b : Body} (h : HasItem (remodelBody f b) (.column c)) :
    ∃ c0, c = remodelColumn f c0 ∧ HasItem b (.column c0) := by
  have hcol : ∀ v : Val, remodel f v = .column c → ∃ c0, c = remodelColumn f c0 ∧ v = .column c0 := by
    intro v hv
    cases v <;> cases hv
    exact ⟨_, rfl, rfl⟩
  rcases h with ⟨v, hv, k, ys, hs, hm⟩ | h
  · have : ∃ w ∈ [b.select, b.groupby, b.arrayJoin, b.where_, b.having, b.orderby], v = remodel f w := by
      simp only [remodelBody, List.mem_cons, List.not_mem_nil, or_false] at hv
      rcases hv with rfl | rfl | rfl | rfl | rfl | rfl <;> exact ⟨_, by simp, rfl⟩
    obtain ⟨w, hw, rfl⟩ := this
    obtain ⟨xs, hx, rfl⟩ := seqOf_remodel hs
    obtain ⟨x, hx', hc⟩ := List.mem_map.1 hm
    obtain ⟨c0, e, rfl⟩ := hcol x hc
    exact ⟨c0, e, .inl ⟨w, hw, k, xs, hx, hx'⟩⟩
  · have : ∃ w ∈ [b.limitby, b.limit, b.offset, b.granularity, b.totals], remodel f w = .column c := by
      simp only [remodelBody, List.mem_cons, List.not_mem_nil, or_false] at h
      rcases h with h | h | h | h | h <;> exact ⟨_, by simp, h.symm⟩
    obtain ⟨w, hw, hc⟩ := this
    obtain ⟨c0, e, rfl⟩ := hcol w hc
    exact ⟨c0, e, .inr hw⟩

theorem knows_remodel {d : DataModel} {c : ColumnObj} : Knows d (remodelColumn f c) ↔ Knows d c := Iff.rfl

theorem widens_knows {d d' : DataModel} {c : ColumnObj} (hf : Widens f) (hd : f (some d) = some d') (h : Knows d c) : Knows d' c := by
  obtain ⟨x, hx, e⟩ := h
  obtain ⟨y, hy, e'⟩ := hf.some d d' hd x hx
  exact ⟨y, hy, e'.trans e⟩

theorem widens_some {o : Option DataModel} {d' : DataModel} (hf : Widens f) (h : f o = some d') : ∃ d, o = some d := by
  cases o with
  | none => rw [hf.none] at h; cases h
  | some d => exact ⟨d, rfl⟩

theorem ownModels_remodel {b : Body} (hf : Widens f) (h : OwnModels b) : OwnModels (remodelBody f b) := by
  intro c e d' hi he hd
  obtain ⟨c0, rfl, h0⟩ := hasItem_remodel hi
  obtain ⟨n, e0, s, k⟩ := c0
  cases e0 with
  | none => cases he
  | some e0 =>
    cases he
    obtain ⟨d, hd0⟩ := widens_some hf hd
    exact widens_knows hf (by rw [← hd0]; exact hd) (h { name := n, entity := some e0, subscriptable := s, key := k } e0 d h0 rfl hd0)

theorem conforms_remodel (hf : Widens f) : ∀ {q : Query}, Conforms q → Conforms (remodelQuery f q)
  | .base m b, ⟨h1, h2⟩ => by
    refine ⟨ownModels_remodel hf h1, fun d' c hm hc => ?_⟩
    obtain ⟨c0, rfl, h0⟩ := occursInBody_remodel hc
    generalize hv : remodel f m = v at hm
    cases hm with
    | entity e _ hd =>
      cases m <;> cases hv
      rename_i e
      obtain ⟨d, hd0⟩ := widens_some hf hd
      exact widens_knows hf (by rw [← hd0]; exact hd) (h2 d c0 (.entity e d hd0) h0)
    | storage e _ hd =>
      cases m <;> cases hv
      rename_i e
      obtain ⟨d, hd0⟩ := widens_some hf hd
      exact widens_knows hf (by rw [← hd0]; exact hd) (h2 d c0 (.storage e d hd0) h0)
  | .nested q b, ⟨h1, h2⟩ => ⟨conforms_remodel hf h1, ownModels_remodel hf h2⟩

theorem validateModel_refines (dm : Option DataModel) (cs cs' : List ColumnObj) :
    Refines (validateModel dm cs) (validateModel none cs') (∀ d, dm = some d → ∀ c ∈ cs, Knows d c) := by
  have hn : ∀ cs : List ColumnObj, validateModel none cs = .ok () := fun cs => validateModel_iff.2 fun c _ => rfl
  rw [hn cs']
  cases dm with
  | none => exact (Refines.same (hn cs).symm).congr (by simp)
  | some d =>
    refine ⟨by simp [validateModel_iff, validateDataModel_iff.1], fun _ => ?_⟩
    induction cs with
    | nil => exact .inl rfl
    | cons c cs ih =>
      simp only [validateModel]
      by_cases hk : Knows d c
      · rw [validateDataModel_iff.1.2 hk]; exact ih
      · rw [validateDataModel_iff.2 hk]; exact .inr rfl

theorem match_refines (m : Val) (b : Body) :
    Refines (validateMatchBase m b) (validateMatchBase (remodel noModel m) (remodelBody noModel b))
      (∀ d c, ModelOf m d → OccursInBody c b → Knows d c) := by
  simp only [validateMatchBase, remodel_searchBody]
  cases hs : searchBody b with
  | error e => exact ⟨by simp [Except.map, error_bind], by simp [Except.map, error_bind]⟩
  | ok cs =>
    simp only [Except.map, ok_bind]
    have hm := fun c => searchBody_mem (c := c) hs
    cases m
    case entity e =>
      refine (validateModel_refines e.dataModel cs (cs.map (remodelColumn noModel))).congr ?_
      constructor
      · intro h d c hd hc
        cases hd with
        | entity _ _ hd => exact h d hd c ((hm c).2 hc)
      · intro h d hd c hc
        exact h d c (.entity e d hd) ((hm c).1 hc)
    case storage e =>
      refine (validateModel_refines e.dataModel cs (cs.map (remodelColumn noModel))).congr ?_
      constructor
      · intro h d c hd hc
        cases hd with
        | storage _ _ hd => exact h d hd c ((hm c).2 hc)
      · intro h d hd c hc
        exact h d c (.storage e d hd) ((hm c).1 hc)
    case join k rs => exact (Refines.same (remodel_validateJoin rs cs)).congr (by simp only [true_iff]; rintro d c ⟨⟩)
    all_goals exact (Refines.same rfl).congr (by simp only [true_iff]; rintro d c ⟨⟩)

theorem remodel_body (q : Query) : (remodelQuery f q).body = remodelBody f q.body := by cases q <;> rfl

variable [U : PyUnicode]

theorem query_refines (q : Query) : Refines q.validate (remodelQuery noModel q).validate (Conforms q) := by
  induction q with
  | base m b =>
    simp only [Query.validate, remodelQuery]
    cases hc : m.isColumn with
    | false =>
      exact Refines.congr (Refines.and (Refines.same (remodel_validate m hc)) ((clauses_refine b).and ((match_refines m b).and
        (Refines.same (remodel_combineChecks b))))) (by simp [Conforms])
    | true =>
      cases m <;> cases hc
      have hno : ∀ (c : ColumnObj) (b : Body), validateMatchBase (.column c) b ≠ .ok () := by
        intro c b h
        simp only [validateMatchBase, bind_eq_ok] at h
        obtain ⟨_, _, h⟩ := h
        cases h
      constructor
      · simp only [bind_eq_ok, remodel]
        constructor
        · rintro ⟨_, _, _, _, _, h, _⟩; exact absurd h (hno _ _)
        · rintro ⟨⟨_, _, _, _, _, h, _⟩, _⟩; exact absurd h (hno _ _)
      · simp only [bind_eq_ok, remodel]
        rintro ⟨_, _, _, _, _, h, _⟩; exact absurd h (hno _ _)
  | nested q b ih =>
    simp only [Query.validate, remodelQuery, remodel_searchBody, remodel_body]
    refine Refines.congr (ih.and ((clauses_refine b).and (P' := True) ?_)) (by simp [Conforms])
    cases searchBody b with
    | error e => exact Refines.same rfl
    | ok cs =>
      simp only [Except.map, ok_bind, remodel_validateSubquery, remodel_combineChecks]
      exact Refines.same rfl

theorem valid_remodel (hf : Widens f) {q : Query} (h : q.validate = .ok ()) : (remodelQuery f q).validate = .ok () := by
  obtain ⟨h1, h2⟩ := (query_refines q).iff.1 h
  refine (query_refines _).iff.2 ⟨?_, conforms_remodel hf h2⟩
  rw [remodelQuery_remodel]
  exact h1

omit U in
theorem remodel_collect {shared : Val} : ∀ {rest : List Val}, (∀ l o r, .cond l o r ∈ rest → Cross f l shared) →
    collectRhs (remodel f shared) (remodelAll f rest) = (collectRhs shared rest).map (remodelAll f)
  | [], _ => rfl
  | c :: rest, h => by
    have ih := remodel_collect (rest := rest) (shared := shared) fun l o r hm => h l o r (List.mem_cons_of_mem _ hm)
    cases c
    case cond l o r =>
      simp only [remodelAll, remodel, collectRhs, remodel_truthy, remodel_pyEq l shared (h l o r List.mem_cons_self), ih]
      split
      · rfl
      · cases collectRhs shared rest <;> rfl
    all_goals rfl

theorem remodel_optimizeCondition {c : Val} (h : ∀ a b, Part a c → Part b c → Cross f a b) :
    optimizeCondition (remodel f c) = (optimizeCondition c).map (·.map (remodel f)) := by
  cases c
  case boolCond cls o k cs =>
    cases o
    case and => rfl
    case or =>
      cases cs with
      | nil => rfl
      | cons x rest =>
        cases x
        case cond l o r =>
          cases o
          case eq =>
            have hc : collectRhs (remodel f l) (remodelAll f rest) = (collectRhs l rest).map (remodelAll f) :=
              remodel_collect fun l' o r' hm => h _ _
                (part_child (x := .cond l' o r') (by simp [Val.children, hm]) (.lhs _ _ _ .here))
                (part_child (x := .cond l .eq r) (by simp [Val.children]) (.lhs _ _ _ .here))
            simp only [remodel, remodelAll, optimizeCondition, hc]
            cases collectRhs l rest with
            | none => rfl
            | some rs =>
              simp only [Option.map]
              have : mkCondition (remodel f l) (.op .in_) (.list (remodel f r :: remodelAll f rs)) =
                  (mkCondition l (.op .in_) (.list (r :: rs))).map (remodel f) := by
                have := remodel_checkCondition (f := f) l (.op .in_) (.list (r :: rs))
                simp only [remodel, remodelAll] at this
                simp only [mkCondition, this]
                cases checkCondition l (.op .in_) (.list (r :: rs)) <;> rfl
              rw [this]
              cases mkCondition l (.op .in_) (.list (r :: rs)) <;> rfl
          all_goals rfl
        all_goals rfl
  all_goals rfl

theorem remodel_optimizeLoop : ∀ {cs : List Val}, (∀ c ∈ cs, ∀ a b, Part a c → Part b c → Cross f a b) →
    optimizeLoop (cs.map (remodel f)) = (optimizeLoop cs).map fun p => (p.1.map (remodel f), p.2)
  | [], _ => rfl
  | c :: cs, h => by
    simp only [List.map_cons, optimizeLoop, remodel_optimizeCondition (h c List.mem_cons_self),
      remodel_optimizeLoop fun c' hc => h c' (List.mem_cons_of_mem _ hc)]
    cases optimizeCondition c with
    | error e => rfl
    | ok res =>
      cases optimizeLoop cs with
      | error e => rfl
      | ok p => cases res <;> rfl

omit U in
theorem part_within {x y z : Val} (hx : Part x y) (hy : Part y z) : Part x z := by
  induction hy with
  | here => exact hx
  | list _ _ hm _ ih => exact .list _ _ hm ih
  | tuple _ _ hm _ ih => exact .tuple _ _ hm ih
  | init _ _ _ _ _ _ _ _ hm _ ih => exact .init _ _ _ _ _ _ _ _ hm ih
  | param _ _ _ _ _ _ _ _ hm _ ih => exact .param _ _ _ _ _ _ _ _ hm ih
  | body _ _ _ _ ih => exact .body _ _ _ ih
  | lhs _ _ _ _ ih => exact .lhs _ _ _ ih
  | rhs _ _ _ _ ih => exact .rhs _ _ _ ih
  | item _ _ _ _ _ hm _ ih => exact .item _ _ _ _ _ hm ih
  | ordered _ _ _ ih => exact .ordered _ _ ih

omit U in
theorem distinguishes_cross {v a b : Val} (h : Distinguishes f v) (ha : Part a v) (hb : Part b v) : Cross f a b :=
  ⟨fun x y e e' hx hy => h.entities x y e e' (part_within hx ha) (part_within hy hb),
    fun s s' hs hs' => h.storages s s' (part_within hs ha) (part_within hs' hb)⟩

theorem remodel_withBody (hf : Widens f) {q : Query} (hq : q.validate = .ok ()) (b : Body) :
    (remodelQuery f q).withBody (remodelBody f b) = (q.withBody b).map (remodelQuery f) := by
  cases q with
  | base m b0 =>
    simp only [remodelQuery, Query.withBody, mkQuery, remodel_isMatch]
    cases m.isMatch <;> rfl
  | nested q b0 =>
    have hi : q.validate = .ok () := by
      simp only [Query.validate, bind_eq_ok] at hq
      exact hq.choose_spec.1
    simp only [remodelQuery, Query.withBody, mkNested, hi, valid_remodel hf hi]
    rfl

theorem remodel_optimize (hf : Widens f) {q : Query} (hq : q.validate = .ok ()) (h : Distinguishes f q.body.where_) :
    (remodelQuery f q).optimize = q.optimize.map (remodelQuery f) := by
  have hw : (remodelQuery f q).body.where_ = remodel f q.body.where_ := by rw [remodel_body]; rfl
  by_cases h0 : q.body.where_ = .none
  · simp only [Query.optimize, hw, h0]
    rfl
  · have hne : ∀ q : Query, q.body.where_ ≠ .none → q.optimize = (do
        let xs ← q.body.where_.iter
        let o ← Verif.optimize xs
        match o with
        | some new => q.withBody { q.body with where_ := .list new }
        | none => .ok q) := by
      intro q hn
      unfold Query.optimize
      split
      · rename_i e; exact absurd e hn
      · rfl
    rw [hne q h0, hne (remodelQuery f q) (by rw [hw, ne_eq, remodel_none]; exact h0), hw, remodel_iter]
    cases hx : q.body.where_.iter with
    | error e => rfl
    | ok xs =>
      have hp : ∀ c ∈ xs, ∀ a b, Part a c → Part b c → Cross f a b := by
        intro c hc a b ha hb
        revert h hx
        cases q.body.where_ <;> intro h hx <;> simp only [Val.iter, Val.seq?, Except.ok.injEq, reduceCtorEq] at hx <;> subst hx
        case str s =>
          obtain ⟨x, _, rfl⟩ := List.mem_map.1 hc
          cases ha
          cases hb
          exact ⟨fun x y e e' hx _ he => (by cases hx; cases he), fun s s' hs => (by cases hs)⟩
        case bytes s =>
          obtain ⟨x, _, rfl⟩ := List.mem_map.1 hc
          cases ha
          cases hb
          exact ⟨fun x y e e' hx _ he => (by cases hx; cases he), fun s s' hs => (by cases hs)⟩
        · exact distinguishes_cross h (.list _ _ hc ha) (.list _ _ hc hb)
        · exact distinguishes_cross h (.tuple _ _ hc ha) (.tuple _ _ hc hb)
      simp only [Except.map, ok_bind, Verif.optimize, remodel_optimizeLoop hp]
      cases optimizeLoop xs with
      | error e => rfl
      | ok p =>
        obtain ⟨new, opt⟩ := p
        cases opt with
        | false => rfl
        | true =>
          have := remodel_withBody hf hq { q.body with where_ := .list new }
          simp only [remodelBody, remodel, remodelAll_map] at this
          simp only [ok_bind, ite_true, remodel_body]
          exact this

end Queries

end Verif
