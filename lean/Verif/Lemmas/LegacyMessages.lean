import Verif.Model.LegacyMessages
import Verif.Spec.LegacyMessages
import Verif.Lemmas.LegacyErrors
import Verif.Lemmas.LegacyMoment
import Verif.Props.BuildMessages
import Verif.Props.QueryMessages

/-!
# Lemmas: what the exceptions of the conversion of a legacy body say
-/

namespace Verif.LegacyMsg
open Spec BuildMsg QueryMsg

section
variable [PyShow] [PyText] [U : PyUnicode] [D : PyDecimal]

/-! ### The results are those of the functions without messages -/

omit [PyShow] [PyText] U D in
theorem drop_map {α β : Type} (x : Except Raised α) (f : α → β) : dropMessage (x.map f) = (dropMessage x).map f := by cases x <;> rfl

omit [PyShow] [PyText] U D in
theorem drop_bind' {α β : Type} (x : Except Raised α) (f : α → Except Raised β) :
    dropMessage (x.bind f) = (dropMessage x).bind fun a => dropMessage (f a) := by cases x <;> rfl

omit [PyShow] [PyText] U D in
theorem drop_error {α : Type} (e : Err) (m : Option Str) : dropMessage (.error (e, m) : Except Raised α) = .error e := rfl

omit D in
theorem drop_function (n p a : Val) : dropMessage (mkFunctionMsg n p a) = mkFunction n p a := drop_call (.function n p a)

omit D in
theorem drop_condition (l o r : Val) : dropMessage (mkConditionMsg l o r) = mkCondition l o r := drop_call (.condition l o r)

omit D in
theorem drop_text (s : Str) : dropMessage (parseExpTextMsg s) = parseExpText s := by
  unfold parseExpTextMsg parseExpText
  simp only [drop_if, drop_ok, BuildMsg.drop_column]

omit [PyShow] [PyText] U in
theorem drop_parts {lhs : Except Raised Val} {lhs' : Except Err Val} (h : dropMessage lhs = lhs') (op : Val) (rest : List Val) :
    dropMessage (conditionPartsMsg lhs op rest) = conditionParts lhs' op rest := by
  subst h
  simp only [conditionPartsMsg, conditionParts, Verif.drop_bind, drop_elsewhere, drop_ok]

theorem drop_conditionFunction {lhs : Except Raised Val} {lhs' : Except Err Val} (h : dropMessage lhs = lhs') (op : Val) (rest : List Val) :
    dropMessage (conditionFunctionMsg lhs op rest) = conditionFunction lhs' op rest := by
  simp only [conditionFunctionMsg, conditionFunction, Verif.drop_bind, drop_parts h, drop_elsewhere, drop_function]

theorem drop_legacyList (a b : Val) (rest : List Val) {lhs ch : Except Raised Val} {lhs' ch' : Except Err Val} (h : dropMessage lhs = lhs')
    (hc : dropMessage ch = ch') : dropMessage (legacyListMsg a b rest lhs ch) = legacyList a b rest lhs' ch' := by
  subst hc
  simp only [legacyListMsg, legacyList, legacyCallMsg, legacyCall, drop_if, Verif.drop_bind, drop_conditionFunction h, drop_elsewhere,
    drop_function]

mutual
theorem drop_exp : ∀ v : Val, dropMessage (parseExpMsg v) = parseExp v
  | .str s => by rw [parseExpMsg, parseExp]; exact drop_text s
  | .list [] => by rw [parseExpMsg, parseExp]; rfl
  | .list [a] => by rw [parseExpMsg, parseExp, drop_bind', drop_elsewhere]; rfl
  | .list (a :: .list ys :: rest) => by
    rw [parseExpMsg, parseExp]
    exact drop_legacyList _ _ _ (drop_exp a) (by rw [drop_map, drop_exps ys])
  | .list (a :: b :: rest) => by
    by_cases hb : ∃ ys, b = .list ys
    · obtain ⟨ys, rfl⟩ := hb
      rw [parseExpMsg, parseExp]
      exact drop_legacyList _ _ _ (drop_exp a) (by rw [drop_map, drop_exps ys])
    · rw [parseExpMsg, parseExp]
      · exact drop_legacyList _ _ _ (drop_exp a) (by rw [drop_if, drop_map, drop_exp b]; rfl)
      · exact fun ys h => hb ⟨ys, h⟩
      · exact fun ys h => hb ⟨ys, h⟩
  | .none | .bool _ | .int _ | .float _ | .bytes _ | .tuple _ | .date _ | .datetime _ | .column _ | .curried .. | .ident _ | .lam .. |
    .aliased .. | .cond .. | .boolCond .. | .orderby .. | .limitby .. | .limit _ | .offset _ | .granularity _ | .totals _ |
    .extrapolate _ | .entity _ | .storage _ | .rel _ | .join .. | .op _ | .boolOp _ |
    .direction _ | .dataModel _ | .other _ => by simp only [parseExpMsg, parseExp]; rfl

theorem drop_exps : ∀ vs : List Val, dropMessage (parseExpsMsg vs) = parseExps vs
  | [] => rfl
  | v :: vs => by simp only [parseExpsMsg, parseExps, Verif.drop_bind, drop_exp v, drop_exps vs, drop_ok]
end

theorem drop_extension (col : Str) (v : Val) (a : Bool) : dropMessage (extensionMsg col v a) = extension col v a := by
  have h : ∀ c, dropMessage (extensionConditionMsg c v a) = extensionCondition c v a := by
    intro c
    unfold extensionConditionMsg extensionCondition
    cases v.asInt? with
    | some _ => simp only [drop_if, drop_map, drop_condition]
    | none => cases v.listOrTuple? <;> simp only [drop_map, drop_condition, drop_ok]
  simp only [extensionMsg, extension, drop_if, Verif.drop_bind, BuildMsg.drop_column, h, drop_ok]

theorem drop_conditionItems : ∀ xs : List Val, dropMessage (parseConditionItemsMsg xs) = parseConditionItems xs
  | [] => rfl
  | [a] => by rw [parseConditionItemsMsg, parseConditionItems, drop_bind', drop_exp]; rfl
  | a :: b :: rest => by
    simp only [parseConditionItemsMsg, parseConditionItems, Verif.drop_bind, drop_parts (drop_exp a), drop_condition]

theorem drop_conditions : ∀ xs : List Val, dropMessage (parseConditionsMsg xs) = parseConditions xs
  | [] => rfl
  | v :: vs => by
    simp only [parseConditionsMsg, parseConditions, parseConditionMsg, parseCondition, Verif.drop_bind, drop_elsewhere, drop_conditionItems,
      drop_conditions vs, drop_ok]

omit U D in
theorem drop_or (v : Val) : dropMessage (mkBoolMsg .or .or v) = mkOr v := drop_bool .or .or v

omit U D in
theorem drop_whereGroup (cs : List Val) : dropMessage (whereGroupMsg cs) = whereGroup cs := by
  simp only [whereGroupMsg, whereGroup, drop_if, drop_map, drop_or, drop_ok]

omit U D in
theorem drop_havingGroup (cs : List Val) : dropMessage (havingGroupMsg cs) = havingGroup cs := by
  simp only [havingGroupMsg, havingGroup, drop_map, drop_or]

theorem drop_entries {g : List Val → Except Raised (List Val)} {g' : List Val → Except Err (List Val)} (h : ∀ cs, dropMessage (g cs) = g' cs) :
    ∀ vs : List Val, dropMessage (legacyEntriesMsg g vs) = legacyEntries g' vs
  | [] => rfl
  | v :: vs => by
    simp only [legacyEntriesMsg, legacyEntries, legacyEntryMsg, legacyEntry, Verif.drop_bind, drop_elsewhere, drop_if, drop_map,
      drop_conditionItems, drop_conditions, h, drop_entries h vs, drop_ok]

omit [PyShow] [PyText] in
theorem drop_date (v : Val) : dropMessage (parseDateMsg v) = parseDate v := by
  cases v with
  | str s => simp only [parseDateMsg, parseDate]; cases parseDatetime s <;> rfl
  | _ => simp only [parseDateMsg, drop_elsewhere]

theorem drop_timeCondition (c : Str) (o : Op) (v : Val) : dropMessage (timeConditionMsg c o v) = timeCondition c o v := by
  simp only [timeConditionMsg, timeCondition, drop_if, Verif.drop_bind, BuildMsg.drop_column, drop_date, drop_condition, drop_ok]

theorem drop_aggregations : ∀ vs : List Val, dropMessage (parseAggregationsMsg vs) = parseAggregations vs
  | [] => rfl
  | v :: vs => by
    simp only [parseAggregationsMsg, parseAggregations, Verif.drop_bind, drop_elsewhere, drop_exp, drop_aggregations vs, drop_ok]

theorem drop_select (b : LegacyBody) : dropMessage (legacySelectMsg b) = legacySelect b := by
  simp only [legacySelectMsg, legacySelect, Verif.drop_bind, drop_elsewhere, drop_aggregations, drop_exps, drop_ok]

theorem drop_groupby (b : LegacyBody) : dropMessage (legacyGroupbyMsg b) = legacyGroupby b := by
  simp only [legacyGroupbyMsg, legacyGroupby, Verif.drop_bind, drop_elsewhere, drop_exps]

theorem drop_times (b : LegacyBody) (e : Str) : dropMessage (legacyTimesMsg b e) = legacyTimes b e := by
  unfold legacyTimesMsg legacyTimes
  cases getRequiredTimeColumn e with
  | none => rfl
  | some c => simp only [Verif.drop_bind, drop_timeCondition, drop_ok]

theorem drop_where (b : LegacyBody) (e : Str) : dropMessage (legacyWhereMsg b e) = legacyWhere b e := by
  simp only [legacyWhereMsg, legacyWhere, Verif.drop_bind, drop_extension, drop_times, drop_elsewhere, drop_entries drop_whereGroup, drop_ok]

theorem drop_having (b : LegacyBody) : dropMessage (legacyHavingMsg b) = legacyHaving b := by
  simp only [legacyHavingMsg, legacyHaving, Verif.drop_bind, drop_elsewhere, drop_entries drop_havingGroup]

theorem drop_orderStep (p : Option Val) (v : Val) : dropMessage (orderStepMsg p v) = (orderStep p v).1 := by
  cases v with
  | list xs =>
    cases xs with
    | nil => rfl
    | cons a rest =>
      cases a with
      | str s => simp only [orderStepMsg, orderStep, drop_if, drop_map, drop_exp]; split <;> rfl
      | _ => simp only [orderStepMsg, orderStep, drop_map, drop_exp]
  | str s => simp only [orderStepMsg, orderStep, drop_if, drop_map, drop_exp]; split <;> rfl
  | _ => cases p <;> rfl

theorem drop_orderLoop : ∀ (vs : List Val) (p : Option Val), dropMessage (orderLoopMsg p vs) = (orderLoop p vs).1
  | [], _ => rfl
  | v :: vs, p => by
    have h := drop_orderStep p v
    simp only [orderLoopMsg, orderLoop, Verif.drop_bind, h]
    rcases orderStep p v with ⟨r, o'⟩
    cases r with
    | error e => rfl
    | ok pd =>
      obtain ⟨x, d⟩ := pd
      simp only [ok_bind, show ∀ x d, dropMessage (mkOrderByMsg x d) = mkOrderBy x d from fun x d => drop_call (.orderby x d),
        drop_orderLoop vs (some x), drop_ok]
      cases mkOrderBy x (.direction d) with
      | error e => rfl
      | ok y => cases (orderLoop (some x) vs).1 <;> rfl

theorem drop_order (v : Val) : dropMessage (legacyOrderMsg v) = (legacyOrder v).1 := by
  cases v <;> exact drop_orderLoop _ _

variable [N : PyNumberText]

theorem drop_start {σ : SetOrders} (hσ : PossibleOrders σ) (b : LegacyBody) (e : Str) : dropMessage (legacyStartMsg σ b e) = legacyStart b e := by
  have hf := fun f q v => drop_setField hσ f q v
  have he : ∀ n a s m, dropMessage (mkEntityMsg n a s m) = mkEntity n a s m := fun n a s m => drop_call (.entity n a s m)
  have hj : ∀ (q : Query) v, dropMessage (q.setArrayJoinMsg σ v) = q.setArrayJoin v := hf .arrayJoin
  have hs : ∀ (q : Query) v, dropMessage (q.setSelectMsg σ v) = q.setSelect v := hf .select
  have hg : ∀ (q : Query) v, dropMessage (q.setGroupbyMsg σ v) = q.setGroupby v := hf .groupby
  have hw : ∀ (q : Query) v, dropMessage (q.setWhereMsg σ v) = q.setWhere v := hf .where_
  have hh : ∀ (q : Query) v, dropMessage (q.setHavingMsg σ v) = q.setHaving v := hf .having
  simp only [legacyStartMsg, legacyStart, legacyArrayJoinMsg, legacyArrayJoin, Verif.drop_bind, drop_elsewhere, he, drop_mkQuery, drop_select,
    drop_if, drop_ok, BuildMsg.drop_column, hj, hs, drop_groupby, hg, drop_where, hw, drop_having, hh]

theorem drop_finish {σ : SetOrders} (hσ : PossibleOrders σ) (b : LegacyBody) (e : Str) (q : Query) :
    dropMessage (legacyFinishMsg σ b e q) = legacyFinish b e q := by
  have hf := fun f q v => drop_setField hσ f q v
  have hl : ∀ (q : Query) v, dropMessage (q.setLimitbyMsg σ v) = q.setLimitby v := hf .limitby
  have hm : ∀ c n, dropMessage (mkLimitByMsg c n) = mkLimitBy c n := fun c n => drop_call (.limitby c n)
  have hx : ∀ {s : Query → Val → Except Raised Query} {s' : Query → Val → Except Err Query}, (∀ q v, dropMessage (s q v) = s' q v) →
      ∀ q v, dropMessage (legacyExtraMsg s q v) = legacyExtra s' q v := by
    intro s s' h q v
    cases v <;> first | rfl | exact h q _
  have h1 : ∀ q v, dropMessage (legacyExtraMsg (Query.setLimitMsg σ) q v) = legacyExtra Query.setLimit q v := hx (hf .limit)
  have h2 : ∀ q v, dropMessage (legacyExtraMsg (Query.setOffsetMsg σ) q v) = legacyExtra Query.setOffset q v := hx (hf .offset)
  have h3 : ∀ q v, dropMessage (legacyExtraMsg (Query.setGranularityMsg σ) q v) = legacyExtra Query.setGranularity q v := hx (hf .granularity)
  have h4 : ∀ q v, dropMessage (legacyExtraMsg (Query.setTotalsMsg σ) q v) = legacyExtra Query.setTotals q v := hx (hf .totals)
  simp only [legacyFinishMsg, legacyFinish, legacyLimitbyMsg, legacyLimitby, legacyExtrasMsg, legacyExtras, Verif.drop_bind, drop_if,
    drop_elsewhere, drop_ok, BuildMsg.drop_column, hm, hl, h1, h2, h3, h4]

theorem drop_conversion {σ : SetOrders} (hσ : PossibleOrders σ) (b : LegacyBody) (e : Str) :
    dropMessage (jsonToSnqlMsg σ b e) = (jsonToSnql b e).1 := by
  unfold jsonToSnqlMsg jsonToSnql
  rw [Verif.drop_bind, drop_start hσ]
  cases legacyStart b e with
  | error x => rfl
  | ok q =>
    simp only [ok_bind, drop_if, Verif.drop_bind, drop_order, drop_finish hσ]
    split
    · simp only [show ∀ q v, dropMessage (Query.setOrderbyMsg σ q v) = q.setOrderby v from drop_setField hσ .orderby]
      rfl
    · rfl

end

/-! ### What is said -/

/-- A computation that fails with exceptions of one kind only. -/
def Says (P : Raised → Prop) {α : Type} (x : Except Raised α) : Prop := ∀ r, x = .error r → P r

theorem Says.ok {P : Raised → Prop} {α : Type} {a : α} : Says P (.ok a : Except Raised α) := nofun

theorem Says.bind {P : Raised → Prop} {α β : Type} {x : Except Raised α} {f : α → Except Raised β} (h : Says P x)
    (hf : ∀ a, x = .ok a → Says P (f a)) : Says P (x >>= f) := by
  intro r hr
  cases x with
  | error e => cases hr; exact h _ rfl
  | ok a => exact hf a rfl r hr

theorem Says.map {P : Raised → Prop} {α β : Type} {x : Except Raised α} {f : α → β} (h : Says P x) : Says P (x.map f) := by
  intro r hr
  cases x with
  | error e => cases hr; exact h _ rfl
  | ok a => cases hr

theorem Says.ite {P : Raised → Prop} {α : Type} {c : Prop} [Decidable c] {x y : Except Raised α} (hx : Says P x) (hy : Says P y) :
    Says P (if c then x else y) := by split <;> assumption

theorem Says.error {P : Raised → Prop} {α : Type} {r : Raised} (h : P r) : Says P (.error r : Except Raised α) := by
  intro r' hr; cases hr; exact h

section
variable [PyShow] [PyText] [U : PyUnicode] [D : PyDecimal] {b : LegacyBody} {entity : Str}

theorem says_made {c : BuildCall} (h : LegacyMade entity c) : Says (LegacySaid b entity) c.run := by
  intro r hr
  obtain ⟨x, t, rfl, hf⟩ := (C89_message c r).1 hr
  exact .made h hf

theorem says_python {α : Type} {x : Except Err α} (h : FailsBy OfPython x) : Says (LegacySaid b entity) (elsewhere x) := by
  intro r hr
  cases x with
  | ok a => cases hr
  | error e => cases hr; exact .python (h e rfl)

theorem says_error {α : Type} {e : Err} (h : OfPython e) : Says (LegacySaid b entity) (.error (e, none) : Except Raised α) :=
  .error (.python h)

omit [PyShow] [PyText] U D in
theorem py_iter (v : Val) : FailsBy OfPython v.iter := by
  intro e h
  unfold Val.iter at h
  split at h <;> cases h
  simp [OfPython]

omit [PyShow] [PyText] U D in
theorem py_textMethod (v : Val) : FailsBy OfPython (textMethod v) := by
  intro e h
  unfold textMethod at h
  split at h <;> cases h <;> simp [OfPython]

omit [PyShow] [PyText] U D in
theorem py_opOf (v : Val) : FailsBy OfPython (opOf v) := by
  intro e h
  unfold opOf at h
  split at h
  · cases h
  · split at h <;> cases h; simp [OfPython]
  · cases h; simp [OfPython]

omit [PyShow] [PyText] U in
theorem py_rhs (l o : Val) (rest : List Val) : FailsBy OfPython (conditionRhs l o rest) := by
  intro e h
  unfold conditionRhs at h
  split at h
  · cases h
  · split at h <;> cases h; simp [OfPython]

omit [PyShow] [PyText] U D in
theorem py_opFunction (o : Op) : FailsBy OfPython (opFunction o) := by
  intro e h
  cases o <;> cases h; simp [OfPython]

omit [PyShow] [PyText] U D in
theorem py_alias (rest : List Val) : FailsBy OfPython (legacyAlias rest) := by
  cases rest with
  | nil => exact .ok
  | cons a _ =>
    change FailsBy OfPython (stripAlias a)
    unfold stripAlias
    split
    · exact (py_textMethod a).bind fun _ _ => .ok
    · exact .ok

omit [PyShow] [PyText] U D in
theorem py_intToFloat (i : Int) : FailsBy OfPython (intToFloat i) := by
  intro e h
  unfold intToFloat at h
  split at h <;> cases h; simp [OfPython]

omit [PyShow] [PyText] U D in
theorem py_sample [N : PyNumberText] (v : Val) : FailsBy OfPython (legacySample v) := by
  have : FailsBy OfPython (toFloat v) := by
    unfold toFloat
    split
    · exact .ok
    · exact py_intToFloat _
    · exact py_intToFloat _
    · split
      · exact .ok
      · intro e h; cases h; simp [OfPython]
    · split
      · exact .ok
      · intro e h; cases h; simp [OfPython]
    · intro e h; cases h; simp [OfPython]
  unfold legacySample
  split
  · exact .ok
  · exact this.map

omit [PyShow] [PyText] U D in
theorem py_toInt [N : PyNumberText] (v : Val) : FailsBy OfPython (toInt v) := by
  intro e h
  unfold toInt at h
  split at h <;> (try split at h) <;> cases h <;> simp [OfPython]

omit [PyShow] [PyText] U D in
theorem py_unpack (v : Val) : FailsBy OfPython (unpackTwo v) := by
  refine (py_iter v).bind fun xs _ => ?_
  intro e h
  split at h <;> cases h; simp [OfPython]

theorem says_text (s : Str) : Says (LegacySaid b entity) (parseExpTextMsg s) :=
  .ite .ok (.ite .ok (says_made (.column (.str s))))

theorem says_parts {lhs : Except Raised Val} (h : Says (LegacySaid b entity) lhs) (op : Val) (rest : List Val) :
    Says (LegacySaid b entity) (conditionPartsMsg lhs op rest) :=
  h.bind fun _ _ => (says_python (py_rhs _ _ _)).bind fun _ _ => (says_python (py_opOf _)).bind fun _ _ => .ok

theorem says_list (a c : Val) (rest : List Val) {lhs ch : Except Raised Val} (h : Says (LegacySaid b entity) lhs)
    (hc : Says (LegacySaid b entity) ch) : Says (LegacySaid b entity) (legacyListMsg a c rest lhs ch) := by
  refine .ite ((says_parts h _ _).bind fun p _ => (says_python (py_opFunction _)).bind fun f _ => says_made (.function f _ .none))
    ((says_python (py_alias _)).bind fun al _ => (says_python (py_textMethod _)).bind fun f _ => ?_)
  exact .ite (says_made (.function _ _ al)) (.ite (says_made (.function f _ al)) (hc.bind fun x _ => says_made (.function f x al)))

mutual
theorem says_exp : ∀ v : Val, Says (LegacySaid b entity) (parseExpMsg v)
  | .str s => by rw [parseExpMsg]; exact says_text s
  | .list [] => by rw [parseExpMsg]; exact says_error (by simp [OfPython])
  | .list [a] => by rw [parseExpMsg]; exact (says_python (py_textMethod a)).bind fun _ _ => says_error (by simp [OfPython])
  | .list (a :: .list ys :: rest) => by
    rw [parseExpMsg]
    exact says_list _ _ _ (says_exp a) (says_exps ys).map
  | .list (a :: c :: rest) => by
    by_cases hb : ∃ ys, c = .list ys
    · obtain ⟨ys, rfl⟩ := hb
      rw [parseExpMsg]
      exact says_list _ _ _ (says_exp a) (says_exps ys).map
    · rw [parseExpMsg]
      · exact says_list _ _ _ (says_exp a) (.ite (says_exp c).map .ok)
      · exact fun ys h => hb ⟨ys, h⟩
  | .none | .bool _ | .int _ | .float _ | .bytes _ | .tuple _ | .date _ | .datetime _ | .column _ | .curried .. | .ident _ | .lam .. |
    .aliased .. | .cond .. | .boolCond .. | .orderby .. | .limitby .. | .limit _ | .offset _ | .granularity _ | .totals _ |
    .extrapolate _ | .entity _ | .storage _ | .rel _ | .join .. | .op _ | .boolOp _ |
    .direction _ | .dataModel _ | .other _ => by simp only [parseExpMsg]; exact .ok

theorem says_exps : ∀ vs : List Val, Says (LegacySaid b entity) (parseExpsMsg vs)
  | [] => .ok
  | v :: vs => by rw [parseExpsMsg]; exact (says_exp v).bind fun _ _ => (says_exps vs).bind fun _ _ => .ok
end

theorem says_extension (col : Str) (v : Val) (a : Bool) : Says (LegacySaid b entity) (extensionMsg col v a) := by
  refine .ite ((says_made (.column (.str col))).bind fun c _ => ?_) .ok
  unfold extensionConditionMsg
  split
  · exact .ite (says_made (.condition c .in_ _)).map (says_made (.condition c .eq _)).map
  · split
    · exact (says_made (.condition c .in_ _)).map
    · exact .ok

theorem says_conditionItems : ∀ xs : List Val, Says (LegacySaid b entity) (parseConditionItemsMsg xs)
  | [] => says_error (by simp [OfPython])
  | [a] => (says_exp a).bind fun _ _ => says_error (by simp [OfPython])
  | a :: _ :: _ => (says_parts (says_exp a) _ _).bind fun p _ => says_made (.condition p.1 p.2.1 p.2.2)

theorem says_conditions : ∀ xs : List Val, Says (LegacySaid b entity) (parseConditionsMsg xs)
  | [] => .ok
  | v :: vs => ((says_python (py_iter v)).bind fun xs _ => says_conditionItems xs).bind fun _ _ => (says_conditions vs).bind fun _ _ => .ok

theorem says_whereGroup (cs : List Val) : Says (LegacySaid b entity) (whereGroupMsg cs) := .ite (says_made (.or cs)).map .ok

theorem says_havingGroup (cs : List Val) : Says (LegacySaid b entity) (havingGroupMsg cs) := (says_made (.or cs)).map

theorem says_entries {g : List Val → Except Raised (List Val)} (h : ∀ cs, Says (LegacySaid b entity) (g cs)) :
    ∀ vs : List Val, Says (LegacySaid b entity) (legacyEntriesMsg g vs)
  | [] => .ok
  | v :: vs => ((says_python (py_iter v)).bind fun xs _ => .ite (says_conditionItems xs).map ((says_conditions xs).bind fun cs _ => h cs)).bind
      fun _ _ => (says_entries h vs).bind fun _ _ => .ok

omit [PyShow] [PyText] U D in
theorem shown (s : Str) : ShownDate s (withoutZoneColons s) := by
  rcases splitOnce_cases '+' s with ⟨hs, he⟩ | ⟨a, z, rfl, ha, he⟩
  · rw [withoutZoneColons, he]; exact .plain hs
  · rw [withoutZoneColons, he]
    have : (z.filter (· != ':')) = z.filter (· ≠ ':') := by
      congr 1; funext c; by_cases h : c = ':' <;> simp [h]
    simp only [this]
    exact .zone ha

theorem says_bound {column key : Str} (hc : TimeColumn entity column) (hk : key ∈ [c!"from_date", c!"to_date"]) (o : Op) :
    Says (LegacySaid b entity) (timeConditionMsg column o (b.get key)) := by
  unfold timeConditionMsg
  split
  · rename_i ht
    refine (says_made (.column (.str column))).bind fun c _ => Says.bind ?_ fun t _ => (says_made (.condition c o t)).bind fun _ _ => .ok
    generalize hv : b.get key = v at ht
    unfold parseDateMsg
    split
    · rename_i s
      split
      · exact .ok
      · rename_i hn
        have hs : s ≠ [] := by rintro rfl; simp [Val.truthy] at ht
        refine .error (.date hc hk ?_ hs (fun t h => ?_) (shown s))
        · rcases valueAt_iff.1 hv with h | ⟨_, h⟩
          · exact h
          · cases h
        · rw [parseDatetime_iff.2 h] at hn; cases hn
    · refine says_python fun e h => ?_
      unfold parseDate at h
      split at h
      · split at h <;> cases h; simp [OfPython]
      · split at h <;> cases h <;> simp [OfPython]
      · split at h <;> cases h <;> simp [OfPython]
      · cases h; simp [OfPython]
  · exact .ok

theorem says_where : Says (LegacySaid b entity) (legacyWhereMsg b entity) := by
  refine (says_extension _ _ _).bind fun _ _ => Says.bind ?_ fun _ _ => (says_extension _ _ _).bind fun _ _ =>
    (says_python (py_iter _)).bind fun cs _ => (says_entries says_whereGroup cs).bind fun _ _ => .ok
  unfold legacyTimesMsg
  split
  · exact .ok
  · rename_i c hc
    have hc := timeColumn_iff.1 hc
    exact (says_bound hc (by simp) _).bind fun _ _ => (says_bound hc (by simp) _).bind fun _ _ => .ok

theorem says_aggregations : ∀ vs : List Val, Says (LegacySaid b entity) (parseAggregationsMsg vs)
  | [] => .ok
  | v :: vs => (says_python (py_iter v)).bind fun _ _ => (says_exp _).bind fun _ _ => (says_aggregations vs).bind fun _ _ => .ok

theorem says_orderStep (p : Option Val) (v : Val) : Says (LegacySaid b entity) (orderStepMsg p v) := by
  unfold orderStepMsg
  split
  · exact says_error (by simp [OfPython])
  · exact .ite (says_exp _).map (says_exp _).map
  · exact (says_exp _).map
  · exact .ite (says_exp _).map (says_exp _).map
  · split
    · exact says_error (by simp [OfPython])
    · exact .ok

theorem says_orderLoop : ∀ (vs : List Val) (p : Option Val), Says (LegacySaid b entity) (orderLoopMsg p vs)
  | [], _ => .ok
  | v :: vs, p => (says_orderStep p v).bind fun pd _ => (says_made (.orderby pd.1 pd.2)).bind fun _ _ =>
      (says_orderLoop vs (some pd.1)).bind fun _ _ => .ok

theorem says_order (v : Val) : Says (LegacySaid b entity) (legacyOrderMsg v) := by
  cases v <;> exact says_orderLoop _ _

theorem says_set {σ : SetOrders} (hσ : PossibleOrders σ) {q : Query} (hq : Reach q) {f : Field} {v : Val} (h : LegacySet b f v) :
    Says (LegacySaid b entity) (setFieldMsg σ f q v) := fun r hr => .set h ((C91_setters hσ hq f v r).1 hr)

omit D in
theorem set_reach {σ : SetOrders} (hσ : PossibleOrders σ) {q q' : Query} (hq : Reach q) {f : Field} {v : Val}
    (h : setFieldMsg σ f q v = .ok q') : Reach q' := .set f q v q' hq (by rw [← drop_setField hσ, h]; rfl)

omit D in
/-- A setter whose demands are met does not fail. -/
theorem says_met {σ : SetOrders} (hσ : PossibleOrders σ) {q : Query} (hq : Reach q) {f : Field} {v : Val} {P : Raised → Prop}
    (h : ∀ d ∈ fieldDemands f v, d.holds) : Says P (setFieldMsg σ f q v) := by
  obtain ⟨q', h'⟩ := (MetricsMsg.accepted (C91_setters hσ hq f v)).2 h
  rw [h']; exact .ok

variable [N : PyNumberText]

omit [PyShow] [PyText] U D N in
theorem plain_ok {α : Type} {x : Except Raised α} {y : Except Err α} {a : α} (hd : dropMessage x = y) (h : x = .ok a) : y = .ok a := by
  rw [← hd, h]; rfl

theorem says_start {σ : SetOrders} (hσ : PossibleOrders σ) :
    Says (LegacySaid b entity) (legacyStartMsg σ b entity) ∧ ∀ q, legacyStartMsg σ b entity = .ok q → Reach q := by
  refine ⟨?_, fun q hq => ?_⟩
  · unfold legacyStartMsg
    refine (says_python (py_sample _)).bind fun s hs => (says_made (.entity s)).bind fun e he => ?_
    have hen := legacyEntity_iff.1 ⟨s, plain_ok (drop_elsewhere _) hs, plain_ok (drop_call (.entity _ _ _ _)) he⟩
    obtain ⟨_, s', _, rfl⟩ := hen
    have h0 : Reach (.base (.entity ⟨entity, none, s', none⟩) {}) :=
      .new (.entity ⟨entity, none, s', none⟩) {} _ rfl
    refine Says.bind Says.ok fun q hq => ?_
    cases hq
    refine Says.bind ?_ fun sel _ => Says.bind ?_ fun q1 h1 => ?_
    · exact (says_python (py_iter _)).bind fun _ _ => (says_aggregations _).bind fun _ _ => (says_python (py_iter _)).bind fun _ _ =>
        (says_exps _).bind fun _ _ => .ok
    · refine .ite ((says_made (.column _)).bind fun c hc => says_met hσ h0 (f := .arrayJoin) ?_) .ok
      obtain ⟨c', rfl⟩ : ∃ c', c = .column c' := by
        obtain ⟨c', h, _⟩ := mkColumn_ok (plain_ok (BuildMsg.drop_column _ _) hc)
        exact ⟨c', h⟩
      intro d hd
      simp only [fieldDemands, List.mem_singleton] at hd
      subst hd
      exact ⟨[c'], rfl, by simp⟩
    · have r1 : Reach q1 := by
        unfold legacyArrayJoinMsg at h1
        split at h1
        · obtain ⟨c, _, h⟩ := bind_eq_ok.1 h1
          exact set_reach hσ h0 (f := .arrayJoin) h
        · cases h1; exact h0
      refine (says_set hσ r1 (.select sel)).bind fun q2 h2 => ?_
      have r2 := set_reach hσ r1 h2
      refine Says.bind ((says_python (py_iter _)).bind fun _ _ => says_exps _) fun gs _ => (says_set hσ r2 (.groupby gs)).bind fun q3 h3 => ?_
      have r3 := set_reach hσ r2 h3
      refine says_where.bind fun ws hw => Says.bind (says_met hσ r3 (f := .where_) ?_) fun q4 h4 => ?_
      · intro d hd
        simp only [fieldDemands, List.mem_singleton] at hd
        subst hd
        exact ⟨ws, rfl, whereOf_cond (whereOf_iff.1 (plain_ok (drop_where _ _) hw))⟩
      have r4 := set_reach hσ r3 (f := .where_) h4
      refine Says.bind ((says_python (py_iter _)).bind fun _ _ => says_entries says_havingGroup _) fun hs hh => says_met hσ r4 (f := .having) ?_
      intro d hd
      simp only [fieldDemands, List.mem_singleton] at hd
      subst hd
      have hh := plain_ok (drop_having _) hh
      simp only [legacyHaving, bind_eq_ok, havingEntries_iff] at hh
      obtain ⟨_, _, hh⟩ := hh
      exact ⟨hs, rfl, havingEntries_cond hh⟩
  · have h := plain_ok (drop_start hσ b entity) hq
    obtain ⟨_, s, _, sel, _, aj, _, gs, _, ws, _, hs, _, rfl⟩ := legacyStart_iff.1 h
    exact .new (.entity ⟨entity, none, s, none⟩) _ _ rfl

theorem says_finish {σ : SetOrders} (hσ : PossibleOrders σ) {q : Query} (hq : Reach q) :
    Says (LegacySaid b entity) (legacyFinishMsg σ b entity q) := by
  have extra : ∀ {f : Field} {q : Query} {key : Str}, Reach q →
      (∀ v, ValueAt b key v → v ≠ .none → LegacySet b f v) → Says (LegacySaid b entity) (legacyExtraMsg (setFieldMsg σ f) q (b.get key)) ∧
        ∀ q', legacyExtraMsg (setFieldMsg σ f) q (b.get key) = .ok q' → Reach q' := by
    intro f q key hq h
    have hv := h _ (valueAt_iff.1 rfl)
    generalize b.get key = v at hv
    unfold legacyExtraMsg
    split
    · exact ⟨.ok, fun q' h => by cases h; exact hq⟩
    · rename_i hn
      exact ⟨says_set hσ hq (hv fun h => hn h), fun q' h => set_reach hσ hq h⟩
  unfold legacyFinishMsg
  refine Says.bind ?_ fun q1 h1 => Says.bind ?_ fun _ _ => .ok
  · refine .ite ((says_python (py_unpack _)).bind fun p _ => (says_made (.column _)).bind fun c _ => (says_python (py_toInt _)).bind fun n _ =>
      (says_made (.limitby c n)).bind fun l hl => says_met hσ hq (f := .limitby) ?_) .ok
    obtain ⟨k, cs, i, rfl⟩ : ∃ k cs i, l = .limitby k cs i := by
      have hl : mkLimitByMsg (.list [c]) (.int n) = .ok l := hl
      unfold mkLimitByMsg at hl
      split at hl
      · cases hl
      · split at hl
        · cases hl
        · obtain ⟨cs, _, hl⟩ := bind_eq_ok.1 hl
          split at hl
          · cases hl
          · split at hl <;> cases hl
            exact ⟨_, _, _, rfl⟩
    intro d hd
    simp only [fieldDemands, List.mem_singleton] at hd
    subst hd
    exact ⟨_, _, _, rfl⟩
  · have r1 : Reach q1 := by
      unfold legacyLimitbyMsg at h1
      split at h1
      · obtain ⟨p, _, h1⟩ := bind_eq_ok.1 h1
        obtain ⟨c, _, h1⟩ := bind_eq_ok.1 h1
        obtain ⟨n, _, h1⟩ := bind_eq_ok.1 h1
        obtain ⟨l, _, h1⟩ := bind_eq_ok.1 h1
        exact set_reach hσ hq (f := .limitby) h1
      · cases h1; exact hq
    have e1 := extra (f := .limit) (key := c!"limit") r1 .limit
    refine e1.1.bind fun q2 h2 => ?_
    have e2 := extra (f := .offset) (key := c!"offset") (e1.2 _ h2) .offset
    refine e2.1.bind fun q3 h3 => ?_
    have e3 := extra (f := .granularity) (key := c!"granularity") (e2.2 _ h3) .granularity
    exact e3.1.bind fun q4 h4 => (extra (f := .totals) (key := c!"totals") (e3.2 _ h4) .totals).1

theorem says_conversion {σ : SetOrders} (hσ : PossibleOrders σ) : Says (LegacySaid b entity) (jsonToSnqlMsg σ b entity) := by
  unfold jsonToSnqlMsg
  refine (says_start hσ).1.bind fun q hq => ?_
  have hq := (says_start hσ).2 q hq
  split
  · rename_i ht
    refine (says_order _).bind fun obs ho => Says.bind (says_met hσ hq (f := .orderby) ?_) fun q' h' =>
      says_finish hσ (set_reach hσ hq (f := .orderby) h')
    intro d hd
    simp only [fieldDemands, List.mem_singleton] at hd
    subst hd
    refine ⟨obs, rfl, ?_⟩
    have ho := (legacyOrder_iff (truthy_true_iff.1 ht)).1 (plain_ok (drop_order _) ho)
    generalize b.get c!"orderby" = v at ho
    cases ho with
    | list _ h => exact orderItems_ordering h
    | single _ _ h => exact orderItems_ordering h
  · exact says_finish hσ hq

/-! ### A body with one more entry -/

omit [PyShow] [PyText] U D N in
theorem getD_more {b : LegacyBody} {key k : Str} {v : Val} (h : k ≠ key) (d : Val) :
    LegacyBody.getD { b with entries := (key, v) :: b.entries } k d = b.getD k d := by
  have : (k == key) = false := by simp [h]
  simp only [LegacyBody.getD, List.lookup, this]

omit [PyShow] [PyText] U D N in
theorem get_more {b : LegacyBody} {key k : Str} {v : Val} (h : k ≠ key) :
    LegacyBody.get { b with entries := (key, v) :: b.entries } k = b.get k := getD_more h _

omit [PyShow] [PyText] U D N in
theorem get_it {b : LegacyBody} {key : Str} {v : Val} : LegacyBody.get { b with entries := (key, v) :: b.entries } key = v := by
  simp [LegacyBody.get, LegacyBody.getD]

/-- The keys of the extras. -/
def extraKeys : List (Str × Field) :=
  [(c!"limit", .limit), (c!"offset", .offset), (c!"granularity", .granularity), (c!"totals", .totals)]

omit [PyShow] [PyText] U D N in
theorem extra_fresh {key : Str} {f : Field} (h : (key, f) ∈ extraKeys) : ∀ k ∈ [c!"sample", c!"aggregations", c!"selected_columns", c!"arrayjoin",
    c!"groupby", c!"organization", c!"from_date", c!"to_date", c!"project", c!"conditions", c!"having", c!"orderby", c!"limitby"], k ≠ key := by
  simp only [extraKeys, List.mem_cons, Prod.mk.injEq, List.not_mem_nil, or_false] at h
  rcases h with ⟨rfl, _⟩ | ⟨rfl, _⟩ | ⟨rfl, _⟩ | ⟨rfl, _⟩ <;> decide

theorem start_more {σ : SetOrders} {b : LegacyBody} {key : Str} {f : Field} {v : Val} {e : Str} (h : (key, f) ∈ extraKeys) :
    legacyStartMsg σ { b with entries := (key, v) :: b.entries } e = legacyStartMsg σ b e := by
  have hf := extra_fresh h
  simp only [List.forall_mem_cons] at hf
  obtain ⟨h1, h2, h3, h4, h5, h6, h7, h8, h9, h10, h11, _⟩ := hf
  simp only [legacyStartMsg, legacySelectMsg, legacyGroupbyMsg, legacyWhereMsg, legacyTimesMsg, legacyHavingMsg, get_more h1, getD_more h2,
    getD_more h3, get_more h4, getD_more h5, get_more h6, get_more h7, get_more h8, get_more h9, getD_more h10, getD_more h11]

/-- What an extra has to be, if it is there. -/
def extraDemands (f : Field) : Val → List Demand
  | .none => []
  | v => fieldDemands f v

omit D N in
theorem extra_by {σ : SetOrders} (hσ : PossibleOrders σ) {q : Query} (hq : Reach q) (f : Field) (v : Val) :
    RefusedBy (legacyExtraMsg (setFieldMsg σ f) q v) (extraDemands f v) ∧ ∀ q', legacyExtraMsg (setFieldMsg σ f) q v = .ok q' → Reach q' := by
  have h := C91_setters hσ hq f v
  have hr := fun q' => set_reach (q' := q') (v := v) (f := f) hσ hq
  cases v with
  | none => exact ⟨MetricsMsg.by_ok _, fun q' h => by cases h; exact hq⟩
  | _ => exact ⟨h, hr⟩

/-- What the extras of a body have to be, in order. -/
def allExtras (b : LegacyBody) : List Demand :=
  extraDemands .limit (b.get c!"limit") ++ (extraDemands .offset (b.get c!"offset") ++
    (extraDemands .granularity (b.get c!"granularity") ++ extraDemands .totals (b.get c!"totals")))

omit D N in
theorem extras_by {σ : SetOrders} (hσ : PossibleOrders σ) {q : Query} (hq : Reach q) (b : LegacyBody) :
    RefusedBy (legacyExtrasMsg σ b q) (allExtras b) := by
  have e1 := extra_by hσ hq .limit (b.get c!"limit")
  refine MetricsMsg.by_bind e1.1 fun q1 h1 _ => ?_
  have e2 := extra_by hσ (e1.2 q1 h1) .offset (b.get c!"offset")
  refine MetricsMsg.by_bind e2.1 fun q2 h2 _ => ?_
  have e3 := extra_by hσ (e2.2 q2 h2) .granularity (b.get c!"granularity")
  refine MetricsMsg.by_bind e3.1 fun q3 h3 _ => ?_
  exact (extra_by hσ (e3.2 q3 h3) .totals (b.get c!"totals")).1

omit U D N in
/-- Demands that are met do not matter. -/
theorem unmet_between [PyUnicode] {ds es fs : List Demand} (hd : ∀ d ∈ ds, d.holds) (hf : ∀ d ∈ fs, d.holds) (r : Raised) :
    FirstUnmet (ds ++ (es ++ fs)) r ↔ FirstUnmet es r := by
  have h1 := MetricsMsg.all_met.1 hd r
  have h3 := MetricsMsg.all_met.1 hf r
  rw [MetricsMsg.unmet_append, MetricsMsg.unmet_append]
  constructor
  · rintro (h | ⟨_, h | ⟨_, h⟩⟩)
    · exact absurd h h1
    · exact h
    · exact absurd h h3
  · exact fun h => .inr ⟨hd, .inl h⟩

omit D N in
theorem extras_more {b : LegacyBody} {key : Str} {f : Field} {v : Val} (hk : (key, f) ∈ extraKeys) (hv : v ≠ .none)
    (hb : ∀ d ∈ allExtras b, d.holds) (r : Raised) :
    FirstUnmet (allExtras { b with entries := (key, v) :: b.entries }) r ↔ FirstUnmet (fieldDemands f v) r := by
  have he : ∀ f, extraDemands f v = fieldDemands f v := fun f => by cases v <;> first | exact absurd rfl hv | rfl
  simp only [allExtras, List.forall_mem_append] at hb
  obtain ⟨b1, b2, b3, b4⟩ := hb
  simp only [extraKeys, List.mem_cons, Prod.mk.injEq, List.not_mem_nil, or_false] at hk
  have nil : ∀ d ∈ ([] : List Demand), d.holds := nofun
  rcases hk with ⟨rfl, rfl⟩ | ⟨rfl, rfl⟩ | ⟨rfl, rfl⟩ | ⟨rfl, rfl⟩
  · rw [allExtras, get_it, get_more (by decide), get_more (by decide), get_more (by decide), he]
    exact unmet_between (ds := []) (es := fieldDemands .limit v) nil (List.forall_mem_append.2 ⟨b2, List.forall_mem_append.2 ⟨b3, b4⟩⟩) r
  · rw [allExtras, get_it, get_more (by decide), get_more (by decide), get_more (by decide), he]
    exact unmet_between b1 (List.forall_mem_append.2 ⟨b3, b4⟩) r
  · rw [allExtras, get_it, get_more (by decide), get_more (by decide), get_more (by decide), he, ← List.append_assoc]
    exact unmet_between (List.forall_mem_append.2 ⟨b1, b2⟩) b4 r
  · rw [allExtras, get_it, get_more (by decide), get_more (by decide), get_more (by decide), he, ← List.append_assoc, ← List.append_assoc]
    have := unmet_between (es := fieldDemands .totals v) (fs := [])
      (ds := extraDemands .limit (b.get c!"limit") ++ extraDemands .offset (b.get c!"offset") ++ extraDemands .granularity (b.get c!"granularity"))
      (List.forall_mem_append.2 ⟨List.forall_mem_append.2 ⟨b1, b2⟩, b3⟩) nil r
    rwa [List.append_nil] at this

omit D in
theorem finish_more {σ : SetOrders} (hσ : PossibleOrders σ) {b : LegacyBody} {entity : Str} {q : Query} (hq : Reach q) {req : RequestObj}
    (hb : legacyFinishMsg σ b entity q = .ok req) {key : Str} {f : Field} {v : Val} (hk : (key, f) ∈ extraKeys) (hv : v ≠ .none) :
    RefusedBy (legacyFinishMsg σ { b with entries := (key, v) :: b.entries } entity q) (fieldDemands f v) := by
  have hl : c!"limitby" ≠ key := extra_fresh hk _ (by simp)
  unfold legacyFinishMsg at hb ⊢
  obtain ⟨q1, h1, hb⟩ := bind_eq_ok.1 hb
  obtain ⟨q2, h2, _⟩ := bind_eq_ok.1 hb
  rw [get_more hl, h1, ok_bind]
  have r1 : Reach q1 := by
    unfold legacyLimitbyMsg at h1
    split at h1
    · obtain ⟨p, _, h1⟩ := bind_eq_ok.1 h1
      obtain ⟨c, _, h1⟩ := bind_eq_ok.1 h1
      obtain ⟨n, _, h1⟩ := bind_eq_ok.1 h1
      obtain ⟨l, _, h1⟩ := bind_eq_ok.1 h1
      exact set_reach hσ hq (f := .limitby) h1
    · cases h1; exact hq
  have hm := (MetricsMsg.accepted (extras_by hσ r1 b)).1 ⟨q2, h2⟩
  intro r
  rw [← extras_more hk hv hm r]
  have := MetricsMsg.by_bind (es := []) (extras_by hσ r1 { b with entries := (key, v) :: b.entries })
    (f := fun q => (.ok (legacyRequest { b with entries := (key, v) :: b.entries } entity q) : Except Raised RequestObj))
    (fun a _ _ => MetricsMsg.by_ok _) r
  rwa [List.append_nil] at this

theorem extra_refused {σ : SetOrders} (hσ : PossibleOrders σ) {b : LegacyBody} {entity : Str} {req : RequestObj}
    (hb : (jsonToSnql b entity).1 = .ok req) {key : Str} {f : Field} {v : Val} (hk : (key, f) ∈ extraKeys) (hv : v ≠ .none) :
    RefusedBy (jsonToSnqlMsg σ { b with entries := (key, v) :: b.entries } entity) (fieldDemands f v) := by
  have hb : jsonToSnqlMsg σ b entity = .ok req := ok_of_drop ((drop_conversion hσ b entity).trans hb)
  unfold jsonToSnqlMsg at hb ⊢
  obtain ⟨q, h0, hb⟩ := bind_eq_ok.1 hb
  have hq := (says_start hσ).2 q h0
  have ho : c!"orderby" ≠ key := extra_fresh hk _ (by simp)
  rw [start_more hk, h0, ok_bind, get_more ho]
  split at hb
  · rename_i ht
    obtain ⟨obs, h1, hb⟩ := bind_eq_ok.1 hb
    obtain ⟨q', h2, hb⟩ := bind_eq_ok.1 hb
    rw [if_pos ht, h1, ok_bind, h2, ok_bind]
    exact finish_more hσ (set_reach hσ hq (f := .orderby) h2) hb hk hv
  · rename_i ht
    rw [if_neg ht]
    exact finish_more hσ hq hb hk hv

omit [PyShow] [PyText] U D N in
theorem shown_eq {s u : Str} (h : ShownDate s u) : u = withoutZoneColons s := by
  cases h with
  | plain h => rw [withoutZoneColons, Verif.splitOnce_none h]
  | zone h =>
    rw [withoutZoneColons, Verif.splitOnce_append h]
    simp only
    congr 2
    congr 1
    funext c
    by_cases h : c = ':' <;> simp [h]

theorem date_refused {σ : SetOrders} (hσ : PossibleOrders σ) {b : LegacyBody} {entity c : Str} {req : RequestObj}
    (hb : (jsonToSnql b entity).1 = .ok req) (hc : TimeColumn entity c) {key s u : Str} (hk : key ∈ [c!"from_date", c!"to_date"]) (hs : s ≠ [])
    (hd : ∀ t, ¬ LegacyDate s t) (hu : ShownDate s u) :
    jsonToSnqlMsg σ { b with entries := (key, .str s) :: b.entries } entity =
      .error (.valueError, some (u ++ c!" is not a recognized datetime")) := by
  have hb : jsonToSnqlMsg σ b entity = .ok req := ok_of_drop ((drop_conversion hσ b entity).trans hb)
  have hcol : ∃ x, mkColumnMsg (.str c) .none = .ok x :=
    ⟨_, ok_of_drop ((BuildMsg.drop_column _ _).trans (mkColumn_ident (timeColumn_ident hc)))⟩
  obtain ⟨col, hcol⟩ := hcol
  have hbad : ∀ o, timeConditionMsg c o (.str s) = .error (.valueError, some (u ++ c!" is not a recognized datetime")) := by
    intro o
    have hn : parseDatetime s = none := by
      cases h : parseDatetime s with
      | none => rfl
      | some t => exact absurd (parseDatetime_iff.1 h) (hd t)
    have ht : (Val.str s).truthy = true := by cases s with | nil => exact absurd rfl hs | cons => rfl
    rw [timeConditionMsg, if_pos ht, hcol, ok_bind, parseDateMsg, hn, shown_eq hu]
    rfl
  have fresh : ∀ k ∈ [c!"sample", c!"aggregations", c!"selected_columns", c!"arrayjoin", c!"groupby", c!"organization"], k ≠ key := by
    simp only [List.mem_cons, List.not_mem_nil, or_false] at hk
    rcases hk with rfl | rfl <;> decide
  simp only [List.forall_mem_cons] at fresh
  obtain ⟨f1, f2, f3, f4, f5, f6, _⟩ := fresh
  simp only [jsonToSnqlMsg, legacyStartMsg, legacyWhereMsg, bind_eq_ok] at hb
  obtain ⟨q, ⟨smp, h1, en, h2, q0, h3, sel, h4, q1, h5, q2, h6, gs, h7, q3, h8, ws, ⟨org, h9, tms, h10, _⟩, _⟩, _⟩ := hb
  have hsel : legacySelectMsg { b with entries := (key, .str s) :: b.entries } = .ok sel := by
    rw [← h4]; simp only [legacySelectMsg, getD_more f2, getD_more f3]
  have hgs : legacyGroupbyMsg { b with entries := (key, .str s) :: b.entries } = .ok gs := by
    rw [← h7]; simp only [legacyGroupbyMsg, getD_more f5]
  have htm : legacyTimesMsg { b with entries := (key, .str s) :: b.entries } entity =
      .error (.valueError, some (u ++ c!" is not a recognized datetime")) := by
    unfold legacyTimesMsg at h10 ⊢
    rw [timeColumn_iff.2 hc] at h10 ⊢
    simp only [bind_eq_ok] at h10
    obtain ⟨x, h11, _⟩ := h10
    simp only [List.mem_cons, List.not_mem_nil, or_false] at hk
    rcases hk with rfl | rfl
    · simp only [get_it, hbad, error_bind]
    · simp only [get_it, get_more (show c!"from_date" ≠ c!"to_date" by decide), h11, ok_bind, hbad, error_bind]
  simp only [jsonToSnqlMsg, legacyStartMsg, legacyWhereMsg, get_more f1, get_more f4, get_more f6, h1, h2, h3, hsel, h5, h6, hgs, h8, h9, htm,
    ok_bind, error_bind]

end
end Verif.LegacyMsg
