import Verif.Spec.BuildMessages
import Verif.Lemmas.Messages
import Verif.Lemmas.LegacyBody
import Verif.Lemmas.Errors
import Verif.Props.Names

/-!
# Lemmas: constructors with the messages of their exceptions
-/

namespace Verif.BuildMsg
open Spec

/-! ### The results are those of the constructors without messages -/

theorem drop_raise {α : Type} (e : Err) (m : Str) : dropMessage (raise e m : Except Raised α) = .error e := rfl

theorem drop_ok {α : Type} (a : α) : dropMessage (.ok a : Except Raised α) = .ok a := rfl

theorem drop_if {α : Type} (c : Prop) [Decidable c] (a b : Except Raised α) :
    dropMessage (if c then a else b) = if c then dropMessage a else dropMessage b := by
  split <;> rfl

theorem drop_scalar (v : Val) : dropMessage (isScalarMsg v) = isScalar v := by
  unfold isScalarMsg
  cases isScalar v <;> rfl

theorem drop_dataModel (o : Str) (dm : Option DataModel) (c : ColumnObj) :
    dropMessage (c.validateDataModelMsg o dm) = c.validateDataModel dm := by
  unfold ColumnObj.validateDataModelMsg
  cases c.validateDataModel dm <;> rfl

section
variable [PyShow] [PyText]

theorem drop_int (n : Str) (v : Val) (a b : Option Int) :
    dropMessage (validateIntLiteralMsg n v a b) = validateIntLiteral v a b := by
  unfold validateIntLiteralMsg validateIntLiteral
  cases v.asInt? with
  | none => rfl
  | some i => cases a <;> cases b <;> simp only [drop_if, drop_raise, drop_ok, decide_eq_true_eq, if_false, Bool.false_eq_true]

theorem drop_sample (v : Val) (e : Err) : dropMessage (checkSampleMsg v e) = checkSample v e := by
  cases v <;> simp only [checkSampleMsg, checkSample, drop_if, drop_raise, drop_ok]

theorem drop_modelArg (v : Val) (e : Err) : dropMessage (checkDataModelMsg v e) = checkDataModel v e := by
  cases v <;> rfl

theorem drop_entityAlias (v : Val) : dropMessage (checkEntityAliasMsg v) = checkEntityAlias v := by
  cases v with
  | str s => cases s <;> rfl
  | _ => rfl

theorem drop_sourceName (v : Val) (e : Err) (w : Str) :
    dropMessage (checkSourceName v e w) = (do let n ← asStr v e; ensure (entityNameRe.matches n) e; .ok n) := by
  cases v with
  | str s =>
    simp only [checkSourceName, asStr, ok_bind, ensure]
    cases entityNameRe.matches s <;> rfl
  | _ => rfl

theorem drop_alias (v : Val) (e : Err) (w : Str) : dropMessage (checkAliasMsg v e w) = checkAlias v e := by
  cases v with
  | str s =>
    cases s with
    | nil => rfl
    | cons c s => simp only [checkAliasMsg, checkAlias, drop_if, drop_raise, drop_ok, List.isEmpty_cons, Bool.false_eq_true, if_false]
  | _ => rfl

variable [U : PyUnicode]

theorem drop_functionName (v : Val) :
    dropMessage (checkFunctionNameMsg v) = (do let n ← asStr v .invalidFunction; checkFunctionName n; .ok n) := by
  cases v with
  | str s =>
    cases s with
    | nil => rfl
    | cons c s =>
      simp only [checkFunctionNameMsg, checkFunctionName, asStr, ok_bind, ensure, List.isEmpty_cons, Bool.not_false, if_true]
      cases functionNameRe.matches (c :: s) <;> rfl
  | _ => rfl

omit [PyShow] [PyText] U in
theorem drop_inits (n : Str) (v : Val) : dropMessage (checkInitsMsg n v) = checkOptSeq checkInits v := by
  cases v <;> first
    | rfl
    | (simp only [checkInitsMsg, checkOptSeq, Val.seq?, checkInits, ensure, drop_if, drop_raise, drop_ok]
       split <;> rfl)

omit U in
theorem drop_paramItems (n : Str) : ∀ ps, dropMessage (checkParamItemsMsg n ps) = checkParams ps
  | [] => rfl
  | p :: ps => by
    simp only [checkParamItemsMsg, checkParams, drop_if, drop_bind, drop_scalar, drop_raise, drop_paramItems n ps]

omit U in
theorem drop_params (n : Str) (v : Val) : dropMessage (checkParamsMsg n v) = checkOptSeq checkParams v := by
  cases v <;> first
    | rfl
    | simp only [checkParamsMsg, checkOptSeq, Val.seq?, drop_bind, drop_ok, drop_paramItems]

theorem drop_curried (a b c d : Val) : dropMessage (checkCurriedMsg a b c d) = checkCurried a b c d := by
  simp only [checkCurriedMsg, checkCurried, drop_bind, drop_functionName, drop_inits, drop_alias, drop_params, drop_ok]
  cases asStr a .invalidFunction with
  | error e => rfl
  | ok n =>
    simp only [ok_bind]
    cases checkFunctionName n <;> rfl

omit U in
theorem drop_identifiers : ∀ xs, dropMessage (checkIdentifiersMsg xs) = checkIdentifiers xs
  | [] => rfl
  | v :: vs => by
    have ih := drop_identifiers vs
    cases v with
    | str s =>
      simp only [checkIdentifiersMsg, checkIdentifiers, asStr, ok_bind, drop_if, drop_bind, ih, drop_raise, ensure, drop_ok]
      cases identifierRe.matches s <;> rfl
    | _ => rfl

omit U in
theorem drop_conditions : ∀ xs, dropMessage (checkConditionsMsg xs) = ensure (xs.all Val.isCondition) .invalidCondition
  | [] => rfl
  | v :: vs => by
    simp only [checkConditionsMsg, drop_if, drop_raise, drop_conditions vs, List.all_cons]
    cases v.isCondition <;> rfl

omit U in
theorem drop_bool (cls : BoolCls) (o : BooleanOp) (v : Val) : dropMessage (mkBoolMsg cls o v) = mkBool cls o v := by
  unfold mkBoolMsg mkBool
  cases v.listOrTuple? with
  | none => rfl
  | some p =>
    obtain ⟨k, cs⟩ := p
    simp only [drop_if, drop_raise, drop_bind, drop_conditions, drop_ok, checkConditionItems, ensure, decide_eq_true_eq]
    by_cases h : cs.length < 2
    · simp only [if_pos h, if_neg (show ¬ 2 ≤ cs.length by omega)]; rfl
    · simp only [if_neg h, if_pos (show 2 ≤ cs.length by omega)]; rfl

omit U in
theorem drop_columns_arg (n : Str) : ∀ xs, dropMessage (allColumnsMsg n xs) = allColumns xs
  | [] => rfl
  | v :: vs => by
    have ih := drop_columns_arg n vs
    cases v with
    | column c => simp only [allColumnsMsg, allColumns, drop_bind, ih, drop_ok]
    | _ => rfl

omit U in
theorem drop_end (v : Val) : dropMessage (validEntityMsg v) = validEntity v := by
  cases v with
  | entity e =>
    simp only [validEntityMsg, validEntity]
    cases e.alias <;> rfl
  | _ => rfl

theorem drop_column (n e : Val) : dropMessage (mkColumnMsg n e) = mkColumn n e := by
  cases n with
  | str s =>
    simp only [mkColumnMsg, mkColumn, drop_if, drop_raise, drop_bind, drop_ok, asStr, ok_bind, ensure, ColumnObj.validate]
    by_cases h : columnNameRe.matches s = true
    case neg => simp only [h, if_false]; rfl
    case pos =>
      simp only [h, if_true, ok_bind]
      cases e with
      | none => rfl
      | entity x =>
        simp only [checkColumnEntityMsg, asEntity, ok_bind, ColumnObj.checkEntity]
        cases ha : x.alias with
        | none => rfl
        | some a =>
          cases a with
          | nil => rfl
          | cons c a =>
            simp only [drop_bind, drop_dataModel, drop_ok, List.isEmpty_cons, Bool.not_false, ensure, if_true, ok_bind]
            generalize ColumnObj.validateDataModel _ _ = r
            cases r <;> rfl
      | _ => rfl
  | _ => rfl

theorem drop_call (c : BuildCall) : dropMessage c.run = c.plain := by
  cases c with
  | column n e => exact drop_column n e
  | aliased x a =>
    cases x <;> first
      | rfl
      | simp only [BuildCall.run, BuildCall.plain, mkAliasedMsg, mkAliased, asColumn, ok_bind, drop_bind, drop_alias, drop_ok]
  | entity n a s m =>
    simp only [BuildCall.run, BuildCall.plain, mkEntityMsg, mkEntity, drop_bind, drop_sourceName, drop_sample, drop_entityAlias, drop_modelArg, drop_ok]
    cases asStr n .invalidEntity with
    | error e => rfl
    | ok n => simp only [ok_bind]; cases ensure (entityNameRe.matches n) .invalidEntity <;> rfl
  | storage n s m =>
    simp only [BuildCall.run, BuildCall.plain, mkStorageMsg, mkStorage, drop_bind, drop_sourceName, drop_sample, drop_modelArg, drop_ok]
    cases asStr n .invalidStorage with
    | error e => rfl
    | ok n => simp only [ok_bind]; cases ensure (entityNameRe.matches n) .invalidStorage <;> rfl
  | curried n i p a => simp only [BuildCall.run, BuildCall.plain, mkCurriedMsg, mkCurried, drop_bind, drop_curried, drop_ok]
  | function n p a => simp only [BuildCall.run, BuildCall.plain, mkFunctionMsg, mkFunction, drop_bind, drop_curried, drop_ok]
  | identifier n =>
    cases n with
    | str s =>
      simp only [BuildCall.run, BuildCall.plain, mkIdentifierMsg, mkIdentifier, asStr, ok_bind, ensure]
      cases identifierRe.matches s <;> rfl
    | _ => rfl
  | lambda i b =>
    simp only [BuildCall.run, BuildCall.plain, mkLambdaMsg, mkLambda]
    cases i.listOrTuple? with
    | none => rfl
    | some p =>
      obtain ⟨k, xs⟩ := p
      simp only [drop_bind, drop_identifiers, drop_if, drop_raise, drop_ok, ensure]
      cases checkIdentifiers xs with
      | error e => rfl
      | ok ids => cases b.isCurried <;> rfl
  | condition l o r =>
    simp only [BuildCall.run, BuildCall.plain, mkConditionMsg, mkCondition, checkCondition, ensure]
    cases l.isColOrFn with
    | false => rfl
    | true =>
      simp only [if_true, ok_bind]
      cases o with
      | op o =>
        simp only [asOp, ok_bind, checkUnaryMsg, checkUnary, checkRhsMsg, checkRhs, drop_bind, drop_ok, drop_if, drop_scalar, drop_raise]
        cases isUnary o with
        | false =>
          simp only [Bool.false_eq_true, if_false, drop_ok, ok_bind]
          cases r.isColOrFn with
          | true => rfl
          | false =>
            simp only [Bool.false_eq_true, if_false]
            cases isScalar r with
            | error e => rfl
            | ok b => cases b <;> rfl
        | true => cases r <;> rfl
      | _ => rfl
  | boolean o c =>
    cases o with
    | boolOp o => exact drop_bool _ _ _
    | _ => rfl
  | and c => exact drop_bool _ _ _
  | or c => exact drop_bool _ _ _
  | orderby x d =>
    simp only [BuildCall.run, BuildCall.plain, mkOrderByMsg, mkOrderBy, ensure]
    cases x.isColOrFn with
    | false => rfl
    | true => cases d <;> rfl
  | limitby c n =>
    simp only [BuildCall.run, BuildCall.plain, mkLimitByMsg, mkLimitBy]
    cases c.seq? with
    | none => rfl
    | some p =>
      obtain ⟨k, xs⟩ := p
      simp only [drop_if, drop_raise, drop_bind, drop_columns_arg, ensure, decide_eq_true_eq]
      by_cases h : xs.length < 1
      · rw [if_pos h, if_neg (by omega)]; rfl
      · rw [if_neg h, if_pos (by omega)]
        simp only [ok_bind]
        cases allColumns xs with
        | error e => rfl
        | ok cs =>
          simp only [ok_bind]
          cases n.asInt? with
          | none => rfl
          | some i =>
            simp only [drop_if, drop_raise, drop_ok]
            by_cases h2 : i.toInt ≤ 0 ∨ i.toInt > 10000
            · rw [if_pos h2, if_neg (by simp; omega)]; rfl
            · rw [if_neg h2, if_pos (by simp; omega)]; rfl
  | limit v => simp only [BuildCall.run, BuildCall.plain, mkLimitMsg, mkLimit, drop_bind, drop_int, drop_ok]
  | offset v => simp only [BuildCall.run, BuildCall.plain, mkOffsetMsg, mkOffset, drop_bind, drop_int, drop_ok]
  | granularity v => simp only [BuildCall.run, BuildCall.plain, mkGranularityMsg, mkGranularity, drop_bind, drop_int, drop_ok]
  | totals v => cases v <;> rfl
  | extrapolate v => cases v <;> rfl
  | relationship l n r =>
    simp only [BuildCall.run, BuildCall.plain, mkRelationshipMsg, mkRelationship, drop_bind, drop_end]
    cases validEntity l with
    | error e => rfl
    | ok l =>
      cases validEntity r with
      | error e => rfl
      | ok r =>
        cases n with
        | str s => cases s <;> rfl
        | _ => rfl


/-! ### What the messages say -/

theorem raise_eq {α : Type} (e : Err) (m : Str) : (raise e m : Except Raised α) = .error (e, some m) := rfl

omit [PyShow] [PyText] U in
theorem aliasText_iff {s : Str} : ALIAS_RE.matches s = true ↔ OptNewline AliasText s := by
  rw [ALIAS_RE_iff]
  have key : ∀ b : Str, (∀ c ∈ b, aliasChar c = true) ↔ AliasText b := by
    intro b
    refine forall_congr' fun c => imp_congr_right fun _ => ?_
    simp [aliasChar, or_assoc]
  unfold OptNewline
  simp only [key]

omit U in
theorem alias_err {v : Val} {e : Err} {w : Str} {r : Raised} :
    checkAliasMsg v e w = .error r ↔ ∃ t, r = (e, some t) ∧ AliasFault w v t := by
  cases v with
  | none =>
    constructor
    · intro h; cases h
    · rintro ⟨t, rfl, h⟩; cases h with | type h _ => exact absurd rfl h
  | str s =>
    cases s with
    | nil =>
      constructor
      · intro h; cases h; exact ⟨_, rfl, .type (by simp) (fun s h => by cases h; rfl)⟩
      · rintro ⟨t, rfl, h⟩
        cases h with
        | type _ _ => rfl
        | text h => exact absurd rfl h
    | cons c s =>
      simp only [checkAliasMsg]
      constructor
      · intro h
        split at h
        · cases h
        · rename_i hn; cases h; exact ⟨_, rfl, .text (by simp) (fun hh => hn (aliasText_iff.2 hh))⟩
      · rintro ⟨t, rfl, h⟩
        cases h with
        | type _ h => exact absurd (h _ rfl) (by simp)
        | text _ h => rw [if_neg (fun hh => h (aliasText_iff.1 hh))]; rfl
  | _ =>
    constructor
    · intro h; cases h; exact ⟨_, rfl, .type (by simp) (fun s h => by cases h)⟩
    · rintro ⟨t, rfl, h⟩
      cases h with | type _ _ => rfl

omit U in
theorem alias_ok {v : Val} {e : Err} {w : Str} : (∃ a, checkAliasMsg v e w = .ok a) ↔ AliasGiven v := by
  unfold AliasGiven
  cases v with
  | str s =>
    cases s with
    | nil => simp [checkAliasMsg, raise]
    | cons c s =>
      simp only [checkAliasMsg, reduceCtorEq, false_or, Val.str.injEq, exists_eq_left']
      constructor
      · rintro ⟨a, h⟩
        split at h
        · rename_i hh; exact ⟨by simp, aliasText_iff.1 hh⟩
        · cases h
      · rintro ⟨_, h⟩; exact ⟨_, by rw [if_pos (aliasText_iff.2 h)]⟩
  | _ => simp [checkAliasMsg, raise]

omit [PyShow] [PyText] U in
theorem sample_err {v : Val} {e : Err} {r : Raised} : checkSampleMsg v e = .error r ↔ ∃ t, r = (e, some t) ∧ SampleFault v t := by
  cases v with
  | none =>
    constructor
    · intro h; cases h
    · rintro ⟨t, rfl, h⟩; cases h with | type h _ => exact absurd rfl h
  | float f =>
    simp only [checkSampleMsg]
    constructor
    · intro h
      split at h
      · rename_i hf; cases h; exact ⟨_, rfl, .low (fun hn => by rw [notBelow_iff.2 hn] at hf; cases hf)⟩
      · cases h
    · rintro ⟨t, rfl, h⟩
      cases h with
      | type _ h => exact absurd rfl (h _)
      | low h =>
        rw [if_pos]; · rfl
        cases hf : f.leZero with
        | true => rfl
        | false => exact absurd (notBelow_iff.1 hf) h
  | _ =>
    constructor
    · intro h; cases h; exact ⟨_, rfl, .type (by simp) (by simp)⟩
    · rintro ⟨t, rfl, h⟩; cases h with | type _ _ => rfl

omit [PyShow] [PyText] U in
theorem sample_ok {v : Val} {e : Err} : (∃ a, checkSampleMsg v e = .ok a) ↔ SampleOk v := by
  unfold SampleOk
  cases v with
  | float f =>
    simp only [checkSampleMsg, reduceCtorEq, false_or, Val.float.injEq, exists_eq_left', ← notBelow_iff]
    cases f.leZero <;> simp [raise]
  | _ => simp [checkSampleMsg, raise]

omit [PyShow] [PyText] U in
theorem modelArg_err {v : Val} {e : Err} {r : Raised} :
    checkDataModelMsg v e = .error r ↔ r = (e, some c!"data_model must be an instance of DataModel") ∧ NoModel v := by
  unfold NoModel
  cases v <;> simp [checkDataModelMsg, raise, eq_comm]

omit U in
theorem entityAlias_err {v : Val} {r : Raised} : checkEntityAliasMsg v = .error r ↔
    r = (.invalidEntity, some (c!"'" ++ v.text ++ c!"' is not a valid alias")) ∧ v ≠ .none ∧ NoWord v := by
  unfold NoWord
  cases v with
  | str s => cases s <;> simp [checkEntityAliasMsg, raise, eq_comm]
  | _ => simp [checkEntityAliasMsg, raise, eq_comm]

omit U in
theorem entityAlias_ok {v : Val} : (∃ a, checkEntityAliasMsg v = .ok a) ↔ NoneOrWord v := by
  unfold NoneOrWord
  cases v with
  | str s => cases s <;> simp [checkEntityAliasMsg, raise]
  | _ => simp [checkEntityAliasMsg, raise]

omit U in
theorem source_err {v : Val} {e : Err} {w : Str} {r : Raised} : checkSourceName v e w = .error r ↔
    r = (e, some (c!"'" ++ v.text ++ c!"' is not a valid " ++ w ++ c!" name")) ∧ ¬ Named EntityName v := by
  unfold Named
  cases v with
  | str s =>
    simp only [checkSourceName, Val.str.injEq, exists_eq_left', ← entityNameRe_iff]
    cases entityNameRe.matches s <;> simp [raise, Val.text, eq_comm]
  | _ => simp [checkSourceName, raise, eq_comm]

omit U in
theorem source_ok {v : Val} {e : Err} {w : Str} : (∃ a, checkSourceName v e w = .ok a) ↔ Named EntityName v := by
  unfold Named
  cases v with
  | str s =>
    simp only [checkSourceName, Val.str.injEq, exists_eq_left', ← entityNameRe_iff]
    cases entityNameRe.matches s <;> simp [raise]
  | _ => simp [checkSourceName, raise]

theorem functionName_err {v : Val} {r : Raised} :
    checkFunctionNameMsg v = .error r ↔ ∃ t, r = (.invalidFunction, some t) ∧ FunctionNameFault v t := by
  cases v with
  | str s =>
    cases s with
    | nil =>
      constructor
      · intro h; cases h; exact ⟨_, rfl, .empty⟩
      · rintro ⟨t, rfl, h⟩
        cases h with
        | type h => exact absurd rfl (h _)
        | empty => rfl
        | text h => exact absurd rfl h
    | cons c s =>
      simp only [checkFunctionNameMsg]
      constructor
      · intro h
        split at h
        · cases h
        · rename_i hn; cases h; exact ⟨_, rfl, .text (by simp) (fun hh => hn (functionNameRe_iff.2 hh))⟩
      · rintro ⟨t, rfl, h⟩
        cases h with
        | type h => exact absurd rfl (h _)
        | text _ h => rw [if_neg (fun hh => h (functionNameRe_iff.1 hh))]; rfl
  | _ =>
    constructor
    · intro h; cases h; exact ⟨_, rfl, .type (by simp)⟩
    · rintro ⟨t, rfl, h⟩
      cases h with | type _ => rfl

omit [PyShow] [PyText] in
theorem functionName_nonempty {s : Str} (h : OptNewline FunctionName s) : s ≠ [] := by
  rcases h with ⟨_, _, rfl, _⟩ | ⟨_, _, rfl⟩ <;> simp

theorem functionName_ok {v : Val} {n : Str} : checkFunctionNameMsg v = .ok n ↔ v = .str n ∧ OptNewline FunctionName n := by
  cases v with
  | str s =>
    cases s with
    | nil =>
      simp only [checkFunctionNameMsg, raise, reduceCtorEq, false_iff, Val.str.injEq]
      rintro ⟨rfl, h⟩; exact functionName_nonempty h rfl
    | cons c s =>
      simp only [checkFunctionNameMsg, Val.str.injEq]
      constructor
      · intro h
        split at h
        · rename_i hh; cases h; exact ⟨rfl, functionNameRe_iff.1 hh⟩
        · cases h
      · rintro ⟨rfl, h⟩; rw [if_pos (functionNameRe_iff.2 h)]
  | _ => simp [checkFunctionNameMsg, raise]

omit [PyShow] [PyText] U in
theorem seq_items {v : Val} {k : SeqKind} {xs : List Val} (h : v.seq? = some (k, xs)) : ItemsOf v xs := by
  cases v <;> simp only [Val.seq?, Option.some.injEq, Prod.mk.injEq, reduceCtorEq] at h
  all_goals obtain ⟨_, rfl⟩ := h; constructor

omit [PyShow] [PyText] U in
theorem seq_none {v : Val} (h : v.seq? = none) : ∀ xs, ¬ ItemsOf v xs := by
  intro xs hx
  cases hx <;> simp [Val.seq?] at h

omit [PyShow] [PyText] U in
theorem items_seq {v : Val} {xs : List Val} (h : ItemsOf v xs) : ∃ k, v.seq? = some (k, xs) := by
  cases h <;> exact ⟨_, rfl⟩

omit [PyShow] [PyText] U in
theorem items_ne {v : Val} {xs : List Val} (h : ItemsOf v xs) : v ≠ .none := by
  cases h <;> simp

omit [PyShow] [PyText] U in
theorem initItem_iff {x : Val} : (x.isColumn || isLiteral x) = true ↔ (∃ c, x = .column c) ∨ Literal x := by
  rw [Bool.or_eq_true, isLiteral_iff]
  cases x <;> simp [Val.isColumn]

omit [PyShow] [PyText] U in
theorem inits_unfold (n : Str) {v : Val} (hv : v ≠ .none) : checkInitsMsg n v = match v.seq? with
    | none => raise .invalidFunction (c!"initializers of function " ++ n ++ c!" must be a Sequence")
    | some (k, xs) =>
      if xs.all fun x => x.isColumn || isLiteral x then .ok (k, xs)
      else raise .invalidFunction (c!"initializers to function " ++ n ++ c!" must be a scalar or column") := by
  cases v <;> first | exact absurd rfl hv | rfl

omit [PyShow] [PyText] U in
theorem inits_err {n : Str} {v : Val} {r : Raised} :
    checkInitsMsg n v = .error r ↔ ∃ t, r = (.invalidFunction, some t) ∧ InitsFault n v t := by
  by_cases hv : v = .none
  · subst hv
    constructor
    · intro h; cases h
    · rintro ⟨t, rfl, h⟩
      cases h with
      | type h => exact absurd rfl h
      | item h => exact absurd rfl (items_ne h)
  · rw [inits_unfold n hv]
    cases hs : v.seq? with
    | none =>
      simp only []
      constructor
      · intro h; cases h; exact ⟨_, rfl, .type hv (seq_none hs)⟩
      · rintro ⟨t, rfl, h⟩
        cases h with
        | type => rfl
        | item h => exact absurd h (seq_none hs _)
    | some p =>
      obtain ⟨k, xs⟩ := p
      have hi := seq_items hs
      simp only []
      constructor
      · intro h
        split at h
        · cases h
        · rename_i hall
          cases h
          have : ∃ x ∈ xs, ¬ ((x.isColumn || isLiteral x) = true) := by
            simpa using hall
          obtain ⟨x, hx, hb⟩ := this
          rw [initItem_iff, not_or] at hb
          exact ⟨_, rfl, .item hi hx (fun c hc => hb.1 ⟨c, hc⟩) hb.2⟩
      · rintro ⟨t, rfl, h⟩
        cases h with
        | type _ h => exact absurd hi (h _)
        | item h hx h1 h2 =>
          have := itemsOf_unique hi h; subst this
          rw [if_neg]; · rfl
          intro hall
          have := List.all_eq_true.1 hall _ hx
          rcases initItem_iff.1 this with ⟨c, hc⟩ | hl
          · exact h1 c hc
          · exact h2 hl

omit [PyShow] [PyText] U in
theorem inits_ok {n : Str} {v : Val} : (∃ a, checkInitsMsg n v = .ok a) ↔ InitsOk v := by
  unfold InitsOk
  by_cases hv : v = .none
  · subst hv; exact ⟨fun _ => .inl rfl, fun _ => ⟨_, rfl⟩⟩
  · rw [inits_unfold n hv]
    cases hs : v.seq? with
    | none =>
      simp only [raise, reduceCtorEq, exists_false, hv, false_or, false_iff]
      rintro ⟨xs, h, _⟩; exact seq_none hs _ h
    | some p =>
      obtain ⟨k, xs⟩ := p
      have hi := seq_items hs
      simp only [hv, false_or]
      constructor
      · rintro ⟨a, h⟩
        split at h
        · rename_i hall
          exact ⟨xs, hi, fun x hx => initItem_iff.1 (List.all_eq_true.1 hall x hx)⟩
        · cases h
      · rintro ⟨ys, hy, hall⟩
        have := itemsOf_unique hi hy; subst this
        exact ⟨_, by rw [if_pos (List.all_eq_true.2 fun x hx => initItem_iff.2 (hall x hx))]⟩

omit [PyShow] [PyText] U in
theorem scalarMsg_cases (p : Val) : (isScalarMsg p = .ok true ∧ Scalar p) ∨ (isScalarMsg p = .ok false ∧ ¬ Literal p ∧ ¬ IsSeq p) ∨
    (isScalarMsg p = .error (.invalidExpression, some c!"tuple/array must contain only scalar values") ∧ BadSeq p) := by
  unfold isScalarMsg
  cases h : isScalar p with
  | error e =>
    obtain ⟨rfl, hb⟩ := isScalar_error_iff.1 h
    exact .inr (.inr ⟨rfl, hb⟩)
  | ok b =>
    cases b with
    | true => exact .inl ⟨rfl, isScalar_true_iff.1 h⟩
    | false =>
      refine .inr (.inl ⟨rfl, fun hl => ?_, fun hs => ?_⟩)
      · rw [isScalar_true_iff.2 (.inl hl)] at h; cases h
      · rcases isScalar_seq hs with ⟨h1, _⟩ | ⟨h1, _⟩ <;> rw [h1] at h <;> cases h

omit [PyShow] [PyText] U in
theorem scalar_notBad {p : Val} (h : Scalar p) : ¬ BadSeq p := by
  rintro ⟨hs, hg⟩
  rcases h with h | h
  · cases hs <;> cases h
  · exact hg h

omit [PyShow] [PyText] U in
theorem param_notSeq {p : Val} (h : Param p) : ¬ IsSeq p := by
  cases h <;> intro h <;> cases h

omit [PyShow] [PyText] U in
theorem scalar_split {p : Val} (h : Scalar p) : Literal p ∨ IsSeq p := by
  rcases h with h | h
  · exact .inl h
  · cases h <;> right <;> constructor

/-- The first bad parameter in a list. -/
inductive ItemFault [PyShow] [PyText] (n : Str) : List Val → Err → Str → Prop
  | item {before after : List Val} {p : Val} : (∀ x ∈ before, Param x ∨ Scalar x) → ¬ Param p → ¬ Literal p → ¬ IsSeq p →
      ItemFault n (before ++ p :: after) .invalidFunction
        (c!"parameter '" ++ p.text ++ c!"' of function " ++ n ++ c!" is an invalid type")
  | inside {before after : List Val} {p : Val} : (∀ x ∈ before, Param x ∨ Scalar x) → BadSeq p →
      ItemFault n (before ++ p :: after) .invalidExpression c!"tuple/array must contain only scalar values"

omit U in
theorem ItemFault.cons {n : Str} {p : Val} {ps : List Val} {x : Err} {t : Str} (hp : Param p ∨ Scalar p) :
    ItemFault n (p :: ps) x t ↔ ItemFault n ps x t := by
  constructor
  · intro h
    generalize hl : p :: ps = l at h
    cases h with
    | @item before after q hb h1 h2 h3 =>
      cases before with
      | nil =>
        cases hl
        rcases hp with hp | hp
        · exact absurd hp h1
        · rcases scalar_split hp with hp | hp
          · exact absurd hp h2
          · exact absurd hp h3
      | cons y ys => cases hl; exact .item (fun x hx => hb x (List.mem_cons_of_mem _ hx)) h1 h2 h3
    | @inside before after q hb h1 =>
      cases before with
      | nil =>
        cases hl
        rcases hp with hp | hp
        · exact absurd h1.1 (param_notSeq hp)
        · exact absurd h1 (scalar_notBad hp)
      | cons y ys => cases hl; exact .inside (fun x hx => hb x (List.mem_cons_of_mem _ hx)) h1
  · have hc : ∀ {b : List Val}, (∀ x ∈ b, Param x ∨ Scalar x) → ∀ x ∈ p :: b, Param x ∨ Scalar x := by
      intro b hb x hx
      rcases List.mem_cons.1 hx with rfl | hx
      · exact hp
      · exact hb x hx
    intro h
    cases h with
    | @item before after q hb h1 h2 h3 => exact .item (before := p :: before) (hc hb) h1 h2 h3
    | @inside before after q hb h1 => exact .inside (before := p :: before) (hc hb) h1

omit U in
theorem paramItems_err {n : Str} : ∀ {ps : List Val} {r : Raised},
    checkParamItemsMsg n ps = .error r ↔ ∃ x t, r = (x, some t) ∧ ItemFault n ps x t
  | [], r => by
    constructor
    · intro h; cases h
    · rintro ⟨x, t, rfl, h⟩
      generalize hl : ([] : List Val) = l at h
      cases h <;> simp at hl
  | p :: ps, r => by
    have ih := @paramItems_err n ps r
    simp only [checkParamItemsMsg]
    cases hp : p.isParamExpr with
    | true =>
      simp only [if_true, ih, ItemFault.cons (.inl (isParamExpr_iff.1 hp))]
    | false =>
      have hnp : ¬ Param p := fun h => by rw [isParamExpr_iff.2 h] at hp; cases hp
      simp only [Bool.false_eq_true, if_false]
      rcases scalarMsg_cases p with ⟨h, hs⟩ | ⟨h, hl, hs⟩ | ⟨h, hb⟩
      · simp only [h, ok_bind, if_true, ih, ItemFault.cons (.inr hs)]
      · simp only [h, ok_bind, Bool.false_eq_true, if_false]
        constructor
        · intro h; cases h; exact ⟨_, _, rfl, .item (before := []) (by simp) hnp hl hs⟩
        · rintro ⟨x, t, rfl, hf⟩
          generalize hq : p :: ps = l at hf
          cases hf with
          | @item before after q hb h1 h2 h3 =>
            cases before with
            | nil => cases hq; rfl
            | cons y ys =>
              cases hq
              rcases hb p (List.mem_cons_self ..) with h | h
              · exact absurd h hnp
              · rcases scalar_split h with h | h
                · exact absurd h hl
                · exact absurd h hs
          | @inside before after q hb h1 =>
            cases before with
            | nil => cases hq; exact absurd h1.1 hs
            | cons y ys =>
              cases hq
              rcases hb p (List.mem_cons_self ..) with h | h
              · exact absurd h hnp
              · rcases scalar_split h with h | h
                · exact absurd h hl
                · exact absurd h hs
      · simp only [h, error_bind]
        constructor
        · intro h; cases h; exact ⟨_, _, rfl, .inside (before := []) (by simp) hb⟩
        · rintro ⟨x, t, rfl, hf⟩
          generalize hq : p :: ps = l at hf
          cases hf with
          | @item before after q hb' h1 h2 h3 =>
            cases before with
            | nil => cases hq; exact absurd hb.1 h3
            | cons y ys =>
              cases hq
              rcases hb' p (List.mem_cons_self ..) with h | h
              · exact absurd h hnp
              · exact absurd hb (scalar_notBad h)
          | @inside before after q hb' h1 =>
            cases before with
            | nil => cases hq; rfl
            | cons y ys =>
              cases hq
              rcases hb' p (List.mem_cons_self ..) with h | h
              · exact absurd h hnp
              · exact absurd hb (scalar_notBad h)

omit U in
theorem params_unfold (n : Str) {v : Val} (hv : v ≠ .none) : checkParamsMsg n v = match v.seq? with
    | none => raise .invalidFunction (c!"parameters of function " ++ n ++ c!" must be a Sequence")
    | some (k, xs) => (do checkParamItemsMsg n xs; .ok (k, xs)) := by
  cases v <;> first | exact absurd rfl hv | rfl

omit U in
theorem params_err {n : Str} {v : Val} {r : Raised} :
    checkParamsMsg n v = .error r ↔ ∃ x t, r = (x, some t) ∧ ParamsFault n v x t := by
  by_cases hv : v = .none
  · subst hv
    constructor
    · intro h; cases h
    · rintro ⟨x, t, rfl, h⟩
      cases h with
      | type h => exact absurd rfl h
      | item h => exact absurd rfl (items_ne h)
      | inside h => exact absurd rfl (items_ne h)
  · rw [params_unfold n hv]
    cases hs : v.seq? with
    | none =>
      simp only []
      constructor
      · intro h; cases h; exact ⟨_, _, rfl, .type hv (seq_none hs)⟩
      · rintro ⟨x, t, rfl, h⟩
        cases h with
        | type => rfl
        | item h => exact absurd h (seq_none hs _)
        | inside h => exact absurd h (seq_none hs _)
    | some p =>
      obtain ⟨k, xs⟩ := p
      have hi := seq_items hs
      simp only [bind_eq_error, paramItems_err, reduceCtorEq, and_false, exists_false, or_false]
      refine exists_congr fun x => exists_congr fun t => and_congr_right fun _ => ?_
      constructor
      · intro h
        cases h with
        | item h1 h2 h3 h4 => exact .item hi h1 h2 h3 h4
        | inside h1 h2 => exact .inside hi h1 h2
      · intro h
        cases h with
        | type _ h => exact absurd hi (h _)
        | item h h1 h2 h3 h4 => have := itemsOf_unique hi h; subst this; exact .item h1 h2 h3 h4
        | inside h h1 h2 => have := itemsOf_unique hi h; subst this; exact .inside h1 h2

theorem curried_err {a b c d : Val} {r : Raised} :
    checkCurriedMsg a b c d = .error r ↔ ∃ x t, r = (x, some t) ∧ FunctionFault a b c d x t := by
  simp only [checkCurriedMsg, bind_eq_error, functionName_err, functionName_ok, inits_err, alias_err, params_err, reduceCtorEq, and_false,
    exists_false, or_false]
  constructor
  · rintro (⟨t, rfl, h⟩ | ⟨n, ⟨rfl, hn⟩, ⟨t, rfl, h⟩ | ⟨i, hi, ⟨t, rfl, h⟩ | ⟨al, ha, x, t, rfl, h⟩⟩⟩)
    · exact ⟨_, _, rfl, .name h⟩
    · exact ⟨_, _, rfl, .inits rfl hn h⟩
    · exact ⟨_, _, rfl, .alias_ rfl hn (inits_ok.1 ⟨i, hi⟩) h⟩
    · exact ⟨_, _, rfl, .params rfl hn (inits_ok.1 ⟨i, hi⟩) (alias_ok.1 ⟨al, ha⟩) h⟩
  · rintro ⟨x, t, rfl, h⟩
    cases h with
    | name h => exact .inl ⟨_, rfl, h⟩
    | inits h1 h2 h => exact .inr ⟨_, ⟨h1, h2⟩, .inl ⟨_, rfl, h⟩⟩
    | @alias_ n t h1 h2 h3 h =>
      obtain ⟨i, hi⟩ := (inits_ok (n := n)).2 h3
      exact .inr ⟨_, ⟨h1, h2⟩, .inr ⟨i, hi, .inl ⟨_, rfl, h⟩⟩⟩
    | @params n x t h1 h2 h3 h4 h =>
      obtain ⟨i, hi⟩ := (inits_ok (n := n)).2 h3
      obtain ⟨al, ha⟩ := (alias_ok (e := .invalidFunction) (w := c!"function " ++ n)).2 h4
      exact .inr ⟨_, ⟨h1, h2⟩, .inr ⟨i, hi, .inr ⟨al, ha, _, _, rfl, h⟩⟩⟩

theorem column_err {n e : Val} {r : Raised} : mkColumnMsg n e = .error r ↔ ∃ x t, r = (x, some t) ∧ Refusal (.column n e) x t := by
  cases n with
  | str s =>
    simp only [mkColumnMsg]
    by_cases hm : columnNameRe.matches s = true
    case neg =>
      simp only [hm, Bool.false_eq_true, if_false]
      constructor
      · intro h; cases h; exact ⟨_, _, rfl, .columnName (fun h => hm (columnNameRe_iff.2 h))⟩
      · rintro ⟨x, t, rfl, h⟩
        cases h with
        | columnType h => exact absurd rfl (h _)
        | columnName => rfl
        | columnEntity h => exact absurd (columnNameRe_iff.2 h) hm
        | columnAlias h => exact absurd (columnNameRe_iff.2 h) hm
        | columnUnknown h => exact absurd (columnNameRe_iff.2 h) hm
    case pos =>
      have hs := columnNameRe_iff.1 hm
      simp only [hm, if_true, bind_eq_error, reduceCtorEq, and_false, exists_false, or_false]
      cases e with
      | none =>
        constructor
        · intro h; cases h
        · rintro ⟨x, t, rfl, h⟩
          cases h with
          | columnType h => exact absurd rfl (h _)
          | columnName h => exact absurd hs h
          | columnEntity _ h => exact absurd rfl h
      | entity x =>
        simp only [checkColumnEntityMsg]
        constructor
        · intro h
          split at h
          · rename_i ha; cases h; exact ⟨_, _, rfl, .columnAlias hs (.inl ha)⟩
          · rename_i ha; cases h; exact ⟨_, _, rfl, .columnAlias hs (.inr ha)⟩
          · rename_i c a ha
            simp only [bind_eq_error, reduceCtorEq, and_false, exists_false, or_false, ColumnObj.validateDataModelMsg,
              ColumnObj.validateDataModel] at h
            cases hd : x.dataModel with
            | none => simp [hd] at h
            | some d =>
              simp only [hd, ensure] at h
              split at h
              · cases h
              · rename_i e' he
                split at he
                · cases he
                · rename_i hc
                  cases he; cases h
                  refine ⟨_, _, rfl, .columnUnknown hs ha (by simp) hd ?_⟩
                  intro m hm' hn
                  apply hc
                  simp only [DataModel.contains, List.any_eq_true, beq_iff_eq]
                  exact ⟨m, hm', hn⟩
        · rintro ⟨y, t, rfl, h⟩
          cases h with
          | columnType h => exact absurd rfl (h _)
          | columnName h => exact absurd hs h
          | columnEntity _ _ h => exact absurd rfl (h _)
          | columnAlias _ h => rcases h with h | h <;> rw [h] <;> rfl
          | @columnUnknown _ a _ d _ ha hne hd hk =>
            obtain ⟨c, a, rfl⟩ := List.exists_cons_of_ne_nil hne
            have : d.contains s = false := by
              simp only [DataModel.contains, List.any_eq_false, beq_iff_eq]
              exact hk
            simp only [ha, ColumnObj.validateDataModelMsg, ColumnObj.validateDataModel, hd, this, ensure, Bool.false_eq_true, if_false]
            rfl
      | _ =>
        constructor
        · intro h; cases h; exact ⟨_, _, rfl, .columnEntity hs (by simp) (by simp)⟩
        · rintro ⟨x, t, rfl, h⟩
          cases h with
          | columnType h => exact absurd rfl (h _)
          | columnName h => exact absurd hs h
          | columnEntity => rfl
  | _ =>
    constructor
    · intro h; cases h; exact ⟨_, _, rfl, .columnType (by simp)⟩
    · rintro ⟨x, t, rfl, h⟩
      cases h with | columnType => rfl

theorem aliased_err {x a : Val} {r : Raised} : mkAliasedMsg x a = .error r ↔ ∃ y t, r = (y, some t) ∧ Refusal (.aliased x a) y t := by
  cases x with
  | column c =>
    simp only [mkAliasedMsg, bind_eq_error, alias_err, reduceCtorEq, and_false, exists_false, or_false]
    constructor
    · rintro ⟨t, rfl, h⟩; exact ⟨_, _, rfl, .aliasedAlias h⟩
    · rintro ⟨y, t, rfl, h⟩
      cases h with
      | aliasedExp h => exact absurd rfl (h _)
      | aliasedAlias h => exact ⟨_, rfl, h⟩
  | _ =>
    constructor
    · intro h; cases h; exact ⟨_, _, rfl, .aliasedExp (by simp)⟩
    · rintro ⟨y, t, rfl, h⟩
      cases h with | aliasedExp => rfl

omit [PyShow] [PyText] U in
theorem sourceText (t : Str) :
    c!"'" ++ t ++ c!"' is not a valid " ++ c!"entity" ++ c!" name" = c!"'" ++ t ++ c!"' is not a valid entity name" ∧
    c!"'" ++ t ++ c!"' is not a valid " ++ c!"storage" ++ c!" name" = c!"'" ++ t ++ c!"' is not a valid storage name" := by
  constructor <;> (simp only [List.append_assoc]; rfl)

theorem entity_err {n a s m : Val} {r : Raised} : mkEntityMsg n a s m = .error r ↔ ∃ x t, r = (x, some t) ∧ Refusal (.entity n a s m) x t := by
  simp only [mkEntityMsg, bind_eq_error, source_err, sourceText, sample_err, entityAlias_err, modelArg_err, reduceCtorEq, and_false, exists_false, or_false]
  constructor
  · rintro (⟨rfl, h⟩ | ⟨k, hk, ⟨t, rfl, h⟩ | ⟨f, hf, ⟨rfl, h1, h2⟩ | ⟨al, ha, rfl, h⟩⟩⟩)
    · exact ⟨_, _, rfl, .entityName h⟩
    · exact ⟨_, _, rfl, .entitySample (source_ok.1 ⟨k, hk⟩) h⟩
    · exact ⟨_, _, rfl, .entityAlias (source_ok.1 ⟨k, hk⟩) (sample_ok.1 ⟨f, hf⟩) h1 h2⟩
    · exact ⟨_, _, rfl, .entityModel (source_ok.1 ⟨k, hk⟩) (sample_ok.1 ⟨f, hf⟩) (entityAlias_ok.1 ⟨al, ha⟩) h⟩
  · rintro ⟨x, t, rfl, h⟩
    cases h with
    | entityName h => exact .inl ⟨rfl, h⟩
    | entitySample h1 h =>
      obtain ⟨k, hk⟩ := (source_ok (e := .invalidEntity) (w := c!"entity")).2 h1
      exact .inr ⟨k, hk, .inl ⟨_, rfl, h⟩⟩
    | entityAlias h1 h2 h3 h4 =>
      obtain ⟨k, hk⟩ := (source_ok (e := .invalidEntity) (w := c!"entity")).2 h1
      obtain ⟨f, hf⟩ := (sample_ok (e := .invalidEntity)).2 h2
      exact .inr ⟨k, hk, .inr ⟨f, hf, .inl ⟨rfl, h3, h4⟩⟩⟩
    | entityModel h1 h2 h3 h4 =>
      obtain ⟨k, hk⟩ := (source_ok (e := .invalidEntity) (w := c!"entity")).2 h1
      obtain ⟨f, hf⟩ := (sample_ok (e := .invalidEntity)).2 h2
      obtain ⟨al, ha⟩ := entityAlias_ok.2 h3
      exact .inr ⟨k, hk, .inr ⟨f, hf, .inr ⟨al, ha, rfl, h4⟩⟩⟩

theorem storage_err {n s m : Val} {r : Raised} : mkStorageMsg n s m = .error r ↔ ∃ x t, r = (x, some t) ∧ Refusal (.storage n s m) x t := by
  simp only [mkStorageMsg, bind_eq_error, source_err, sourceText, sample_err, modelArg_err, reduceCtorEq, and_false, exists_false, or_false]
  constructor
  · rintro (⟨rfl, h⟩ | ⟨k, hk, ⟨t, rfl, h⟩ | ⟨f, hf, rfl, h⟩⟩)
    · exact ⟨_, _, rfl, .storageName h⟩
    · exact ⟨_, _, rfl, .storageSample (source_ok.1 ⟨k, hk⟩) h⟩
    · exact ⟨_, _, rfl, .storageModel (source_ok.1 ⟨k, hk⟩) (sample_ok.1 ⟨f, hf⟩) h⟩
  · rintro ⟨x, t, rfl, h⟩
    cases h with
    | storageName h => exact .inl ⟨rfl, h⟩
    | storageSample h1 h =>
      obtain ⟨k, hk⟩ := (source_ok (e := .invalidStorage) (w := c!"storage")).2 h1
      exact .inr ⟨k, hk, .inl ⟨_, rfl, h⟩⟩
    | storageModel h1 h2 h4 =>
      obtain ⟨k, hk⟩ := (source_ok (e := .invalidStorage) (w := c!"storage")).2 h1
      obtain ⟨f, hf⟩ := (sample_ok (e := .invalidStorage)).2 h2
      exact .inr ⟨k, hk, .inr ⟨f, hf, rfl, h4⟩⟩

theorem identifier_err {n : Val} {r : Raised} : mkIdentifierMsg n = .error r ↔ ∃ x t, r = (x, some t) ∧ Refusal (.identifier n) x t := by
  have key : mkIdentifierMsg n = .error r ↔
      r = (.invalidLambda, some (c!"`" ++ n.text ++ c!"` is not a valid identifier")) ∧ ¬ Named IdentName n := by
    unfold Named
    cases n with
    | str s =>
      simp only [mkIdentifierMsg, Val.str.injEq, exists_eq_left', ← identifierRe_iff]
      cases identifierRe.matches s <;> simp [raise, Val.text, eq_comm]
    | _ => simp [mkIdentifierMsg, raise, eq_comm]
  rw [key]
  constructor
  · rintro ⟨rfl, h⟩; exact ⟨_, _, rfl, .identifier h⟩
  · rintro ⟨x, t, rfl, h⟩; cases h with | identifier h => exact ⟨rfl, h⟩

omit [PyShow] [PyText] U in
/-- A list with a first item that does not have the property. -/
theorem first_not {P : Val → Prop} {xs : List Val} {before after before' after' : List Val} {x y : Val}
    (h1 : xs = before ++ x :: after) (hb : ∀ z ∈ before, P z) (hx : ¬ P x)
    (h2 : xs = before' ++ y :: after') (hb' : ∀ z ∈ before', P z) (hy : ¬ P y) : x = y := by
  induction before generalizing xs before' with
  | nil =>
    cases before' with
    | nil => subst h1; cases h2; rfl
    | cons z zs => subst h1; cases h2; exact absurd (hb' _ (List.mem_cons_self ..)) hx
  | cons w ws ih =>
    cases before' with
    | nil => subst h1; cases h2; exact absurd (hb _ (List.mem_cons_self ..)) hy
    | cons z zs =>
      subst h1
      simp only [List.cons_append, List.cons.injEq] at h2
      exact ih rfl (fun z hz => hb z (List.mem_cons_of_mem _ hz)) h2.2 (fun z hz => hb' z (List.mem_cons_of_mem _ hz))

omit U in
theorem identifiers_err : ∀ {xs : List Val} {r : Raised}, checkIdentifiersMsg xs = .error r ↔
    ∃ before x after, xs = before ++ x :: after ∧ (∀ y ∈ before, Named IdentName y) ∧ ¬ Named IdentName x ∧
      r = (.invalidLambda, some (x.text ++ c!" is not a valid identifier"))
  | [], r => by simp [checkIdentifiersMsg]
  | v :: vs, r => by
    have ih := @identifiers_err vs r
    by_cases hn : Named IdentName v
    · obtain ⟨s, rfl, hs⟩ := hn
      simp only [checkIdentifiersMsg, identifierRe_iff.2 hs, if_true, bind_eq_error, reduceCtorEq, and_false, exists_false, or_false, ih]
      constructor
      · rintro ⟨before, x, after, rfl, h1, h2, h3⟩
        refine ⟨.str s :: before, x, after, rfl, ?_, h2, h3⟩
        intro y hy
        rcases List.mem_cons.1 hy with rfl | hy
        · exact ⟨s, rfl, hs⟩
        · exact h1 y hy
      · rintro ⟨before, x, after, he, h1, h2, h3⟩
        cases before with
        | nil => cases he; exact absurd ⟨s, rfl, hs⟩ h2
        | cons z zs => cases he; exact ⟨zs, x, after, rfl, fun y hy => h1 y (List.mem_cons_of_mem _ hy), h2, h3⟩
    · have e : checkIdentifiersMsg (v :: vs) = .error (.invalidLambda, some (v.text ++ c!" is not a valid identifier")) := by
        cases v with
        | str s =>
          have : ¬ identifierRe.matches s = true := fun h => hn ⟨s, rfl, identifierRe_iff.1 h⟩
          simp only [checkIdentifiersMsg, if_neg this]; rfl
        | _ => rfl
      rw [e]
      constructor
      · intro h; cases h; exact ⟨[], v, vs, rfl, by simp, hn, rfl⟩
      · rintro ⟨before, x, after, he, h1, h2, rfl⟩
        cases first_not (before := []) rfl (by simp) hn he h1 h2; rfl

omit U in
theorem identifiers_ok {xs : List Val} : (∃ ss, checkIdentifiersMsg xs = .ok ss) ↔ ∀ y ∈ xs, Named IdentName y := by
  induction xs with
  | nil => simp [checkIdentifiersMsg]
  | cons v vs ih =>
    by_cases hn : Named IdentName v
    · simp only [List.mem_cons, forall_eq_or_imp, hn, true_and, ← ih]
      obtain ⟨s, rfl, hs⟩ := hn
      simp only [checkIdentifiersMsg, identifierRe_iff.2 hs, if_true, bind_eq_ok]
      constructor
      · rintro ⟨_, ss, h, _⟩; exact ⟨ss, h⟩
      · rintro ⟨ss, h⟩; exact ⟨_, ss, h, rfl⟩
    · constructor
      · rintro ⟨ss, h⟩
        have := (identifiers_err (xs := v :: vs)).2 ⟨[], v, vs, rfl, by simp, hn, rfl⟩
        rw [this] at h; cases h
      · intro h; exact absurd (h v (List.mem_cons_self ..)) hn

theorem lambda_err {i b : Val} {r : Raised} : mkLambdaMsg i b = .error r ↔ ∃ x t, r = (x, some t) ∧ Refusal (.lambda i b) x t := by
  unfold mkLambdaMsg
  cases h : i.listOrTuple? with
  | none =>
    have hn := listOrTuple?_none.1 h
    simp only []
    constructor
    · intro h; cases h; exact ⟨_, _, rfl, .lambdaType hn⟩
    · rintro ⟨x, t, rfl, h⟩
      cases h with
      | lambdaType => rfl
      | lambdaItem h => exact absurd h (hn _ _)
      | lambdaBody h => exact absurd h (hn _ _)
  | some p =>
    obtain ⟨k, xs⟩ := p
    have hs := listOrTuple?_iff.1 h
    have uniq : ∀ {k' ys}, SeqOf i k' ys → ys = xs := by
      intro k' ys h'; rw [← listOrTuple?_iff, h] at h'; cases h'; rfl
    have hb : b.isCurried = false ↔ ∀ f n ik is pk ps a, b ≠ .curried f n ik is pk ps a := by
      cases b with
      | curried => simp only [Val.isCurried, Bool.true_eq_false, false_iff]; exact fun h => h _ _ _ _ _ _ _ rfl
      | _ => simp [Val.isCurried]
    simp only [bind_eq_error, identifiers_err]
    constructor
    · rintro (⟨before, x, after, rfl, h1, h2, rfl⟩ | ⟨ss, hss, h⟩)
      · exact ⟨_, _, rfl, .lambdaItem hs h1 h2⟩
      · split at h
        · cases h
        · rename_i hc; cases h
          exact ⟨_, _, rfl, .lambdaBody hs (identifiers_ok.1 ⟨ss, hss⟩) (hb.1 (by simpa using hc))⟩
    · rintro ⟨x, t, rfl, h⟩
      cases h with
      | lambdaType h => exact absurd hs (h _ _)
      | lambdaItem h h1 h2 => exact .inl ⟨_, _, _, (uniq h).symm, h1, h2, rfl⟩
      | lambdaBody h h1 h2 =>
        have := uniq h; subst this
        obtain ⟨ss, hss⟩ := identifiers_ok.2 h1
        refine .inr ⟨ss, hss, ?_⟩
        rw [if_neg (by rw [hb.2 h2]; simp)]; rfl

omit [PyShow] in
theorem rhs_err {v : Val} {r : Raised} : checkRhsMsg v = .error r ↔
    (r = (.invalidCondition, some (c!"invalid condition: RHS of a condition must be a Column, CurriedFunction, Function or Scalar not " ++
      v.classText)) ∧ ¬ ColOrFn v ∧ ¬ Literal v ∧ ¬ IsSeq v) ∨
    (r = (.invalidExpression, some c!"tuple/array must contain only scalar values") ∧ BadSeq v) := by
  unfold checkRhsMsg
  have colSeq : ColOrFn v → ¬ IsSeq v := by intro h; cases h <;> intro h <;> cases h
  cases hc : v.isColOrFn with
  | true =>
    have h1 := isColOrFn_iff.1 hc
    simp only [if_true, reduceCtorEq, false_iff, not_or, not_and]
    exact ⟨fun _ h => absurd h1 h, fun _ h => colSeq h1 h.1⟩
  | false =>
    have h1 : ¬ ColOrFn v := fun h => by rw [isColOrFn_iff.2 h] at hc; cases hc
    simp only [Bool.false_eq_true, if_false]
    rcases scalarMsg_cases v with ⟨h, hs⟩ | ⟨h, hl, hs⟩ | ⟨h, hb⟩
    · have h2 := scalar_notBad hs
      have h3 : ¬ Literal v → ¬ ¬ IsSeq v := fun h h' => by
        rcases scalar_split hs with hh | hh
        · exact h hh
        · exact h' hh
      simp only [h, ok_bind, if_true, reduceCtorEq, h2, and_false, or_false, false_iff]
      exact fun hh => h3 hh.2.2.1 hh.2.2.2
    · have h2 : ¬ BadSeq v := fun hb => hs hb.1
      simp only [h, ok_bind, Bool.false_eq_true, if_false, h1, hl, hs, h2, not_false_eq_true, and_true, and_false, or_false, raise,
        Except.error.injEq, eq_comm]
    · simp only [h, error_bind, hb.1, hb, and_true, not_true_eq_false, and_false, false_or, Except.error.injEq, eq_comm]

theorem condition_err {l o r' : Val} {r : Raised} :
    mkConditionMsg l o r' = .error r ↔ ∃ x t, r = (x, some t) ∧ Refusal (.condition l o r') x t := by
  unfold mkConditionMsg
  cases hl : l.isColOrFn with
  | false =>
    have h1 : ¬ ColOrFn l := fun h => by rw [isColOrFn_iff.2 h] at hl; cases hl
    simp only [Bool.false_eq_true, if_false]
    constructor
    · intro h; cases h; exact ⟨_, _, rfl, .conditionLeft h1⟩
    · rintro ⟨x, t, rfl, h⟩
      cases h with
      | conditionLeft => rfl
      | conditionOp h => exact absurd h h1
      | conditionUnary h => exact absurd h h1
      | conditionRight h => exact absurd h h1
      | conditionInside h => exact absurd h h1
  | true =>
    have h1 := isColOrFn_iff.1 hl
    simp only [if_true]
    cases o with
    | op o =>
      simp only [bind_eq_error, rhs_err, reduceCtorEq, and_false, exists_false, or_false]
      have hu : isUnary o = true ↔ o = .isNull ∨ o = .isNotNull := by cases o <;> simp [isUnary]
      cases hun : isUnary o with
      | true =>
        have ho := hu.1 hun
        by_cases hr : r' = .none
        · subst hr
          have hlit : Literal .none := .none
          simp only [checkUnaryMsg, hun, reduceCtorEq, hlit, not_true_eq_false, false_and, and_false, false_or]
          constructor
          · rintro ⟨_, _, _, h⟩; exact absurd h.1 (by intro h; cases h)
          · rintro ⟨x, t, rfl, h⟩
            cases h with
            | conditionLeft h => exact absurd h1 h
            | conditionOp _ h => exact absurd rfl (h _)
            | conditionUnary _ _ h => exact absurd rfl h
            | conditionRight _ h2 h3 => rcases ho with ho | ho <;> contradiction
            | conditionInside _ h2 h3 => rcases ho with ho | ho <;> contradiction
        · have e : checkUnaryMsg o r' = raise .invalidCondition c!"invalid condition: unary operators don't have rhs conditions" := by
            unfold checkUnaryMsg; rw [hun]; cases r' <;> first | exact absurd rfl hr | rfl
          rw [e]
          constructor
          · rintro (h | ⟨_, h, _⟩)
            · cases h; exact ⟨_, _, rfl, .conditionUnary h1 ho hr⟩
            · cases h
          · rintro ⟨x, t, rfl, h⟩
            cases h with
            | conditionLeft h => exact absurd h1 h
            | conditionOp _ h => exact absurd rfl (h _)
            | conditionUnary _ _ h => exact .inl rfl
            | conditionRight _ h2 h3 => rcases ho with ho | ho <;> contradiction
            | conditionInside _ h2 h3 => rcases ho with ho | ho <;> contradiction
      | false =>
        have hn : ¬ (o = .isNull ∨ o = .isNotNull) := fun h => by rw [hu.2 h] at hun; cases hun
        rw [not_or] at hn
        simp only [checkUnaryMsg, hun, reduceCtorEq, false_or, exists_const, true_and]
        constructor
        · rintro (⟨rfl, h2, h3, h4⟩ | ⟨rfl, h2⟩)
          · exact ⟨_, _, rfl, .conditionRight h1 hn.1 hn.2 h2 h3 h4⟩
          · exact ⟨_, _, rfl, .conditionInside h1 hn.1 hn.2 h2⟩
        · rintro ⟨x, t, rfl, h⟩
          cases h with
          | conditionLeft h => exact absurd h1 h
          | conditionOp _ h => exact absurd rfl (h _)
          | conditionUnary _ h => rcases h with h | h <;> simp [h] at hn
          | conditionRight _ _ _ h2 h3 h4 => exact .inl ⟨rfl, h2, h3, h4⟩
          | conditionInside _ _ _ h => exact .inr ⟨rfl, h⟩
    | _ =>
      constructor
      · intro h; cases h; exact ⟨_, _, rfl, .conditionOp h1 (by simp)⟩
      · rintro ⟨x, t, rfl, h⟩
        cases h with
        | conditionLeft h => exact absurd h1 h
        | conditionOp => rfl

omit U in
theorem conditions_err : ∀ {xs : List Val} {r : Raised}, checkConditionsMsg xs = .error r ↔
    ∃ before x after, xs = before ++ x :: after ∧ (∀ y ∈ before, Cond y) ∧ ¬ Cond x ∧
      r = (.invalidCondition, some (c!"invalid boolean: " ++ x.text ++ c!" is not a valid condition"))
  | [], r => by simp [checkConditionsMsg]
  | v :: vs, r => by
    have ih := @conditions_err vs r
    by_cases hn : Cond v
    · simp only [checkConditionsMsg, isCondition_iff.2 hn, if_true, ih]
      constructor
      · rintro ⟨before, x, after, rfl, h1, h2, h3⟩
        refine ⟨v :: before, x, after, rfl, ?_, h2, h3⟩
        intro y hy
        rcases List.mem_cons.1 hy with rfl | hy
        · exact hn
        · exact h1 y hy
      · rintro ⟨before, x, after, he, h1, h2, h3⟩
        cases before with
        | nil => cases he; exact absurd hn h2
        | cons z zs => cases he; exact ⟨zs, x, after, rfl, fun y hy => h1 y (List.mem_cons_of_mem _ hy), h2, h3⟩
    · have : ¬ v.isCondition = true := fun h => hn (isCondition_iff.1 h)
      simp only [checkConditionsMsg, if_neg this]
      constructor
      · intro h; cases h; exact ⟨[], v, vs, rfl, by simp, hn, rfl⟩
      · rintro ⟨before, x, after, he, h1, h2, rfl⟩
        cases first_not (before := []) rfl (by simp) hn he h1 h2; rfl

omit U in
theorem bool_err {cls : BoolCls} {o : BooleanOp} {v : Val} {r : Raised} :
    mkBoolMsg cls o v = .error r ↔ ∃ t, r = (.invalidCondition, some t) ∧ ConditionsFault v t := by
  unfold mkBoolMsg
  cases h : v.listOrTuple? with
  | none =>
    have hn := listOrTuple?_none.1 h
    simp only []
    constructor
    · intro h; cases h; exact ⟨_, rfl, .type hn⟩
    · rintro ⟨t, rfl, h⟩
      cases h with
      | type => rfl
      | few h => exact absurd h (hn _ _)
      | item h => exact absurd h (hn _ _)
  | some p =>
    obtain ⟨k, xs⟩ := p
    have hs := listOrTuple?_iff.1 h
    have uniq : ∀ {k' ys}, SeqOf v k' ys → ys = xs := by
      intro k' ys h'; rw [← listOrTuple?_iff, h] at h'; cases h'; rfl
    by_cases hlen : xs.length < 2
    · simp only [hlen, if_true]
      constructor
      · intro h; cases h; exact ⟨_, rfl, .few hs hlen⟩
      · rintro ⟨t, rfl, h⟩
        cases h with
        | type h => exact absurd hs (h _ _)
        | few => rfl
        | item h h2 => rw [uniq h] at h2; omega
    · simp only [hlen, if_false, bind_eq_error, conditions_err, reduceCtorEq, and_false, exists_false, or_false]
      constructor
      · rintro ⟨before, x, after, rfl, h1, h2, rfl⟩; exact ⟨_, rfl, .item hs (by omega) h1 h2⟩
      · rintro ⟨t, rfl, h⟩
        cases h with
        | type h => exact absurd hs (h _ _)
        | few h h2 => rw [uniq h] at h2; omega
        | item h _ h1 h2 => exact ⟨_, _, _, (uniq h).symm, h1, h2, rfl⟩

omit U in
theorem columns_err {n : Str} : ∀ {xs : List Val} {r : Raised}, allColumnsMsg n xs = .error r ↔
    ∃ before x after, xs = before ++ x :: after ∧ (∀ y ∈ before, ∃ k, y = .column k) ∧ (¬ ∃ k, x = .column k) ∧
      r = (.invalidExpression, some (n ++ c!": Invalid element '" ++ x.text ++ c!"' which must be a list composed entirely of " ++
        clsText c!"snuba_sdk.column.Column"))
  | [], r => by simp [allColumnsMsg]
  | v :: vs, r => by
    have ih := @columns_err n vs r
    by_cases hn : ∃ k, v = .column k
    · obtain ⟨k, rfl⟩ := hn
      simp only [allColumnsMsg, bind_eq_error, reduceCtorEq, and_false, exists_false, or_false, ih]
      constructor
      · rintro ⟨before, x, after, rfl, h1, h2, h3⟩
        refine ⟨.column k :: before, x, after, rfl, ?_, h2, h3⟩
        intro y hy
        rcases List.mem_cons.1 hy with rfl | hy
        · exact ⟨k, rfl⟩
        · exact h1 y hy
      · rintro ⟨before, x, after, he, h1, h2, h3⟩
        cases before with
        | nil => cases he; exact absurd ⟨k, rfl⟩ h2
        | cons z zs => cases he; exact ⟨zs, x, after, rfl, fun y hy => h1 y (List.mem_cons_of_mem _ hy), h2, h3⟩
    · have e : allColumnsMsg n (v :: vs) = .error (.invalidExpression, some (n ++ c!": Invalid element '" ++ v.text ++
          c!"' which must be a list composed entirely of " ++ clsText c!"snuba_sdk.column.Column")) := by
        cases v <;> first | exact absurd ⟨_, rfl⟩ hn | rfl
      rw [e]
      constructor
      · intro h; cases h; exact ⟨[], v, vs, rfl, by simp, hn, rfl⟩
      · rintro ⟨before, x, after, he, h1, h2, rfl⟩
        cases first_not (P := fun y => ∃ k, y = .column k) (before := []) rfl (by simp) hn he h1 h2; rfl

omit U in
theorem columns_ok {n : Str} {xs : List Val} : (∃ ss, allColumnsMsg n xs = .ok ss) ↔ ∀ y ∈ xs, ∃ k, y = .column k := by
  induction xs with
  | nil => simp [allColumnsMsg]
  | cons v vs ih =>
    by_cases hn : ∃ k, v = .column k
    · simp only [List.mem_cons, forall_eq_or_imp, hn, true_and, ← ih]
      obtain ⟨k, rfl⟩ := hn
      simp only [allColumnsMsg, bind_eq_ok]
      constructor
      · rintro ⟨_, ss, h, _⟩; exact ⟨ss, h⟩
      · rintro ⟨ss, h⟩; exact ⟨_, ss, h, rfl⟩
    · constructor
      · rintro ⟨ss, h⟩
        have := (columns_err (n := n) (xs := v :: vs)).2 ⟨[], v, vs, rfl, by simp, hn, rfl⟩
        rw [this] at h; cases h
      · intro h; exact absurd (h v (List.mem_cons_self ..)) hn

theorem orderby_err {x d : Val} {r : Raised} :
    mkOrderByMsg x d = .error r ↔ ∃ y t, r = (y, some t) ∧ Refusal (.orderby x d) y t := by
  unfold mkOrderByMsg
  cases hl : x.isColOrFn with
  | false =>
    have h1 : ¬ ColOrFn x := fun h => by rw [isColOrFn_iff.2 h] at hl; cases hl
    simp only [Bool.false_eq_true, if_false]
    constructor
    · intro h; cases h; exact ⟨_, _, rfl, .orderbyExp h1⟩
    · rintro ⟨y, t, rfl, h⟩
      cases h with
      | orderbyExp => rfl
      | orderbyDirection h => exact absurd h h1
  | true =>
    have h1 := isColOrFn_iff.1 hl
    simp only [if_true]
    by_cases hd : ∃ y, d = .direction y
    · obtain ⟨y, rfl⟩ := hd
      simp only [reduceCtorEq, false_iff, not_exists, not_and]
      intro _ _ _ h
      cases h with
      | orderbyExp h => exact h h1
      | orderbyDirection _ h => exact h _ rfl
    · constructor
      · intro h
        split at h
        · cases h
        · cases h; exact ⟨_, _, rfl, .orderbyDirection h1 (fun y hy => hd ⟨y, hy⟩)⟩
      · rintro ⟨y, t, rfl, h⟩
        cases h with
        | orderbyExp h => exact absurd h1 h
        | orderbyDirection =>
          split
          · exact absurd ⟨_, rfl⟩ hd
          · rfl

omit [PyShow] [PyText] U in
theorem columnsText (t : Str) :
    c!"LimitBy columns: '" ++ t ++ c!"' must be a sequence of " ++ clsText c!"snuba_sdk.column.Column" =
      c!"LimitBy columns: '" ++ t ++ c!"' must be a sequence of <class 'snuba_sdk.column.Column'>" ∧
    c!"LimitBy columns: '" ++ t ++ c!"' must be contain at least " ++ natStr 1 ++ c!" elements" =
      c!"LimitBy columns: '" ++ t ++ c!"' must be contain at least 1 elements" ∧
    c!"LimitBy columns" ++ c!": Invalid element '" ++ t ++ c!"' which must be a list composed entirely of " ++
      clsText c!"snuba_sdk.column.Column" =
      c!"LimitBy columns: Invalid element '" ++ t ++
        c!"' which must be a list composed entirely of <class 'snuba_sdk.column.Column'>" := by
  refine ⟨?_, ?_, ?_⟩ <;> (simp only [List.append_assoc]; rfl)

theorem limitby_err {c n : Val} {r : Raised} :
    mkLimitByMsg c n = .error r ↔ ∃ y t, r = (y, some t) ∧ Refusal (.limitby c n) y t := by
  unfold mkLimitByMsg
  cases h : c.seq? with
  | none =>
    have hn := seq_none h
    simp only [columnsText]
    constructor
    · intro h; cases h; exact ⟨_, _, rfl, .limitbyType hn⟩
    · rintro ⟨y, t, rfl, h⟩
      cases h with
      | limitbyType => rfl
      | limitbyEmpty h => exact absurd h (hn _)
      | limitbyItem h => exact absurd h (hn _)
      | limitbyCount h => exact absurd h (hn _)
  | some p =>
    obtain ⟨k, xs⟩ := p
    have hs := seq_items h
    have uniq : ∀ {ys}, ItemsOf c ys → ys = xs := by
      intro ys h'; obtain ⟨k', h'⟩ := items_seq h'; rw [h] at h'; cases h'; rfl
    simp only [columnsText]
    cases xs with
    | nil =>
      simp only [List.length_nil, Nat.lt_add_one, if_true]
      constructor
      · intro h; cases h; exact ⟨_, _, rfl, .limitbyEmpty hs⟩
      · rintro ⟨y, t, rfl, h⟩
        cases h with
        | limitbyType h => exact absurd hs (h _)
        | limitbyEmpty => rfl
        | limitbyItem h => have := uniq h; simp at this
        | limitbyCount h h2 => exact absurd (uniq h) h2
    | cons x0 xs0 =>
      have hne : ¬ (x0 :: xs0).length < 1 := by simp
      simp only [hne, if_false, bind_eq_error, columns_err, columnsText]
      constructor
      · rintro (⟨before, x, after, he, h1, h2, rfl⟩ | ⟨cs, h1, h2⟩)
        · rw [he] at hs
          exact ⟨_, _, rfl, .limitbyItem hs h1 (fun k hk => h2 ⟨k, hk⟩)⟩
        · have h3 := columns_ok.1 ⟨cs, h1⟩
          have hcount : (∀ i, IntLike n i → i.toInt < 1 ∨ 10000 < i.toInt) ∧
              r = (.invalidExpression, some c!"LimitBy count must be a positive integer (max 10,000)") := by
            cases hi : n.asInt? with
            | none => rw [hi] at h2; cases h2; exact ⟨fun i hh => absurd hh (asInt?_none.1 hi i), rfl⟩
            | some i =>
              rw [hi] at h2
              simp only [] at h2
              split at h2
              · cases h2
                refine ⟨fun j hj => ?_, rfl⟩
                rw [← asInt?_iff, hi] at hj; cases hj; omega
              · cases h2
          obtain ⟨h4, rfl⟩ := hcount
          exact ⟨_, _, rfl, .limitbyCount hs (by simp) h3 h4⟩
      · rintro ⟨y, t, rfl, h⟩
        cases h with
        | limitbyType h => exact absurd hs (h _)
        | limitbyEmpty h => have := uniq h; simp at this
        | limitbyItem h h1 h2 => exact .inl ⟨_, _, _, (uniq h).symm, h1, fun ⟨k, hk⟩ => h2 k hk, rfl⟩
        | limitbyCount h _ h1 h2 =>
          rw [uniq h] at h1
          obtain ⟨cs, hcs⟩ := (columns_ok (n := c!"LimitBy columns")).2 h1
          refine .inr ⟨cs, hcs, ?_⟩
          cases hi : n.asInt? with
          | none => rfl
          | some i =>
            have := h2 i (asInt?_iff.1 hi)
            simp only []
            rw [if_pos (by omega)]; rfl

omit [PyShow] [PyText] U in
theorem commas_bounds : commas 0 = c!"0" ∧ commas 1 = c!"1" ∧ commas 10000 = c!"10,000" := by decide +kernel

omit [PyShow] [PyText] U in
theorem boundText (w t : Str) :
    w ++ c!" '" ++ t ++ c!"' must be at least " ++ commas 1 = w ++ c!" '" ++ t ++ c!"' must be at least 1" ∧
    w ++ c!" '" ++ t ++ c!"' must be at least " ++ commas 0 = w ++ c!" '" ++ t ++ c!"' must be at least 0" ∧
    w ++ c!" '" ++ t ++ c!"' is capped at " ++ commas 10000 = w ++ c!" '" ++ t ++ c!"' is capped at 10,000" := by
  simp only [commas_bounds.1, commas_bounds.2.1, commas_bounds.2.2, List.append_assoc]
  refine ⟨rfl, rfl, rfl⟩

theorem limit_err {v : Val} {r : Raised} : mkLimitMsg v = .error r ↔ ∃ y t, r = (y, some t) ∧ Refusal (.limit v) y t := by
  simp only [mkLimitMsg, bind_eq_error, reduceCtorEq, and_false, exists_false, or_false, validateIntLiteralMsg, boundText]
  cases hi : v.asInt? with
  | none =>
    have hn := asInt?_none.1 hi
    constructor
    · intro h; cases h; exact ⟨_, _, rfl, .limitType hn⟩
    · rintro ⟨y, t, rfl, h⟩
      cases h with
      | limitType => rfl
      | limitLow h => exact absurd h (hn _)
      | limitHigh h => exact absurd h (hn _)
  | some i =>
    have hi' := asInt?_iff.1 hi
    have uniq : ∀ {j}, IntLike v j → j = i := by intro j h; rw [← asInt?_iff, hi] at h; cases h; rfl
    simp only []
    constructor
    · intro h
      split at h
      · cases h; exact ⟨_, _, rfl, .limitLow hi' (by assumption)⟩
      · split at h
        · cases h; exact ⟨_, _, rfl, .limitHigh hi' (by omega)⟩
        · cases h
    · rintro ⟨y, t, rfl, h⟩
      cases h with
      | limitType h => exact absurd hi' (h _)
      | limitLow h h2 => rw [uniq h] at h2; rw [if_pos h2]; rfl
      | limitHigh h h2 => rw [uniq h] at h2; rw [if_neg (by omega), if_pos (by omega)]; rfl

theorem offset_err {v : Val} {r : Raised} : mkOffsetMsg v = .error r ↔ ∃ y t, r = (y, some t) ∧ Refusal (.offset v) y t := by
  simp only [mkOffsetMsg, bind_eq_error, reduceCtorEq, and_false, exists_false, or_false, validateIntLiteralMsg, boundText]
  cases hi : v.asInt? with
  | none =>
    have hn := asInt?_none.1 hi
    constructor
    · intro h; cases h; exact ⟨_, _, rfl, .offsetType hn⟩
    · rintro ⟨y, t, rfl, h⟩
      cases h with
      | offsetType => rfl
      | offsetLow h => exact absurd h (hn _)
  | some i =>
    have hi' := asInt?_iff.1 hi
    have uniq : ∀ {j}, IntLike v j → j = i := by intro j h; rw [← asInt?_iff, hi] at h; cases h; rfl
    simp only []
    constructor
    · intro h
      split at h
      · cases h; exact ⟨_, _, rfl, .offsetLow hi' (by assumption)⟩
      · cases h
    · rintro ⟨y, t, rfl, h⟩
      cases h with
      | offsetType h => exact absurd hi' (h _)
      | offsetLow h h2 => rw [uniq h] at h2; rw [if_pos h2]; rfl

theorem granularity_err {v : Val} {r : Raised} :
    mkGranularityMsg v = .error r ↔ ∃ y t, r = (y, some t) ∧ Refusal (.granularity v) y t := by
  simp only [mkGranularityMsg, bind_eq_error, reduceCtorEq, and_false, exists_false, or_false, validateIntLiteralMsg, boundText]
  cases hi : v.asInt? with
  | none =>
    have hn := asInt?_none.1 hi
    constructor
    · intro h; cases h; exact ⟨_, _, rfl, .granularityType hn⟩
    · rintro ⟨y, t, rfl, h⟩
      cases h with
      | granularityType => rfl
      | granularityLow h => exact absurd h (hn _)
  | some i =>
    have hi' := asInt?_iff.1 hi
    have uniq : ∀ {j}, IntLike v j → j = i := by intro j h; rw [← asInt?_iff, hi] at h; cases h; rfl
    simp only []
    constructor
    · intro h
      split at h
      · cases h; exact ⟨_, _, rfl, .granularityLow hi' (by assumption)⟩
      · cases h
    · rintro ⟨y, t, rfl, h⟩
      cases h with
      | granularityType h => exact absurd hi' (h _)
      | granularityLow h h2 => rw [uniq h] at h2; rw [if_pos h2]; rfl

theorem totals_err {v : Val} {r : Raised} : mkTotalsMsg v = .error r ↔ ∃ y t, r = (y, some t) ∧ Refusal (.totals v) y t := by
  cases v with
  | bool b =>
    simp only [mkTotalsMsg, reduceCtorEq, false_iff, not_exists, not_and]
    intro _ _ _ h; cases h with | totals h => exact h _ rfl
  | _ =>
    constructor
    · intro h; cases h; exact ⟨_, _, rfl, .totals (by simp)⟩
    · rintro ⟨y, t, rfl, h⟩; cases h; rfl

theorem extrapolate_err {v : Val} {r : Raised} :
    mkExtrapolateMsg v = .error r ↔ ∃ y t, r = (y, some t) ∧ Refusal (.extrapolate v) y t := by
  cases v with
  | bool b =>
    simp only [mkExtrapolateMsg, reduceCtorEq, false_iff, not_exists, not_and]
    intro _ _ _ h; cases h with | extrapolate h => exact h _ rfl
  | _ =>
    constructor
    · intro h; cases h; exact ⟨_, _, rfl, .extrapolate (by simp)⟩
    · rintro ⟨y, t, rfl, h⟩; cases h; rfl

omit U in
theorem end_err {v : Val} {r : Raised} : validEntityMsg v = .error r ↔ ∃ t, r = (.invalidExpression, some t) ∧ EndFault v t := by
  cases v with
  | entity e =>
    simp only [validEntityMsg]
    cases ha : e.alias with
    | none =>
      constructor
      · intro h; cases h; exact ⟨_, rfl, .noAlias ha⟩
      · rintro ⟨t, rfl, h⟩
        cases h with
        | type h => exact absurd rfl (h _)
        | noAlias => rfl
    | some a =>
      simp only [reduceCtorEq, false_iff, not_exists, not_and]
      intro t _ h
      cases h with
      | type h => exact h _ rfl
      | noAlias h => rw [ha] at h; cases h
  | _ =>
    constructor
    · intro h; cases h; exact ⟨_, rfl, .type (by simp)⟩
    · rintro ⟨t, rfl, h⟩; cases h; rfl

omit U in
theorem end_ok {v : Val} : (∃ e, validEntityMsg v = .ok e) ↔ EndOk v := by
  cases v with
  | entity e =>
    simp only [validEntityMsg, EndOk]
    cases ha : e.alias with
    | none =>
      simp only [raise, reduceCtorEq, exists_false, false_iff, not_exists, not_and]
      intro e' a h; cases h; simp [ha]
    | some a => simp only [Except.ok.injEq, exists_eq', true_iff]; exact ⟨e, a, rfl, ha⟩
  | _ => simp [validEntityMsg, EndOk, raise]

theorem relationship_err {l n r' : Val} {r : Raised} :
    mkRelationshipMsg l n r' = .error r ↔ ∃ y t, r = (y, some t) ∧ Refusal (.relationship l n r') y t := by
  simp only [mkRelationshipMsg, bind_eq_error, end_err]
  have notBoth : ∀ {v t}, EndOk v → ¬ EndFault v t := by
    intro v t h hf
    obtain ⟨e, he⟩ := end_ok.2 h
    have := (end_err (r := (.invalidExpression, some t))).2 ⟨t, rfl, hf⟩
    rw [he] at this; cases this
  constructor
  · rintro (⟨t, rfl, h⟩ | ⟨el, hl, ⟨t, rfl, h⟩ | ⟨er, hr, h⟩⟩)
    · exact ⟨_, _, rfl, .relationshipLeft h⟩
    · exact ⟨_, _, rfl, .relationshipRight (end_ok.1 ⟨_, hl⟩) h⟩
    · have hl := end_ok.1 ⟨_, hl⟩
      have hr := end_ok.1 ⟨_, hr⟩
      split at h
      · cases h
      · rename_i hne
        cases h
        refine ⟨_, _, rfl, .relationshipName hl hr ?_⟩
        intro s hs
        cases s with
        | nil => rfl
        | cons c s => exact absurd hs (hne c s)
  · rintro ⟨y, t, rfl, h⟩
    cases h with
    | relationshipLeft h => exact .inl ⟨_, rfl, h⟩
    | relationshipRight h h2 =>
      obtain ⟨e, he⟩ := end_ok.2 h
      exact .inr ⟨e, he, .inl ⟨_, rfl, h2⟩⟩
    | relationshipName h h2 h3 =>
      obtain ⟨e, he⟩ := end_ok.2 h
      obtain ⟨e', he'⟩ := end_ok.2 h2
      refine .inr ⟨e, he, .inr ⟨e', he', ?_⟩⟩
      split
      · rename_i hs; have := h3 _ rfl; cases this
      · rfl

theorem call_err (c : BuildCall) {r : Raised} : c.run = .error r ↔ ∃ x t, r = (x, some t) ∧ Refusal c x t := by
  cases c with
  | column => exact column_err
  | aliased => exact aliased_err
  | entity => exact entity_err
  | storage => exact storage_err
  | curried n i p a =>
    simp only [BuildCall.run, mkCurriedMsg, bind_eq_error, reduceCtorEq, and_false, exists_false, or_false, curried_err]
    constructor
    · rintro ⟨x, t, rfl, h⟩; exact ⟨x, t, rfl, .curried h⟩
    · rintro ⟨x, t, rfl, h⟩; cases h with | curried h => exact ⟨x, t, rfl, h⟩
  | function n p a =>
    simp only [BuildCall.run, mkFunctionMsg, bind_eq_error, reduceCtorEq, and_false, exists_false, or_false, curried_err]
    constructor
    · rintro ⟨x, t, rfl, h⟩; exact ⟨x, t, rfl, .function h⟩
    · rintro ⟨x, t, rfl, h⟩; cases h with | function h => exact ⟨x, t, rfl, h⟩
  | identifier => exact identifier_err
  | lambda => exact lambda_err
  | condition => exact condition_err
  | boolean o c =>
    by_cases ho : ∃ x, o = .boolOp x
    · obtain ⟨o, rfl⟩ := ho
      simp only [BuildCall.run, mkBooleanConditionMsg, bool_err]
      constructor
      · rintro ⟨t, rfl, h⟩; exact ⟨_, t, rfl, .boolean h⟩
      · rintro ⟨x, t, rfl, h⟩
        cases h with
        | booleanOp h => exact absurd rfl (h _)
        | boolean h => exact ⟨t, rfl, h⟩
    · have e : mkBooleanConditionMsg o c = raise .invalidCondition c!"invalid boolean: operator of a boolean must be a BooleanOp" := by
        cases o <;> first | exact absurd ⟨_, rfl⟩ ho | rfl
      simp only [BuildCall.run, e]
      constructor
      · intro h; cases h; exact ⟨_, _, rfl, .booleanOp (fun x hx => ho ⟨x, hx⟩)⟩
      · rintro ⟨x, t, rfl, h⟩
        cases h with
        | booleanOp => rfl
        | boolean => exact absurd ⟨_, rfl⟩ ho
  | and c =>
    simp only [BuildCall.run, bool_err]
    constructor
    · rintro ⟨t, rfl, h⟩; exact ⟨_, t, rfl, .and h⟩
    · rintro ⟨x, t, rfl, h⟩; cases h with | and h => exact ⟨t, rfl, h⟩
  | or c =>
    simp only [BuildCall.run, bool_err]
    constructor
    · rintro ⟨t, rfl, h⟩; exact ⟨_, t, rfl, .or h⟩
    · rintro ⟨x, t, rfl, h⟩; cases h with | or h => exact ⟨t, rfl, h⟩
  | orderby => exact orderby_err
  | limitby => exact limitby_err
  | limit => exact limit_err
  | offset => exact offset_err
  | granularity => exact granularity_err
  | totals => exact totals_err
  | extrapolate => exact extrapolate_err
  | relationship => exact relationship_err

end

end Verif.BuildMsg
