import Verif.Lemmas.Messages
import Verif.Lemmas.Examples

/-!
# Theorems: what error messages say
-/

namespace Verif
open Spec

/-- C85: the checks with messages raise the classes that the checks in the rest of the model raise. -/
theorem C85_same_class (σ : SetOrders) :
    (∀ rels, dropMessage (checkJoinMsg σ rels) = checkJoinIn σ rels) ∧
    (∀ m b, dropMessage (validateMatchMsg σ (.base m b)) = validateMatchBaseIn σ m b) ∧
    (∀ q b, dropMessage (validateMatchMsg σ (.nested q b)) = (do validateSubqueryIn σ q.body (← searchBody b))) ∧
    (∀ q, dropMessage (validateRequiredColumnsMsg σ q) = validateRequiredColumnsIn σ q) ∧
    (∀ d : DeleteObj, dropMessage d.validateMsg = d.validate) ∧
    ∀ f : FlagsObj, dropMessage f.validateMsg = f.validate := by
  refine ⟨drop_join σ, ?_, ?_, drop_required σ, ?_, fun f => drop_flags _⟩
  · intro m b
    simp only [validateMatchMsg, validateMatchBaseIn, drop_bind, drop_elsewhere]
    cases searchBody b with
    | error e => rfl
    | ok cols =>
      simp only [ok_bind]
      cases m with
      | join k rels => exact drop_qualified _ _
      | storage s => exact drop_model _ _ _
      | entity e => exact drop_model _ _ _
      | _ => rfl
  · intro q b
    simp only [validateMatchMsg, drop_bind, drop_elsewhere, drop_subquery]
  · intro d
    unfold DeleteObj.validateMsg DeleteObj.validate
    cases d.columnConditions with
    | dict kvs =>
      cases kvs with
      | nil => rfl
      | cons kv kvs => exact drop_columns _
    | _ => rfl

/-- C85: when the check of the columns against the match fails, the message names a column of the query, and what it says of that column is
so. -/
theorem C85_match {σ : SetOrders} (hσ : PossibleOrders σ) {q : Query} {x : Err} {m : Option Str} (h : validateMatchMsg σ q = .error (x, m))
    (hx : x = .invalidMatch ∨ x = .invalidColumn) : ∃ t c, m = some t ∧ OccursInBody c q.body ∧ Culprit q c x t := by
  have search : ∀ {b : Body}, searchBody b ≠ .error x := by
    intro b hb
    rcases searchBody_errors hb with rfl | rfl | rfl <;> rcases hx with hx | hx <;> cases hx
  cases q with
  | nested q b =>
    simp only [validateMatchMsg] at h
    cases hs : searchBody b with
    | error e =>
      rw [hs] at h
      cases h
      exact absurd hs search
    | ok cols =>
      rw [hs] at h
      simp only [elsewhere, ok_bind, validateSubqueryMsg] at h
      split at h
      · cases h
        rcases hx with hx | hx <;> cases hx
      · split at h
        · rename_i e hi
          cases h
          unfold Val.iter at hi
          split at hi
          · cases hi
          · cases hi
            rcases hx with hx | hx <;> cases hx
        · rename_i xs hi
          cases m with
          | none => exact absurd h (inner_said _ _ _)
          | some t =>
            obtain ⟨rfl, c, hc, hn, rfl⟩ := inner_text h
            refine ⟨_, c, rfl, (searchBody_mem hs).1 ((hσ.columns _).1 _ hc), .notInSubquery ?_⟩
            rintro ⟨k, ys, y, hy, hm, hd⟩
            have : ys = xs := by
              have hj : q.body.select.iter = .ok ys := by
                generalize q.body.select = s at hy
                cases hy <;> rfl
              rw [hj] at hi
              cases hi
              rfl
            subst this
            exact hn ((innerNames_mem _ _).2 ⟨y, hm, hd⟩)
  | base v b =>
    simp only [validateMatchMsg] at h
    cases hs : searchBody b with
    | error e =>
      rw [hs] at h
      cases h
      exact absurd hs search
    | ok cols =>
      rw [hs] at h
      simp only [elsewhere, ok_bind] at h
      have at_ : ∀ {c}, c ∈ σ.columns cols → OccursInBody c b := fun hc => (searchBody_mem hs).1 ((hσ.columns _).1 _ hc)
      cases v with
      | join k rels =>
        cases m with
        | none => exact absurd h (qualified_said _ _ _)
        | some t =>
          obtain ⟨rfl, c, hc, hd⟩ := qualified_text h
          refine ⟨t, c, rfl, at_ hc, ?_⟩
          rcases hd with ⟨he, rfl⟩ | ⟨e, he, ha, rfl⟩ | ⟨e, a, he, ha, hl, rfl⟩ | ⟨e, a, n, he, ha, hl, hn, rfl⟩
          · exact .unqualified he
          · exact .noAlias he ha
          · refine .unknownAlias he ha ?_
            rintro ⟨n, hn⟩
            refine lookup_none_pair a n hl ?_
            rw [List.mem_reverse, (hσ.aliasDict _).mem]
            exact mem_aliasMappings.2 hn
          · refine .otherEntity he ha (mem_aliasMappings.1 ?_) hn
            have := lookup_mem_pair hl
            rwa [List.mem_reverse, (hσ.aliasDict _).mem] at this
      | storage s =>
        cases m with
        | none => exact absurd h (model_said _ _ _ _)
        | some t =>
          obtain ⟨rfl, c, hc, hd, rfl⟩ := model_text h
          exact ⟨_, c, rfl, at_ hc, .storage hd⟩
      | entity e =>
        cases m with
        | none => exact absurd h (model_said _ _ _ _)
        | some t =>
          obtain ⟨rfl, c, hc, hd, rfl⟩ := model_text h
          exact ⟨_, c, rfl, at_ hc, .entity hd⟩
      | _ =>
        cases h
        rcases hx with hx | hx <;> cases hx

/-- C85: when the check of the required columns fails, the message is about an entity of the innermost match, and lists just what the where
clause lacks for it. -/
theorem C85_required {σ : SetOrders} (hσ : TrueSets σ) {q : Query} {k : SeqKind} {xs : List Val} (hw : SeqOf (innermost q).2.where_ k xs)
    {r : Raised} (h : validateRequiredColumnsMsg σ q = .error r) :
    ∃ e d t, Matched e (innermost q).1 ∧ e.dataModel = some d ∧ r = (.requiredColumn, some t) ∧ RequiredText e d xs t := by
  have one : ∀ {w : Val} {e : EntityObj}, SeqOf w k xs → checkEntityRequiredMsg σ e w = .error r →
      ∃ d t, e.dataModel = some d ∧ r = (.requiredColumn, some t) ∧ RequiredText e d xs t := by
    intro w e hw h
    cases hd : e.dataModel with
    | none => simp [checkEntityRequiredMsg, hd] at h
    | some d =>
      obtain ⟨x, m⟩ := r
      cases m with
      | none => exact absurd h (entity_said hw)
      | some t =>
        obtain ⟨rfl, ht⟩ := required_text hσ hd hw h
        exact ⟨d, t, rfl, rfl, ht⟩
  induction q with
  | nested q b ih => exact ih hw h
  | base m b =>
    simp only [innermost] at hw ⊢
    cases m with
    | entity e =>
      obtain ⟨d, t, h⟩ := one hw h
      exact ⟨e, d, t, .entity, h⟩
    | join k' rels =>
      have many : ∀ {es : List EntityObj}, checkEntitiesRequiredMsg σ es b.where_ = .error r →
          ∃ e ∈ es, ∃ d t, e.dataModel = some d ∧ r = (.requiredColumn, some t) ∧ RequiredText e d xs t := by
        intro es
        induction es with
        | nil => intro h; cases h
        | cons e es ih =>
          intro h
          simp only [checkEntitiesRequiredMsg, bind_eq_error] at h
          rcases h with h | ⟨_, _, h⟩
          · exact ⟨e, by simp, one hw h⟩
          · obtain ⟨e', he, h⟩ := ih h
            exact ⟨e', List.mem_cons_of_mem _ he, h⟩
      obtain ⟨e, he, d, t, h⟩ := many h
      have he := (hσ.entities _).1 _ he
      simp only [joinEntities, List.mem_flatMap, List.mem_cons, List.not_mem_nil, or_false] at he
      obtain ⟨rel, hr, rfl | rfl⟩ := he
      · exact ⟨_, d, t, .joinL k' rels rel hr rfl, h⟩
      · exact ⟨_, d, t, .joinR k' rels rel hr rfl, h⟩
    | _ => cases h

/-- C85: with no where clause at all, or an empty one, the message says that there are no conditions. -/
theorem C85_no_where (σ : SetOrders) {e : EntityObj} {b : Body} (hd : e.dataModel ≠ none)
    (hw : b.where_ = .none ∨ b.where_ = .list []) :
    validateRequiredColumnsMsg σ (.base (.entity e) b) = .error (.requiredColumn, some c!"where clause is missing required columns") := by
  simp only [validateRequiredColumnsMsg, checkEntityRequiredMsg]
  cases h : e.dataModel with
  | none => exact absurd h hd
  | some d => rcases hw with hw | hw <;> rw [hw] <;> rfl

/-- C85: about required columns a query on one entity gives the same message in every order of the sets. -/
theorem C85_required_stable {σ τ : SetOrders} (hσ : TrueSets σ) (hτ : TrueSets τ) {e : EntityObj} {d : DataModel} {b : Body} {k : SeqKind}
    {xs : List Val} (hd : e.dataModel = some d) (hw : SeqOf b.where_ k xs)
    (hm : ∃ m ∈ d.columns, m.required = true ∧ Unrestricted xs e m.name [.eq, .in_]) :
    validateRequiredColumnsMsg σ (.base (.entity e) b) = validateRequiredColumnsMsg τ (.base (.entity e) b) :=
  required_stable hσ hτ hd hw hm

/-- C85: a join that is refused has no relationships, and the message says so, or it uses the alias that the message names for the two
entities that the message names, the smaller name first. -/
theorem C85_join {σ : SetOrders} (hσ : PossibleOrders σ) {rels : List RelObj} {r : Raised} (h : checkJoinMsg σ rels = .error r) :
    (rels = [] ∧ r = (.invalidExpression, some c!"Join must have at least one Relationship")) ∨
    ∃ a n m, Uses rels a n ∧ Uses rels a m ∧ Before n m ∧
      r = (.invalidExpression, some (c!"alias '" ++ a ++ c!"' is duplicated for entities " ++ n ++ c!", " ++ m)) := by
  unfold checkJoinMsg at h
  split at h
  · rename_i he
    cases h
    exact .inl ⟨by simpa using he, rfl⟩
  · obtain ⟨x, m⟩ := r
    cases m with
    | none => exact absurd h (seen_said _ _ _)
    | some t =>
      obtain ⟨rfl, a, n, m, hn, hm, hb, rfl⟩ := seen_text h
      have uses : ∀ {n}, (a, n) ∈ σ.aliases (aliasMappings rels) ∨ (a, n) ∈ ([] : List (Str × Str)) → Uses rels a n := by
        intro n hn
        simp only [List.not_mem_nil, or_false] at hn
        exact mem_aliasMappings.1 ((hσ.aliases _).1 _ hn)
      exact .inr ⟨a, n, m, uses hn, uses hm, hb, rfl⟩

/-- C85: a deletion that is refused with a message has no columns at all, or the message names its first column without values. -/
theorem C85_delete {d : DeleteObj} {kvs : List (Str × Data)} (hd : d.columnConditions = .dict kvs) {x : Err} {t : Str}
    (h : d.validateMsg = .error (x, some t)) : x = .invalidDelete ∧
      ((kvs = [] ∧ t = c!"column conditions cannot be empty") ∨
        ∃ before after col v, kvs = before ++ (col, v) :: after ∧ v.len = .ok 0 ∧ (∀ p ∈ before, ∃ n, p.2.len = .ok (n + 1)) ∧
          t = c!"column condition '" ++ col ++ c!"' cannot be empty") := by
  unfold DeleteObj.validateMsg at h
  rw [hd] at h
  cases kvs with
  | nil =>
    cases h
    exact ⟨rfl, .inl ⟨rfl, rfl⟩⟩
  | cons kv kvs =>
    obtain ⟨hx, b, a, col, v, h1, h2, h3, h4⟩ := columns_text h
    refine ⟨hx, .inr ⟨b, a, col, v, h1, h2, ?_, h4⟩⟩
    intro p hp
    obtain ⟨n, hn, h0⟩ := h3 p hp
    obtain ⟨m, rfl⟩ := Nat.exists_eq_succ_of_ne_zero h0
    exact ⟨m, hn⟩

/-- C85: the message about flags names the first flag that is neither a boolean nor left out. -/
theorem C85_flags {f : FlagsObj} {r : Raised} (h : f.validateMsg = .error r) :
    ∃ before after k v, f.fields = before ++ (k, v) :: after ∧ v ≠ .none ∧ (∀ b, v ≠ .bool b) ∧
      (∀ p ∈ before, p.2 = .none ∨ ∃ b, p.2 = .bool b) ∧ r = (.invalidFlag, some (k ++ c!" must be a boolean")) := by
  obtain ⟨x, m⟩ := r
  cases m with
  | none => exact absurd h (flags_said _ _)
  | some t =>
    obtain ⟨b, a, k, v, h1, h2, h3, rfl⟩ := flags_text h
    have hv : x = .invalidFlag ∧ v ≠ .none ∧ ∀ b, v ≠ .bool b := by
      cases v <;> simp [checkFlag] at h2 ⊢ <;> exact h2.symm
    obtain ⟨rfl, hv1, hv2⟩ := hv
    refine ⟨b, a, k, v, h1, hv1, hv2, ?_, rfl⟩
    intro p hp
    have := h3 p hp
    generalize p.2 = w at this
    cases w <;> simp [checkFlag] at this ⊢

/-! ## Concrete cases -/

/-- Each item once, the last first. -/
private def exMsgOnce {α : Type} [DecidableEq α] : List α → List α
  | [] => []
  | x :: xs => if x ∈ exMsgOnce xs then exMsgOnce xs else exMsgOnce xs ++ [x]

private theorem exMsgOnce_mem {α : Type} [DecidableEq α] (a : α) : ∀ xs : List α, a ∈ exMsgOnce xs ↔ a ∈ xs
  | [] => Iff.rfl
  | x :: xs => by
    have ih := exMsgOnce_mem a xs
    simp only [exMsgOnce, List.mem_cons]
    split
    · rename_i h
      rw [ih]
      refine ⟨.inr, ?_⟩
      rintro (rfl | h')
      · exact ih.1 h
      · exact h'
    · simp only [List.mem_append, List.mem_singleton, ih, or_comm]

private theorem exMsgOnce_nodup {α : Type} [DecidableEq α] : ∀ xs : List α, (exMsgOnce xs).Nodup
  | [] => List.nodup_nil
  | x :: xs => by
    simp only [exMsgOnce]
    split
    · exact exMsgOnce_nodup xs
    · rename_i h
      refine List.nodup_append.2 ⟨exMsgOnce_nodup xs, by simp, ?_⟩
      intro a ha b hb
      rw [List.mem_singleton] at hb
      rintro rfl
      exact h (hb ▸ ha)

private def exMsgBackwards : SetOrders := ⟨exMsgOnce, exMsgOnce, exMsgOnce, exMsgOnce, exMsgOnce, exMsgOnce, exMsgOnce⟩

/-- The same with the required columns the other way round, and `<` before the other operators. -/
private def exMsgForwards : SetOrders :=
  { exMsgBackwards with
    required := fun xs => (exMsgOnce xs).reverse
    ops := fun xs => (if Op.lt ∈ xs then [Op.lt] else []) ++ (exMsgOnce xs).filter fun o => decide (o ≠ Op.lt) }

private theorem exMsgBackwards_true : TrueSets exMsgBackwards := by
  have h : ∀ {α : Type} [DecidableEq α] (eq : α → α → Bool) (xs : List α), SeesSet eq xs (exMsgOnce xs) :=
    fun _ xs => ⟨fun y h => (exMsgOnce_mem y xs).1 h, fun x hx => ⟨x, (exMsgOnce_mem x xs).2 hx, .inl rfl⟩⟩
  exact ⟨⟨h _, h _, h _, h _, h _, h _, h _⟩, exMsgOnce_nodup, exMsgOnce_nodup⟩

private theorem exMsgForwards_true : TrueSets exMsgForwards := by
  have h : ∀ {α : Type} [DecidableEq α] (eq : α → α → Bool) (xs : List α), SeesSet eq xs (exMsgOnce xs) :=
    fun _ xs => ⟨fun y h => (exMsgOnce_mem y xs).1 h, fun x hx => ⟨x, (exMsgOnce_mem x xs).2 hx, .inl rfl⟩⟩
  have hr : ∀ {α : Type} [DecidableEq α] (eq : α → α → Bool) (xs : List α), SeesSet eq xs (exMsgOnce xs).reverse :=
    fun _ xs => ⟨fun y h => (exMsgOnce_mem y xs).1 (List.mem_reverse.1 h),
      fun x hx => ⟨x, List.mem_reverse.2 ((exMsgOnce_mem x xs).2 hx), .inl rfl⟩⟩
  have hl : ∀ (xs : List Op) o, o ∈ (if Op.lt ∈ xs then [Op.lt] else []) ++ (exMsgOnce xs).filter (fun o => decide (o ≠ Op.lt)) ↔ o ∈ xs := by
    intro xs o
    rw [List.mem_append, List.mem_filter, exMsgOnce_mem]
    by_cases ho : o = .lt
    · subst ho
      by_cases hx : Op.lt ∈ xs <;> simp [hx]
    · split <;> simp [ho]
  have ho : ∀ (eq : Op → Op → Bool) xs, SeesSet eq xs (exMsgForwards.ops xs) :=
    fun _ xs => ⟨fun y h => (hl xs y).1 h, fun x hx => ⟨x, (hl xs x).2 hx, .inl rfl⟩⟩
  refine ⟨⟨h _, h _, h _, h _, hr _, ho _, h _⟩, fun xs => List.nodup_reverse.2 (exMsgOnce_nodup xs), fun xs => ?_⟩
  refine List.nodup_append.2 ⟨by split <;> simp, (exMsgOnce_nodup xs).filter _, ?_⟩
  intro a ha b hb
  rw [List.mem_filter] at hb
  split at ha
  · rw [List.mem_singleton] at ha
    rintro rfl
    simp [ha] at hb
  · cases ha

private def exMsgEnt (n : Str) (a : Option Str) : EntityObj := ⟨n, a, none, none⟩

private def exMsgCol (n : Str) (e : Option EntityObj) : ColumnObj := { name := n, entity := e, subscriptable := none, key := none }

private def exMsgRels : List RelObj :=
  [{ lhs := exMsgEnt c!"events" (some c!"ev"), name := c!"grouped", rhs := exMsgEnt c!"groups" (some c!"gr") }]

private def exMsgJoin (c : ColumnObj) : Query := .base (.join .list exMsgRels) { select := .list [.column c] }

private def exMsgOf {α : Type} : Except Raised α → Option (Err × Option Str)
  | .ok _ => none
  | .error r => some r

/-- The four messages about the columns of a join. -/
example :
    exMsgOf (validateMatchMsg exMsgBackwards (exMsgJoin (exMsgCol c!"title" none))) =
      some (.invalidMatch, some c!"column 'title' must have a qualifying entity") ∧
    exMsgOf (validateMatchMsg exMsgBackwards (exMsgJoin (exMsgCol c!"title" (some (exMsgEnt c!"events" none))))) =
      some (.invalidMatch, some c!"column 'title' has unknown entity alias None") ∧
    exMsgOf (validateMatchMsg exMsgBackwards (exMsgJoin (exMsgCol c!"title" (some (exMsgEnt c!"events" (some c!"xx")))))) =
      some (.invalidMatch, some c!"column 'title' has unknown entity alias xx") ∧
    exMsgOf (validateMatchMsg exMsgBackwards (exMsgJoin (exMsgCol c!"title" (some (exMsgEnt c!"events" (some c!"gr")))))) =
      some (.invalidMatch, some c!"column 'title' has incorrect alias for entity Entity('events', alias='gr'): 'gr'") := by
  refine ⟨?_, ?_, ?_, ?_⟩ <;> decide +kernel

/-- A column that the subquery does not select. -/
private def exMsgNested : Query :=
  .nested (.base (.entity (exMsgEnt c!"events" none)) { select := .list [.column (exMsgCol c!"title" none)] })
    { select := .list [.column (exMsgCol c!"title" none), .column (exMsgCol c!"release" none)] }

example : validateMatchMsg exMsgBackwards exMsgNested =
    .error (.invalidMatch, some c!"outer query is referencing column 'release' that does not exist in subquery") := by decide +kernel

example : ∃ t c, some c!"outer query is referencing column 'release' that does not exist in subquery" = some t ∧ OccursInBody c exMsgNested.body ∧
    Culprit exMsgNested c .invalidMatch t :=
  C85_match exMsgBackwards_true.toPossibleOrders (x := .invalidMatch) (by decide +kernel : validateMatchMsg exMsgBackwards exMsgNested = _) (.inl rfl)

private def exMsgModel : DataModel :=
  { columns := [⟨c!"project_id", true⟩, ⟨c!"org_id", true⟩, ⟨c!"timestamp", false⟩], timeColumn := ⟨c!"timestamp", false⟩ }

private def exMsgModelled (a : Option Str) : EntityObj := ⟨c!"events", a, none, some exMsgModel⟩

example : exMsgOf (validateMatchMsg exMsgBackwards (.base (.entity (exMsgModelled none)) { select := .list [.column (exMsgCol c!"title" none)] })) =
    some (.invalidColumn, some c!"'events' does not support the column 'title'") := by decide +kernel

private def exMsgCond (n : Str) (o : Op) : Val := .cond (.column (exMsgCol n none)) o (.int 1)

private def exMsgWhere (a : Option Str) (xs : List Val) : Query := .base (.entity (exMsgModelled a)) { where_ := .list xs }

/-- What is said about required columns and about the time column. -/
example :
    exMsgOf (validateRequiredColumnsMsg exMsgBackwards (exMsgWhere none [])) = some (.requiredColumn, some c!"where clause is missing required columns") ∧
    exMsgOf (validateRequiredColumnsMsg exMsgBackwards (exMsgWhere (some c!"ev") [exMsgCond c!"title" .eq])) =
      some (.requiredColumn, some c!"where clause is missing required conditions on columns 'ev.org_id', 'ev.project_id'") ∧
    exMsgOf (validateRequiredColumnsMsg exMsgBackwards (exMsgWhere none [exMsgCond c!"org_id" .eq])) =
      some (.requiredColumn, some c!"where clause is missing required condition on column 'project_id'") ∧
    exMsgOf (validateRequiredColumnsMsg exMsgBackwards
        (exMsgWhere none [exMsgCond c!"org_id" .eq, exMsgCond c!"project_id" .in_, exMsgCond c!"timestamp" .lt])) =
      some (.requiredColumn, some c!"where clause is missing required >= condition on column 'timestamp'") := by
  refine ⟨?_, ?_, ?_, ?_⟩ <;> decide +kernel

example {r : Raised} (h : validateRequiredColumnsMsg exMsgBackwards (exMsgWhere none [exMsgCond c!"org_id" .eq]) = .error r) :
    ∃ e d t, Matched e (.entity (exMsgModelled none)) ∧ e.dataModel = some d ∧ r = (.requiredColumn, some t) ∧
      RequiredText e d [exMsgCond c!"org_id" .eq] t :=
  C85_required exMsgBackwards_true (q := exMsgWhere none [exMsgCond c!"org_id" .eq]) (.list _) h

example : validateRequiredColumnsMsg exMsgBackwards (exMsgWhere (some c!"ev") [exMsgCond c!"title" .eq]) =
    validateRequiredColumnsMsg exMsgForwards (exMsgWhere (some c!"ev") [exMsgCond c!"title" .eq]) :=
  C85_required_stable exMsgBackwards_true exMsgForwards_true (d := exMsgModel) rfl (.list _) ⟨⟨c!"project_id", true⟩, by simp [exMsgModel], rfl, by
    rintro ⟨c, ht, hr⟩
    cases ht with
    | here _ hm _ =>
      rw [List.mem_singleton] at hm
      subst hm
      obtain ⟨col, o, r, he, hn, _⟩ := hr
      cases he
      exact absurd hn (by decide)
    | inAnd _ _ _ _ hm _ =>
      rw [List.mem_singleton] at hm
      cases hm⟩

/-- C85: the message about the time column depends on the order of the set of operators, and this order depends on the hashes that Python
gives to strings. -/
theorem C85_ops_unstable : TrueSets exMsgBackwards ∧ TrueSets exMsgForwards ∧
    validateRequiredColumnsMsg exMsgBackwards (exMsgWhere none [exMsgCond c!"org_id" .eq, exMsgCond c!"project_id" .in_]) =
      .error (.requiredColumn, some c!"where clause is missing required >=, < conditions on column 'timestamp'") ∧
    validateRequiredColumnsMsg exMsgForwards (exMsgWhere none [exMsgCond c!"org_id" .eq, exMsgCond c!"project_id" .in_]) =
      .error (.requiredColumn, some c!"where clause is missing required <, >= conditions on column 'timestamp'") := by
  refine ⟨exMsgBackwards_true, exMsgForwards_true, ?_, ?_⟩ <;> decide +kernel

private def exMsgClash : List RelObj :=
  exMsgRels ++ [{ lhs := exMsgEnt c!"events" (some c!"ev"), name := c!"seen", rhs := exMsgEnt c!"actors" (some c!"gr") }]

example : checkJoinMsg exMsgBackwards exMsgClash =
    .error (.invalidExpression, some c!"alias 'gr' is duplicated for entities actors, groups") := by decide +kernel

example : ∃ a n m, Uses exMsgClash a n ∧ Uses exMsgClash a m ∧ Before n m := by
  rcases C85_join exMsgBackwards_true.toPossibleOrders (by decide +kernel : checkJoinMsg exMsgBackwards exMsgClash =
    .error (.invalidExpression, some c!"alias 'gr' is duplicated for entities actors, groups")) with ⟨h, _⟩ | ⟨a, n, m, h1, h2, h3, _⟩
  · cases h
  · exact ⟨a, n, m, h1, h2, h3⟩

private def exMsgDelete (kvs : List (Str × Data)) : DeleteObj := ⟨.val (.str c!"search_issues"), .dict kvs⟩

/-- The second column has no values. -/
private def exMsgKvs : List (Str × Data) := [(c!"project_id", .val (.list [.int 1])), (c!"group_id", .list []), (c!"id", .val (.str []))]

example : (exMsgDelete exMsgKvs).validateMsg = .error (.invalidDelete, some c!"column condition 'group_id' cannot be empty") ∧
    (exMsgDelete []).validateMsg = .error (.invalidDelete, some c!"column conditions cannot be empty") := by
  refine ⟨?_, ?_⟩ <;> decide +kernel

example : ∃ before after col v, exMsgKvs = before ++ (col, v) :: after ∧ v.len = .ok 0 := by
  rcases (C85_delete (d := exMsgDelete exMsgKvs) rfl
    (by decide +kernel : (exMsgDelete exMsgKvs).validateMsg = .error (.invalidDelete, some c!"column condition 'group_id' cannot be empty"))).2 with ⟨h, _⟩ | ⟨b, a, col, v, h1, h2, _⟩
  · cases h
  · exact ⟨b, a, col, v, h1, h2⟩

private def exMsgFlags : FlagsObj := { debug := .int 1, consistent := .bool true, dryRun := .str c!"no" }

example : exMsgFlags.validateMsg = .error (.invalidFlag, some c!"debug must be a boolean") := by decide +kernel

example : ∃ before after k v, exMsgFlags.fields = before ++ (k, v) :: after ∧ v ≠ .none ∧ ∀ b, v ≠ .bool b := by
  obtain ⟨b, a, k, v, h1, h2, h3, _⟩ := C85_flags (f := exMsgFlags) (by decide +kernel : exMsgFlags.validateMsg = .error (.invalidFlag, some c!"debug must be a boolean"))
  exact ⟨b, a, k, v, h1, h2, h3⟩

example : dropMessage (validateMatchMsg exMsgBackwards (exMsgJoin (exMsgCol c!"title" none))) = .error .invalidMatch := by
  rw [exMsgJoin, (C85_same_class exMsgBackwards).2.1]
  decide +kernel

example : validateRequiredColumnsMsg exMsgForwards (.base (.entity (exMsgModelled none)) {}) =
    .error (.requiredColumn, some c!"where clause is missing required columns") :=
  C85_no_where _ (by simp [exMsgModelled]) (.inl rfl)

end Verif
