import Verif.Lemmas.SetOrder
import Verif.Lemmas.Examples

/-!
# Theorems: the order of Python's sets
-/

namespace Verif
open Spec

section
variable [U : PyUnicode]

omit U in
/-- C82: whether a join can be built, and what is raised otherwise, is the same for every order of the set of its
aliases. -/
theorem C82_join {σ τ : SetOrders} (hσ : PossibleOrders σ) (hτ : PossibleOrders τ) (v : Val) : mkJoinIn σ v = mkJoinIn τ v := by
  simp only [mkJoinIn, checkJoin_order hσ, checkJoin_order hτ]

private theorem validateMatchClause_order {σ : SetOrders} (hσ : PossibleOrders σ) (m : Val) : validateMatchClauseIn σ m = m.validate := by
  cases m <;> first | rfl | exact checkJoin_order hσ _

/-- C82: the validation in any order is the validation as the rest of the model has it. -/
theorem C82_validate_model {σ : SetOrders} (hσ : PossibleOrders σ) (q : Query) : q.validateIn σ = q.validate := by
  induction q with
  | base m b =>
    simp only [Query.validateIn, Query.validate, validateMatchClause_order hσ]
    cases hm : m.validate with
    | error e => rfl
    | ok u =>
      have hb : validateMatchBaseIn σ m b = validateMatchBase m b := by
        simp only [validateMatchBaseIn, validateMatchBase]
        cases searchBody b with
        | error e => rfl
        | ok cols =>
          simp only [ok_bind]
          cases m with
          | join k rels => exact validateJoin_order hσ hm cols
          | storage s => exact validateModel_order hσ _ _
          | entity e => exact validateModel_order hσ _ _
          | _ => rfl
      rw [hb]
  | nested q b ih => simp only [Query.validateIn, Query.validate, ih, validateSubquery_order hσ]

/-- C82: whether a query is valid, and the class of the error otherwise, is the same for every order of the sets. -/
theorem C82_validate {σ τ : SetOrders} (hσ : PossibleOrders σ) (hτ : PossibleOrders τ) (q : Query) : q.validateIn σ = q.validateIn τ := by
  rw [C82_validate_model hσ, C82_validate_model hτ]

/-- C82: so is the text of a query. -/
theorem C82_serialize [PyRepr] {σ τ : SetOrders} (hσ : PossibleOrders σ) (hτ : PossibleOrders τ) (q : Query) :
    q.serializeIn σ = q.serializeIn τ ∧ q.serializeIn σ = q.serialize := by
  simp only [Query.serializeIn, Query.serialize, C82_validate_model hσ, C82_validate_model hτ, and_self]

omit U in
/-- C82: the check of the required columns in any order is the check as the rest of the model has it. -/
theorem C82_required_model {σ : SetOrders} (hσ : PossibleOrders σ) (q : Query) : validateRequiredColumnsIn σ q = validateRequiredColumns q := by
  induction q with
  | base m b =>
    cases m with
    | entity e => exact checkEntityRequired_order hσ e _
    | join k rels => exact checkEntities_order hσ _ _
    | _ => rfl
  | nested q b ih => exact ih

omit U in
/-- C82: the check of the required columns ends the same way for every order of the sets. -/
theorem C82_required {σ τ : SetOrders} (hσ : PossibleOrders σ) (hτ : PossibleOrders τ) (q : Query) :
    validateRequiredColumnsIn σ q = validateRequiredColumnsIn τ q := by
  rw [C82_required_model hσ, C82_required_model hτ]

omit U in
/-- C82: the flags of a converted legacy body are the same for every order of the set of their names, and are those the
rest of the model has. -/
theorem C82_flags {σ τ : SetOrders} (hσ : PossibleOrders σ) (hτ : PossibleOrders τ) (body : LegacyBody) :
    legacyFlagsIn σ body = legacyFlagsIn τ body ∧ legacyFlagsIn σ body = legacyFlags body := by
  rw [legacyFlags_order hσ, legacyFlags_order hτ]
  exact ⟨rfl, rfl⟩

end

/-! ## Concrete cases -/

/-- As they come. -/
private def exSetAsGiven : SetOrders := ⟨id, id, id, id, id, id, id⟩

/-- Each item once, the last first. -/
private def exSetOnce {α : Type} [DecidableEq α] : List α → List α
  | [] => []
  | x :: xs => if x ∈ exSetOnce xs then exSetOnce xs else exSetOnce xs ++ [x]

private theorem exSetOnce_mem {α : Type} [DecidableEq α] (a : α) : ∀ xs : List α, a ∈ exSetOnce xs ↔ a ∈ xs
  | [] => Iff.rfl
  | x :: xs => by
    have ih := exSetOnce_mem a xs
    simp only [exSetOnce, List.mem_cons]
    split
    · rename_i h
      rw [ih]
      refine ⟨.inr, ?_⟩
      rintro (rfl | h')
      · exact ih.1 h
      · exact h'
    · simp only [List.mem_append, List.mem_singleton, ih, or_comm]

private def exSetBackwards : SetOrders := ⟨exSetOnce, exSetOnce, exSetOnce, exSetOnce, exSetOnce, exSetOnce, exSetOnce⟩

private theorem exSetAsGiven_possible : PossibleOrders exSetAsGiven := by
  have h : ∀ {α : Type} (eq : α → α → Bool) (xs : List α), SeesSet eq xs (id xs) :=
    fun _ xs => ⟨fun _ h => h, fun x hx => ⟨x, hx, .inl rfl⟩⟩
  exact ⟨h _, h _, h _, h _, h _, h _, h _⟩

private theorem exSetBackwards_possible : PossibleOrders exSetBackwards := by
  have h : ∀ {α : Type} [DecidableEq α] (eq : α → α → Bool) (xs : List α), SeesSet eq xs (exSetOnce xs) :=
    fun _ xs => ⟨fun y h => (exSetOnce_mem y xs).1 h, fun x hx => ⟨x, (exSetOnce_mem x xs).2 hx, .inl rfl⟩⟩
  exact ⟨h _, h _, h _, h _, h _, h _, h _⟩

attribute [local instance] asciiUnicode

private def exSetEnt (n a : Str) : EntityObj := { name := n, alias := some a, sample := none, dataModel := none }

private def exSetRels : List RelObj := [{ lhs := exSetEnt c!"events" c!"ev", name := c!"grouped", rhs := exSetEnt c!"groups" c!"gr" }]

/-- Two entities under one alias. -/
private def exSetClash : List RelObj := exSetRels ++ [{ lhs := exSetEnt c!"events" c!"ev", name := c!"grouped", rhs := exSetEnt c!"users" c!"gr" }]

private def exSetCol (n : Str) (e : EntityObj) : Val := .column { name := n, entity := some e, subscriptable := none, key := none }

private def exSetSelected : Body := { select := .list [exSetCol c!"title" (exSetEnt c!"events" c!"ev"), exSetCol c!"id" (exSetEnt c!"groups" c!"gr")] }

/-- A join whose aliases differ is accepted in both orders, one with a clash is refused in both. -/
example : (Query.base (.join .list exSetRels) exSetSelected).validateIn exSetBackwards = .ok () ∧
    (Query.base (.join .list exSetRels) exSetSelected).validateIn exSetAsGiven = .ok () ∧
    (Query.base (.join .list exSetClash) exSetSelected).validateIn exSetBackwards = .error .invalidExpression ∧
    (Query.base (.join .list exSetClash) exSetSelected).validateIn exSetAsGiven = .error .invalidExpression := by
  refine ⟨?_, ?_, ?_, ?_⟩ <;> decide +kernel

/-- The check of the columns alone would depend on the order when two entities share an alias: `Join.validate` is what
keeps such joins from it. -/
theorem C82_needs_join_check : PossibleOrders exSetAsGiven ∧ PossibleOrders exSetBackwards ∧
    validateMatchBaseIn exSetAsGiven (.join .list exSetClash) exSetSelected = .error .invalidMatch ∧
    validateMatchBaseIn exSetBackwards (.join .list exSetClash) exSetSelected = .ok () := by
  refine ⟨exSetAsGiven_possible, exSetBackwards_possible, ?_, ?_⟩ <;> decide +kernel

example (q : Query) : q.validateIn exSetAsGiven = q.validateIn exSetBackwards := C82_validate exSetAsGiven_possible exSetBackwards_possible q

example (v : Val) : mkJoinIn exSetAsGiven v = mkJoinIn exSetBackwards v := C82_join exSetAsGiven_possible exSetBackwards_possible v

private def exSetModelled (a : Str) : EntityObj :=
  { exSetEnt c!"events" a with dataModel := some { columns := [⟨c!"project_id", true⟩, ⟨c!"org_id", true⟩], timeColumn := ⟨c!"timestamp", false⟩ } }

private def exSetCondOn (n : Str) (o : Op) : Val := .cond (.column { name := n, entity := none, subscriptable := none, key := none }) o (.int 1)

/-- A required column without a condition is found in both orders. -/
example : validateRequiredColumnsIn exSetBackwards (.base (.entity (exSetModelled c!"ev")) { where_ := .list [exSetCondOn c!"project_id" .eq] }) =
      .error .requiredColumn ∧
    validateRequiredColumnsIn exSetBackwards (.base (.entity (exSetModelled c!"ev")) { where_ := .list [exSetCondOn c!"project_id" .eq,
      exSetCondOn c!"org_id" .in_, exSetCondOn c!"timestamp" .gte, exSetCondOn c!"timestamp" .lt] }) = .ok () := by
  refine ⟨?_, ?_⟩ <;> decide +kernel

example (q : Query) : validateRequiredColumnsIn exSetAsGiven q = validateRequiredColumnsIn exSetBackwards q :=
  C82_required exSetAsGiven_possible exSetBackwards_possible q

private def exSetFlagged : LegacyBody := { entries := [(c!"debug", .bool true), (c!"turbo", .bool false)], tenantIds := .val .none }

example : ((legacyFlagsIn exSetBackwards exSetFlagged).fields.map fun f => f.2.truthy) = [false, false, false, true, false, true] := by
  decide +kernel

example : legacyFlagsIn exSetAsGiven exSetFlagged = legacyFlagsIn exSetBackwards exSetFlagged := (C82_flags exSetAsGiven_possible exSetBackwards_possible _).1

end Verif
