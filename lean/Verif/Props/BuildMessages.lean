import Verif.Lemmas.BuildMessages
import Verif.Props.Messages

/-!
# Theorems: what the constructors say when they refuse their arguments
-/

namespace Verif
open Spec BuildMsg

section
variable [PyShow] [PyText] [U : PyUnicode]

/-- C89: the constructors with messages give the objects, and raise the classes, of the constructors in the rest of the model. -/
theorem C89_same_class (c : BuildCall) : dropMessage c.run = c.plain := drop_call c

omit [PyShow] [PyText] U in
/-- C89: the same of joins. -/
theorem C89_same_class_join (σ : SetOrders) (v : Val) :
    dropMessage (mkJoinMsg σ v) = (match v.listOrTuple? with
      | none => .error .invalidExpression
      | some (k, xs) => if xs.isEmpty then .error .invalidExpression else do
        let rs ← allRels xs
        checkJoinIn σ rs
        .ok (.join k rs)) := by
  unfold mkJoinMsg
  cases v.listOrTuple? with
  | none => rfl
  | some p =>
    obtain ⟨k, xs⟩ := p
    cases hx : xs.isEmpty with
    | true => simp only [hx, if_true]; rfl
    | false =>
      simp only [hx, Bool.false_eq_true, if_false]
      cases allRels xs with
      | error e => rfl
      | ok rs => simp only [ok_bind, drop_bind, drop_join, drop_ok]

/-- C89: a constructor raises an exception exactly if something is wrong with its arguments; the exception always has a message, and this
message is the one that belongs to the first thing that is wrong. -/
theorem C89_message (c : BuildCall) (r : Raised) : c.run = .error r ↔ ∃ x t, r = (x, some t) ∧ Refusal c x t := call_err c

/-- C89: what is wrong first is settled: two descriptions of it are the same. -/
theorem C89_one_reason (c : BuildCall) {x y : Err} {t u : Str} (h : Refusal c x t) (h' : Refusal c y u) : x = y ∧ t = u := by
  have e := (C89_message c (x, some t)).2 ⟨x, t, rfl, h⟩
  rw [(C89_message c (y, some u)).2 ⟨y, u, rfl, h'⟩] at e
  cases e
  exact ⟨rfl, rfl⟩

/-- C89: an object is made exactly if nothing is wrong. -/
theorem C89_accepted (c : BuildCall) : (∃ v, c.plain = .ok v) ↔ ∀ x t, ¬ Refusal c x t := by
  rw [← C89_same_class]
  cases h : c.run with
  | ok v =>
    refine ⟨fun _ x t hr => ?_, fun _ => ⟨v, rfl⟩⟩
    rw [(C89_message c (x, some t)).2 ⟨x, t, rfl, hr⟩] at h
    cases h
  | error r =>
    obtain ⟨x, t, rfl, hr⟩ := (C89_message c r).1 h
    refine ⟨?_, fun hn => absurd hr (hn x t)⟩
    rintro ⟨v, hv⟩
    cases hv

/-- C89: what is said of a column whose name is a string has the name in it, in quotes. -/
theorem C89_column_quoted {s : Str} {e : Val} {r : Raised} (h : mkColumnMsg (.str s) e = .error r) :
    ∃ t, r = (.invalidColumn, some t) ∧ c!"'" ++ s ++ c!"'" <:+: t := by
  obtain ⟨x, t, rfl, hr⟩ := (C89_message (.column (.str s) e) r).1 h
  cases hr with
  | columnType hn => exact absurd rfl (hn s)
  | columnName => exact ⟨_, rfl, c!"column ", c!" is empty or contains invalid characters", by simp⟩
  | columnEntity => exact ⟨_, rfl, c!"column ", c!" expects an Entity", by simp⟩
  | columnAlias => exact ⟨_, rfl, c!"column ", c!" expects an Entity with an alias", by simp⟩
  | @columnUnknown _ _ x => exact ⟨_, rfl, c!"'" ++ x.name ++ c!"' does not support the column ", [], by simp⟩

omit U in
private theorem aliasFault_named {n : Str} {v : Val} {t : Str} (h : AliasFault (c!"function " ++ n) v t) : n <:+: t := by
  cases h with
  | type => exact ⟨c!"alias '" ++ v.text ++ c!"' of function ", c!" must be None or a non-empty string", by simp⟩
  | @text s => exact ⟨c!"alias '" ++ s ++ c!"' of function ", c!" contains invalid characters", by simp⟩

/-- C89: what a function with a string for a name is refused with has the name in it, unless a value inside one of its parameters is at
fault (where the message is not about the function). -/
theorem C89_function_named {n : Str} {i p a : Val} {r : Raised} (h : mkCurriedMsg (.str n) i p a = .error r) :
    (∃ t, r = (.invalidFunction, some t) ∧ n <:+: t) ∨
    (∃ xs x, ItemsOf p xs ∧ x ∈ xs ∧ BadSeq x ∧ r = (.invalidExpression, some c!"tuple/array must contain only scalar values")) := by
  obtain ⟨x, t, rfl, hr⟩ := (C89_message (.curried (.str n) i p a) r).1 h
  cases hr with
  | curried hf =>
    cases hf with
    | name hn =>
      refine .inl ⟨t, rfl, ?_⟩
      cases hn with
      | type hs => exact absurd rfl (hs n)
      | empty => exact List.nil_infix
      | text => exact ⟨c!"function '", c!"' contains invalid characters", by simp⟩
    | inits he _ hi =>
      cases he
      refine .inl ⟨t, rfl, ?_⟩
      cases hi with
      | type => exact ⟨c!"initializers of function ", c!" must be a Sequence", by simp⟩
      | item => exact ⟨c!"initializers to function ", c!" must be a scalar or column", by simp⟩
    | alias_ he _ _ ha => cases he; exact .inl ⟨t, rfl, aliasFault_named ha⟩
    | params he _ _ _ hp =>
      cases he
      cases hp with
      | type => exact .inl ⟨_, rfl, c!"parameters of function ", c!" must be a Sequence", by simp⟩
      | @item before after q => exact .inl ⟨_, rfl, c!"parameter '" ++ q.text ++ c!"' of function ", c!" is an invalid type", by simp⟩
      | inside hx _ hb => exact .inr ⟨_, _, hx, by simp, hb, rfl⟩

omit [PyShow] [PyText] U in
/-- C89: a join that is refused is given no list or tuple, or an empty one; or something in it is no relationship; or an alias in it stands
for two entities. The message tells which. -/
theorem C89_join {σ : SetOrders} (hσ : PossibleOrders σ) {v : Val} {r : Raised} (h : mkJoinMsg σ v = .error r) :
    ((∀ k xs, SeqOf v k xs → xs = []) ∧ r = (.invalidExpression, some c!"Join must have at least one Relationship")) ∨
    (∃ k xs x, SeqOf v k xs ∧ x ∈ xs ∧ (∀ y, x ≠ .rel y) ∧
      r = (.invalidExpression, some c!"Join expects a list of Relationship objects")) ∨
    ∃ k rels a n m, SeqOf v k (rels.map .rel) ∧ Uses rels a n ∧ Uses rels a m ∧ Before n m ∧
      r = (.invalidExpression, some (c!"alias '" ++ a ++ c!"' is duplicated for entities " ++ n ++ c!", " ++ m)) := by
  unfold mkJoinMsg at h
  cases hv : v.listOrTuple? with
  | none =>
    rw [hv] at h
    cases h
    exact .inl ⟨fun k xs hx => absurd hx (listOrTuple?_none.1 hv k xs), rfl⟩
  | some p =>
    obtain ⟨k, xs⟩ := p
    rw [hv] at h
    have hs := listOrTuple?_iff.1 hv
    simp only [] at h
    split at h
    · rename_i he
      cases h
      refine .inl ⟨fun k' ys hy => ?_, rfl⟩
      rw [← listOrTuple?_iff, hv] at hy
      cases hy
      simpa using he
    · rename_i hne
      cases hr : allRels xs with
      | error e =>
        rw [hr] at h
        have he := allRels_error hr
        cases h
        subst he
        refine .inr (.inl ?_)
        have : ¬ ∀ x ∈ xs, ∃ y, x = .rel y := by
          intro hall
          have : ∃ rs : List RelObj, xs = rs.map .rel := by
            clear hr hs hv hne
            induction xs with
            | nil => exact ⟨[], rfl⟩
            | cons x xs ih =>
              obtain ⟨y, rfl⟩ := hall x (List.mem_cons_self ..)
              obtain ⟨rs, rfl⟩ := ih (fun x hx => hall x (List.mem_cons_of_mem _ hx))
              exact ⟨y :: rs, rfl⟩
          obtain ⟨rs, hrs⟩ := this
          rw [allRels_iff.2 hrs] at hr
          cases hr
        simp only [Classical.not_forall] at this
        obtain ⟨x, hx, hn⟩ := this
        exact ⟨k, xs, x, hs, hx, fun y hy => hn ⟨y, hy⟩, rfl⟩
      | ok rs =>
        rw [hr] at h
        rw [allRels_iff.1 hr] at hs
        simp only [bind_eq_error, reduceCtorEq, and_false, exists_false, or_false] at h
        rcases C85_join hσ h with ⟨he, _⟩ | ⟨a, n, m, h1, h2, h3, h4⟩
        · subst he
          exact absurd (by rw [allRels_iff.1 hr]; rfl) hne
        · exact .inr (.inr ⟨k, rs, a, n, m, hs, h1, h2, h3, h4⟩)

end

section
@[local instance, reducible] private def exBuildAscii : PyUnicode := asciiUnicode
@[local instance, reducible] private def exBuildShow : PyShow := ⟨fun _ => false, fun _ => c!"<object>"⟩
@[local instance, reducible] private def exBuildText : PyText := ⟨fun _ => c!"<object>", fun _ => c!"builtins.object"⟩

private def exBuildSays (c : BuildCall) : Option (Err × Option Str) :=
  match c.run with
  | .ok _ => none
  | .error r => some r

private def exBuildEnt (a : Option Str) : EntityObj := ⟨c!"events", a, none, none⟩

/-- What is said of columns, entities and storages. -/
example :
    exBuildSays (.column (.int 5) .none) = some (.invalidColumn, some c!"column '5' must be a string") ∧
    exBuildSays (.column (.str c!"..") (.int 3)) = some (.invalidColumn, some c!"column '..' is empty or contains invalid characters") ∧
    exBuildSays (.column (.str c!"ab") (.int 3)) = some (.invalidColumn, some c!"column 'ab' expects an Entity") ∧
    exBuildSays (.column (.str c!"ab") (.entity (exBuildEnt none))) =
      some (.invalidColumn, some c!"column 'ab' expects an Entity with an alias") ∧
    exBuildSays (.entity (.str c!"0a") .none (.int 1) .none) = some (.invalidEntity, some c!"'0a' is not a valid entity name") ∧
    exBuildSays (.storage (.str c!"ab") (.int 1) (.int 1)) = some (.invalidStorage, some c!"sample must be a float") := by
  refine ⟨?_, ?_, ?_, ?_, ?_, ?_⟩ <;> decide +kernel

/-- What is said of functions: the first thing that is wrong, and of two bad parameters the first. -/
example :
    exBuildSays (.function (.str c!"count") (.list [.int 1, .entity (exBuildEnt (some c!"ev")), .limit (.int 5)]) .none) =
      some (.invalidFunction, some c!"parameter 'Entity('events', alias='ev')' of function count is an invalid type") ∧
    exBuildSays (.function (.str c!"c%") (.int 3) .none) = some (.invalidFunction, some c!"function 'c%' contains invalid characters") ∧
    exBuildSays (.curried (.str c!"top") (.list [.list []]) (.int 3) .none) =
      some (.invalidFunction, some c!"initializers to function top must be a scalar or column") ∧
    exBuildSays (.function (.str c!"top") (.int 3) (.str c!"`")) =
      some (.invalidFunction, some c!"alias '`' of function top contains invalid characters") ∧
    exBuildSays (.function (.str c!"top") (.list [.list [.other 7]]) .none) =
      some (.invalidExpression, some c!"tuple/array must contain only scalar values") ∧
    exBuildSays (.lambda (.list [.str c!"x", .str c!"0", .int 2]) .none) = some (.invalidLambda, some c!"0 is not a valid identifier") := by
  refine ⟨?_, ?_, ?_, ?_, ?_, ?_⟩ <;> decide +kernel

/-- What is said of conditions and of the clauses. -/
example :
    exBuildSays (.condition (.int 1) (.op .eq) (.int 1)) = some (.invalidCondition,
      some c!"invalid condition: LHS of a condition must be a Column, CurriedFunction or Function, not <class 'int'>") ∧
    exBuildSays (.condition (.column ⟨c!"ab", none, none, none⟩) (.op .isNull) (.int 1)) =
      some (.invalidCondition, some c!"invalid condition: unary operators don't have rhs conditions") ∧
    exBuildSays (.condition (.column ⟨c!"ab", none, none, none⟩) (.op .eq) (.limit (.int 1))) = some (.invalidCondition,
      some c!"invalid condition: RHS of a condition must be a Column, CurriedFunction, Function or Scalar not <class 'snuba_sdk.expressions.Limit'>") ∧
    exBuildSays (.condition (.column ⟨c!"ab", none, none, none⟩) (.op .eq) (.op .isNull)) = some (.invalidCondition,
      some c!"invalid condition: RHS of a condition must be a Column, CurriedFunction, Function or Scalar not <enum 'Op'>") ∧
    exBuildSays (.and (.tuple [.column ⟨c!"ab", none, none, none⟩, .op .eq])) = some (.invalidCondition,
      some c!"invalid boolean: Column(name='ab', entity=None, subscriptable=None, key=None) is not a valid condition") ∧
    exBuildSays (.and (.list [.int 1])) = some (.invalidCondition, some c!"invalid boolean: must supply at least two conditions") ∧
    exBuildSays (.or (.list [.int 1, .int 2])) = some (.invalidCondition, some c!"invalid boolean: 1 is not a valid condition") ∧
    exBuildSays (.limitby (.list [.column ⟨c!"ab", none, none, none⟩, .int 4]) (.int 0)) = some (.invalidExpression,
      some c!"LimitBy columns: Invalid element '4' which must be a list composed entirely of <class 'snuba_sdk.column.Column'>") ∧
    exBuildSays (.limit (.int 10001)) = some (.invalidExpression, some c!"limit '10001' is capped at 10,000") ∧
    exBuildSays (.offset (.int (-7))) = some (.invalidExpression, some c!"offset '-7' must be at least 0") ∧
    exBuildSays (.granularity (.bool false)) = some (.invalidExpression, some c!"granularity 'False' must be at least 1") ∧
    exBuildSays (.relationship (.entity (exBuildEnt none)) (.str []) (.int 1)) =
      some (.invalidExpression, some c!"Entity('events') must have a valid alias") := by
  refine ⟨?_, ?_, ?_, ?_, ?_, ?_, ?_, ?_, ?_, ?_, ?_, ?_⟩ <;> decide +kernel

example : ∃ x t, ((Err.invalidExpression, some c!"limit '10001' is capped at 10,000") : Raised) = (x, some t) ∧
    Refusal (.limit (.int 10001)) x t :=
  (C89_message (.limit (.int 10001)) _).1 rfl

example {x : Err} {t : Str} (h : Refusal (.limit (.int 10001)) x t) : x = .invalidExpression ∧ t = c!"limit '10001' is capped at 10,000" :=
  C89_one_reason _ h (.limitHigh (.int 10001) (by decide))

example : ∀ x t, ¬ Refusal (.limit (.int 9999)) x t := (C89_accepted (.limit (.int 9999))).1 ⟨_, rfl⟩

example : dropMessage (BuildCall.run (.limit (.int 10001))) = .error .invalidExpression := C89_same_class (.limit (.int 10001))

example {r : Raised} (h : mkColumnMsg (.str c!"ab") (.int 3) = .error r) : ∃ t, r = (.invalidColumn, some t) ∧ c!"'ab'" <:+: t :=
  C89_column_quoted h

example : ∃ r, mkColumnMsg (.str c!"ab") (.int 3) = .error r := by
  refine ⟨(.invalidColumn, some c!"column 'ab' expects an Entity"), ?_⟩
  rfl

example : (∃ t, ((Err.invalidFunction, some c!"parameters of function top must be a Sequence") : Raised) = (.invalidFunction, some t) ∧
    c!"top" <:+: t) := by
  rcases C89_function_named (n := c!"top") (i := .none) (p := .int 3) (a := .none)
    (r := (.invalidFunction, some c!"parameters of function top must be a Sequence")) rfl with h | ⟨_, _, _, _, _, h⟩
  · exact h
  · cases h

private def exBuildOrders : SetOrders := ⟨id, id, id, id, id, id, id⟩

private theorem exBuildOrders_possible : PossibleOrders exBuildOrders := by
  have h : ∀ {α : Type} (eq : α → α → Bool) (xs : List α), SeesSet eq xs xs := fun _ xs => ⟨fun _ h => h, fun x hx => ⟨x, hx, .inl rfl⟩⟩
  exact ⟨h _, h _, h _, h _, h _, h _, h _⟩

private def exBuildRel (n : Str) : Val := .rel ⟨exBuildEnt (some c!"ev"), c!"has", ⟨n, some c!"gr", none, none⟩⟩

/-- What is said of joins. -/
example :
    (match mkJoinMsg exBuildOrders (.int 5) with | .error r => some r | .ok _ => none) =
      some (.invalidExpression, some c!"Join must have at least one Relationship") ∧
    (match mkJoinMsg exBuildOrders (.list [exBuildRel c!"groups", .int 5]) with | .error r => some r | .ok _ => none) =
      some (.invalidExpression, some c!"Join expects a list of Relationship objects") ∧
    (match mkJoinMsg exBuildOrders (.list [exBuildRel c!"groups", exBuildRel c!"actors"]) with | .error r => some r | .ok _ => none) =
      some (.invalidExpression, some c!"alias 'gr' is duplicated for entities actors, groups") := by
  refine ⟨?_, ?_, ?_⟩ <;> decide +kernel

example : ∃ k xs x, SeqOf (.list [exBuildRel c!"groups", .int 5]) k xs ∧ x ∈ xs ∧ ∀ y, x ≠ .rel y := by
  rcases C89_join exBuildOrders_possible (v := .list [exBuildRel c!"groups", .int 5])
    (r := (.invalidExpression, some c!"Join expects a list of Relationship objects")) rfl with ⟨_, h⟩ | ⟨k, xs, x, h1, h2, h3, _⟩ | ⟨_, _, _, _, _, _, _, _, _, h⟩
  · cases h
  · exact ⟨k, xs, x, h1, h2, h3⟩
  · simp at h

end

end Verif
