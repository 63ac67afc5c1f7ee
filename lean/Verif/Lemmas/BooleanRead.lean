import Verif.Lemmas.Boolean

namespace Verif
open Spec

/-- Another clause: something after a space that does not continue a condition. -/
def NextClause (rest : Str) : Prop :=
  (∃ r, rest = ' ' :: r) ∧ dropPrefix c!" AS `" rest = none ∧ dropPrefix c!" AND " rest = none ∧
    dropPrefix c!" OR " rest = none

/-- What may follow a condition. -/
def Stop (rest : Str) : Prop :=
  rest = [] ∨ (∃ r, rest = ')' :: r) ∨ (∃ r, rest = c!" AND " ++ r) ∨ (∃ r, rest = c!" OR " ++ r) ∨ NextClause rest

theorem span_stop {rest : Str} (h : rest = [] ∨ (∃ r, rest = ')' :: r) ∨ (∃ r, rest = ' ' :: r)) :
    spanOperand .code 0 rest = ([], rest) := by
  rcases h with rfl | ⟨r, rfl⟩ | ⟨r, rfl⟩ <;> simp [spanOperand, operandStep]

theorem Stop.weak {rest : Str} (h : Stop rest) : rest = [] ∨ (∃ r, rest = ')' :: r) ∨ (∃ r, rest = ' ' :: r) := by
  rcases h with rfl | ⟨r, rfl⟩ | ⟨r, rfl⟩ | ⟨r, rfl⟩ | h
  · simp
  · simp
  · exact .inr (.inr ⟨_, rfl⟩)
  · exact .inr (.inr ⟨_, rfl⟩)
  · exact .inr (.inr h.1)

theorem Stop.no_alias {rest : Str} (h : Stop rest) : dropPrefix c!" AS `" rest = none := by
  rcases h with rfl | ⟨r, rfl⟩ | ⟨r, rfl⟩ | ⟨r, rfl⟩ | h
  · rfl
  · simp [dropPrefix]
  · simp [dropPrefix]
  · simp [dropPrefix]
  · exact h.2.1

theorem dropPrefix_append : ∀ p s : Str, dropPrefix p (p ++ s) = some s
  | [], _ => rfl
  | c :: p, s => by simp [dropPrefix, dropPrefix_append p s]

/-- An operand with its alias is read up to what follows it. -/
theorem readOperand_spec {t rest : Str} (h : ∃ b a, t = b ++ aliasClause a ∧ Solid b ∧ ∀ s, a = some s → '`' ∉ s)
    (hr : rest = [] ∨ (∃ r, rest = ')' :: r) ∨ (∃ r, rest = ' ' :: r)) (hn : dropPrefix c!" AS `" rest = none) :
    readOperand (t ++ rest) = (t, rest) := by
  obtain ⟨b, a, rfl, hb, ha⟩ := h
  cases a with
  | none =>
    simp only [readOperand, aliasClause, List.append_nil, span_run (hb 0), span_stop hr, readAlias, hn]
  | some a =>
    have e : b ++ aliasClause (some a) ++ rest = b ++ (c!" AS `" ++ (a ++ '`' :: rest)) := by
      simp [aliasClause]
    have hs : spanOperand .code 0 (c!" AS `" ++ (a ++ '`' :: rest)) = ([], c!" AS `" ++ (a ++ '`' :: rest)) :=
      span_stop (.inr (.inr ⟨_, rfl⟩))
    have hm := ha a rfl
    have hall : ∀ x ∈ a, (x != '`') = true := fun x hx => by
      simp only [bne_iff_ne]; rintro rfl; exact hm hx
    have h1 : (a ++ '`' :: rest).takeWhile (· != '`') = a := by
      rw [List.takeWhile_append_of_pos hall]; simp
    have h2 : (a ++ '`' :: rest).dropWhile (· != '`') = '`' :: rest := by
      rw [List.dropWhile_append_of_pos hall]; simp
    rw [e, readOperand, span_run (hb 0), hs]
    simp only [readAlias, dropPrefix_append, h1, h2]
    simp [aliasClause]

theorem readOp_spec (o : Op) {rest : Str} (h : ∀ r, rest ≠ '=' :: r) : readOp (o.value ++ rest) = some (o, rest) := by
  cases o <;> simp [readOp, operators, Op.value, dropPrefix]
  all_goals
    cases rest with
    | nil => simp [dropPrefix]
    | cons c r =>
      have : '=' ≠ c := fun hc => h r (by rw [hc])
      simp [dropPrefix, this]

/-- The condition text `t` is read as the tree, in every context. -/
def ReadsAs (t : Str) (b : BTree) : Prop :=
  ∀ rest, Stop rest → ∀ f, 4 * t.length + 4 ≤ f → readPrim f (t ++ rest) = some (b, rest)

theorem readLeaf_spec {lt rt rest : Str} {o : Op} (hl : ∃ b a, lt = b ++ aliasClause a ∧ Solid b ∧ ∀ s, a = some s → '`' ∉ s)
    (hr : ∃ b a, rt = b ++ aliasClause a ∧ Solid b ∧ ∀ s, a = some s → '`' ∉ s) (hs : Stop rest)
    (ho : isUnary o = false) :
    readLeaf (lt ++ [' '] ++ o.value ++ (' ' :: rt) ++ rest) = some (.leaf lt o (some rt), rest) := by
  have e : lt ++ [' '] ++ o.value ++ (' ' :: rt) ++ rest = lt ++ (' ' :: (o.value ++ (' ' :: (rt ++ rest)))) := by simp
  have hna : dropPrefix c!" AS `" (' ' :: (o.value ++ (' ' :: (rt ++ rest)))) = none := by
    cases o <;> simp [Op.value, dropPrefix]
  have ho' : ¬ (o = .isNull ∨ o = .isNotNull) := by rw [← isUnary_iff, ho]; simp
  rw [e]
  simp only [readLeaf, readOperand_spec hl (.inr (.inr ⟨_, rfl⟩)) hna]
  simp only [dropPrefix, Option.bind_eq_bind, Option.bind_some, if_true]
  rw [readOp_spec o (by simp)]
  simp only [Option.bind_some, ho', if_false, dropPrefix, if_true, readOperand_spec hr hs.weak hs.no_alias]

theorem readLeaf_unary {lt rest : Str} {o : Op} (hl : ∃ b a, lt = b ++ aliasClause a ∧ Solid b ∧ ∀ s, a = some s → '`' ∉ s)
    (hs : Stop rest) (ho : isUnary o = true) :
    readLeaf (lt ++ [' '] ++ o.value ++ rest) = some (.leaf lt o none, rest) := by
  have e : lt ++ [' '] ++ o.value ++ rest = lt ++ (' ' :: (o.value ++ rest)) := by simp
  have hna : dropPrefix c!" AS `" (' ' :: (o.value ++ rest)) = none := by
    cases o <;> simp [Op.value, dropPrefix] <;> cases ho
  have ho' : o = .isNull ∨ o = .isNotNull := isUnary_iff.1 ho
  rw [e]
  simp only [readLeaf, readOperand_spec hl (.inr (.inr ⟨_, rfl⟩)) hna]
  simp only [dropPrefix, Option.bind_eq_bind, Option.bind_some, if_true]
  rw [readOp_spec o (by
    rcases hs.weak with rfl | ⟨r, rfl⟩ | ⟨r, rfl⟩ <;> simp)]
  simp only [Option.bind_some, ho', if_true]

/-! ### Sequences -/

/-- The texts after the first one, each with its separator. -/
def tailText (sep : Str) : List Str → Str
  | [] => []
  | t :: ts => sep ++ t ++ tailText sep ts

theorem joinWith_tail (sep t : Str) : ∀ ts : List Str, joinWith sep (t :: ts) = t ++ tailText sep ts
  | [] => by simp [joinWith, tailText]
  | t' :: ts => by
    rw [joinWith, joinWith_tail sep t' ts]
    simp [tailText]

/-- Corresponding texts and trees. -/
inductive ReadAll : List Str → List BTree → Prop
  | nil : ReadAll [] []
  | cons (t b ts bs) : ReadsAs t b → ReadAll ts bs → ReadAll (t :: ts) (b :: bs)

/-- What may follow a sequence of ANDs. -/
def StopAnd (rest : Str) : Prop :=
  rest = [] ∨ (∃ r, rest = ')' :: r) ∨ (∃ r, rest = c!" OR " ++ r) ∨ NextClause rest

/-- What may follow a sequence of ORs. -/
def StopOr (rest : Str) : Prop := rest = [] ∨ (∃ r, rest = ')' :: r) ∨ NextClause rest

theorem StopAnd.stop {rest : Str} (h : StopAnd rest) : Stop rest := by
  rcases h with h | h | h | h
  · exact .inl h
  · exact .inr (.inl h)
  · exact .inr (.inr (.inr (.inl h)))
  · exact .inr (.inr (.inr (.inr h)))

theorem StopOr.stopAnd {rest : Str} (h : StopOr rest) : StopAnd rest := by
  rcases h with h | h | h
  · exact .inl h
  · exact .inr (.inl h)
  · exact .inr (.inr (.inr h))

theorem StopAnd.no_and {rest : Str} (h : StopAnd rest) : dropPrefix c!" AND " rest = none := by
  rcases h with rfl | ⟨r, rfl⟩ | ⟨r, rfl⟩ | h
  · rfl
  · simp [dropPrefix]
  · simp [dropPrefix]
  · exact h.2.2.1

theorem StopOr.no_or {rest : Str} (h : StopOr rest) : dropPrefix c!" OR " rest = none := by
  rcases h with rfl | ⟨r, rfl⟩ | h
  · rfl
  · simp [dropPrefix]
  · exact h.2.2.2

theorem moreAnd_spec {rest : Str} (hr : StopAnd rest) {ts : List Str} {bs : List BTree} (h : ReadAll ts bs) :
    ∀ f, 4 * (tailText c!" AND " ts).length + 1 ≤ f → moreAnd f (tailText c!" AND " ts ++ rest) = some (bs, rest) := by
  induction h with
  | nil =>
    intro f hf
    obtain ⟨f, rfl⟩ : ∃ g, f = g + 1 := ⟨f - 1, by simp [tailText] at hf; omega⟩
    simp [moreAnd, tailText, hr.no_and]
  | cons t b ts bs hb hbs ih =>
    intro f hf
    simp only [tailText, List.length_append, List.length_cons, List.length_nil] at hf
    obtain ⟨f, rfl⟩ : ∃ g, f = g + 1 := ⟨f - 1, by omega⟩
    have e : tailText c!" AND " (t :: ts) ++ rest = c!" AND " ++ (t ++ (tailText c!" AND " ts ++ rest)) := by
      simp [tailText]
    have hstop : Stop (tailText c!" AND " ts ++ rest) := by
      cases ts with
      | nil => simpa [tailText] using hr.stop
      | cons t' ts => exact .inr (.inr (.inl ⟨t' ++ (tailText c!" AND " ts ++ rest), by simp [tailText]⟩))
    rw [e, moreAnd, dropPrefix_append]
    simp only [hb _ hstop f (by omega), Option.bind_eq_bind, Option.bind_some, ih f (by omega)]

theorem readAnd_spec {rest : Str} (hr : StopAnd rest) {t : Str} {b : BTree} {ts : List Str} {bs : List BTree}
    (hb : ReadsAs t b) (h : ReadAll ts bs) (f : Nat) (hf : 4 * (t ++ tailText c!" AND " ts).length + 5 ≤ f) :
    readAnd f (t ++ tailText c!" AND " ts ++ rest) = some (group .and (b :: bs), rest) := by
  simp only [List.length_append] at hf
  obtain ⟨f, rfl⟩ : ∃ g, f = g + 1 := ⟨f - 1, by omega⟩
  have hstop : Stop (tailText c!" AND " ts ++ rest) := by
    cases ts with
    | nil => simpa [tailText] using hr.stop
    | cons t' ts => exact .inr (.inr (.inl ⟨t' ++ (tailText c!" AND " ts ++ rest), by simp [tailText]⟩))
  rw [readAnd, List.append_assoc, hb _ hstop f (by omega)]
  simp only [Option.bind_eq_bind, Option.bind_some, moreAnd_spec hr h f (by omega)]

theorem readAnd_one {rest : Str} (hr : StopAnd rest) {t : Str} {b : BTree} (hb : ReadsAs t b) (f : Nat)
    (hf : 4 * t.length + 5 ≤ f) : readAnd f (t ++ rest) = some (b, rest) := by
  have := readAnd_spec hr hb .nil f (by simpa [tailText] using hf)
  simpa [tailText, group] using this

theorem moreOr_spec {rest : Str} (hr : StopOr rest) {ts : List Str} {bs : List BTree} (h : ReadAll ts bs) :
    ∀ f, 4 * (tailText c!" OR " ts).length + 1 ≤ f → moreOr f (tailText c!" OR " ts ++ rest) = some (bs, rest) := by
  induction h with
  | nil =>
    intro f hf
    obtain ⟨f, rfl⟩ : ∃ g, f = g + 1 := ⟨f - 1, by simp [tailText] at hf; omega⟩
    simp [moreOr, tailText, hr.no_or]
  | cons t b ts bs hb hbs ih =>
    intro f hf
    simp only [tailText, List.length_append, List.length_cons, List.length_nil] at hf
    obtain ⟨f, rfl⟩ : ∃ g, f = g + 1 := ⟨f - 1, by omega⟩
    have e : tailText c!" OR " (t :: ts) ++ rest = c!" OR " ++ (t ++ (tailText c!" OR " ts ++ rest)) := by
      simp [tailText]
    have hstop : StopAnd (tailText c!" OR " ts ++ rest) := by
      cases ts with
      | nil => simpa [tailText] using hr.stopAnd
      | cons t' ts => exact .inr (.inr (.inl ⟨t' ++ (tailText c!" OR " ts ++ rest), by simp [tailText]⟩))
    rw [e, moreOr, dropPrefix_append]
    simp only [readAnd_one hstop hb f (by omega), Option.bind_eq_bind, Option.bind_some, ih f (by omega)]

/-- The reading of a sequence joined with one operator, up to a closing parenthesis or the end. -/
theorem readOr_spec (o : BooleanOp) {rest : Str} (hr : StopOr rest) {ts : List Str} {bs : List BTree}
    (h : ReadAll ts bs) (hne : ts ≠ []) (f : Nat)
    (hf : 4 * (joinWith ([' '] ++ o.value ++ [' ']) ts).length + 6 ≤ f) :
    readOr f (joinWith ([' '] ++ o.value ++ [' ']) ts ++ rest) = some (group o bs, rest) := by
  cases h with
  | nil => exact absurd rfl hne
  | cons t b ts bs hb hbs =>
    rw [joinWith_tail] at hf ⊢
    simp only [List.length_append] at hf
    obtain ⟨f, rfl⟩ : ∃ g, f = g + 1 := ⟨f - 1, by omega⟩
    have hmo : ∀ f, 1 ≤ f → moreOr f rest = some ([], rest) := fun f hf => by
      simpa [tailText] using moreOr_spec hr .nil f (by simpa [tailText] using hf)
    cases o with
    | and =>
      have := readAnd_spec hr.stopAnd hb hbs f (by simp only [List.length_append]; simp only [BooleanOp.value] at hf; exact Nat.le_of_succ_le_succ hf)
      simp only [BooleanOp.value, List.cons_append, List.nil_append] at this hf ⊢
      rw [readOr, this]
      simp only [Option.bind_eq_bind, Option.bind_some, hmo f (by omega), group]
    | or =>
      have hstop : StopAnd (tailText c!" OR " ts ++ rest) := by
        cases ts with
        | nil => simpa [tailText] using hr.stopAnd
        | cons t' ts => exact .inr (.inr (.inl ⟨t' ++ (tailText c!" OR " ts ++ rest), by simp [tailText]⟩))
      simp only [BooleanOp.value, List.cons_append, List.nil_append] at hf ⊢
      rw [readOr, List.append_assoc, readAnd_one hstop hb f (by omega)]
      simp only [Option.bind_eq_bind, Option.bind_some, moreOr_spec hr hbs f (by omega)]

theorem reads_group (o : BooleanOp) {ts : List Str} {bs : List BTree} (h : ReadAll ts bs) (hne : ts ≠ []) :
    ReadsAs (['('] ++ joinWith ([' '] ++ o.value ++ [' ']) ts ++ [')']) (group o bs) := by
  intro rest hs f hf
  simp only [List.length_append, List.length_cons, List.length_nil] at hf
  obtain ⟨f, rfl⟩ : ∃ g, f = g + 1 := ⟨f - 1, by omega⟩
  have e : ['('] ++ joinWith ([' '] ++ o.value ++ [' ']) ts ++ [')'] ++ rest =
      '(' :: (joinWith ([' '] ++ o.value ++ [' ']) ts ++ (')' :: rest)) := by simp
  rw [e, readPrim]
  simp only [dropPrefix, if_true]
  rw [readOr_spec o (.inr (.inl ⟨rest, rfl⟩)) h hne f (by omega)]
  simp [dropPrefix]

end Verif
