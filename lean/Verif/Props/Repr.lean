import Verif.Lemmas.Repr
import Verif.Lemmas.Names
import Verif.Lemmas.Date

/-!
# C78: what the texts of delete queries, entities and storages show
-/

namespace Verif
open Spec

/-! ### Cutting a text -/

theorem cut_first {q : Char} {a b s t : Str} (ha : q ∉ a) (hb : q ∉ b) (h : a ++ q :: s = b ++ q :: t) : a = b ∧ s = t := by
  induction a generalizing b with
  | nil =>
    cases b with
    | nil => simpa using h
    | cons c b =>
      simp only [List.nil_append, List.cons_append, List.cons.injEq] at h
      exact absurd (h.1 ▸ List.mem_cons_self ..) hb
  | cons c a ih =>
    cases b with
    | nil =>
      simp only [List.nil_append, List.cons_append, List.cons.injEq] at h
      exact absurd (h.1 ▸ List.mem_cons_self ..) ha
    | cons d b =>
      simp only [List.cons_append, List.cons.injEq] at h
      obtain ⟨rfl, h⟩ := h
      obtain ⟨h1, h2⟩ := ih (fun m => ha (List.mem_cons_of_mem _ m)) (fun m => hb (List.mem_cons_of_mem _ m)) h
      exact ⟨by rw [h1], h2⟩

theorem cut_last {q : Char} {a b s t : Str} (hs : q ∉ s) (ht : q ∉ t) (h : a ++ q :: s = b ++ q :: t) : a = b ∧ s = t := by
  have h' := congrArg List.reverse h
  simp only [List.reverse_append, List.reverse_cons, List.append_assoc, List.cons_append, List.nil_append] at h'
  obtain ⟨h1, h2⟩ := cut_first (by simpa using hs) (by simpa using ht) h'
  exact ⟨List.reverse_injective h2, List.reverse_injective h1⟩

theorem repr_injective {f g : PyFloat} (h : f.repr = g.repr) : f = g := by
  have h1 := readToken_repr f
  rw [h, readToken_repr g] at h1
  cases h1
  rfl

theorem repr_no_eq (f : PyFloat) : '=' ∉ f.repr := fun h => absurd (repr_chars f _ h) (by decide)

/-- What follows the alias: the sample, or nothing. -/
theorem sampleRepr_injective {s t : Option PyFloat} (h : sampleRepr s = sampleRepr t) : s = t := by
  cases s <;> cases t
  · rfl
  · simp [sampleRepr] at h
  · simp [sampleRepr] at h
  · simp only [sampleRepr, List.append_cancel_left_eq] at h
    rw [repr_injective h]

/-- A quote and then the sample: the quote is found again. -/
theorem quoted_sample {a b : Str} {s t : Option PyFloat} (h : a ++ '\'' :: sampleRepr s = b ++ '\'' :: sampleRepr t) :
    a = b ∧ s = t := by
  have last : ∀ (a b : Str) (f : PyFloat), a ++ '\'' :: sampleRepr none ≠ b ++ '\'' :: sampleRepr (some f) := by
    intro a b f h
    have h1 := congrArg List.getLast? h
    have e : b ++ '\'' :: sampleRepr (some f) = (b ++ '\'' :: c!", sample=") ++ f.repr := by simp [sampleRepr]
    rw [e, List.getLast?_append] at h1
    simp only [sampleRepr, List.getLast?_append, List.getLast?_singleton, Option.some_or] at h1
    cases hl : f.repr.getLast? with
    | none => exact repr_ne_nil f (List.getLast?_eq_none_iff.1 hl)
    | some c =>
      rw [hl, Option.some_or] at h1
      cases h1
      exact absurd (repr_chars f _ (List.mem_of_getLast? hl)) (by decide)
  cases s with
  | none => cases t with
    | none => exact ⟨by simpa [sampleRepr] using h, rfl⟩
    | some f => exact absurd h (last a b f)
  | some f => cases t with
    | none => exact absurd h.symm (last b a f)
    | some g =>
      have e : ∀ (a : Str) (f : PyFloat), a ++ '\'' :: sampleRepr (some f) = (a ++ c!"', sample") ++ '=' :: f.repr := by
        intro a f; simp [sampleRepr]
      rw [e, e] at h
      obtain ⟨h1, h2⟩ := cut_last (repr_no_eq f) (repr_no_eq g) h
      exact ⟨List.append_cancel_right h1, by rw [repr_injective h2]⟩

theorem entityName_no_quote {n : Str} (h : entityNameRe.matches n = true) : '\'' ∉ n := by
  have key : ∀ b, EntityName b → '\'' ∉ b := by
    intro b hb hm
    rcases hb.2 _ hm with h | h <;> revert h <;> decide
  rcases entityNameRe_iff.1 h with h | ⟨b, hb, rfl⟩
  · exact key n h
  · simp [key b hb]

theorem mkEntity_name {n a s d : Val} {e : EntityObj} (h : mkEntity n a s d = .ok (.entity e)) : entityNameRe.matches e.name = true := by
  simp only [mkEntity, bind_eq_ok, ensure_eq_ok] at h
  obtain ⟨nm, _, _, h1, smp, _, al, _, dm, _, hx⟩ := h
  cases hx
  exact h1

theorem mkStorage_name {n s d : Val} {e : StorageObj} (h : mkStorage n s d = .ok (.storage e)) : entityNameRe.matches e.name = true := by
  simp only [mkStorage, bind_eq_ok, ensure_eq_ok] at h
  obtain ⟨nm, _, _, h1, smp, _, dm, _, hx⟩ := h
  cases hx
  exact h1

/-! ### Keyword arguments -/

theorem readPy_float (f : PyFloat) (r : Str) (hr : ∀ c ∈ r.head?, pyWordChar c = false) : readPy (f.repr ++ r) = some (.float f, r) := by
  have := @readPy_lit ⟨fun _ => true, fun _ => []⟩ (.float f) r hr
  simpa only [litText] using this

theorem readPyKeyword_sample (s : Option PyFloat) :
    readPyKeyword c!"sample" (sampleRepr s ++ c!")") = some (s.map .float, c!")") := by
  cases s with
  | none => rfl
  | some f =>
    have h := readText_append c!", sample=" (f.repr ++ c!")")
    have e : sampleRepr (some f) ++ c!")" = c!", sample=" ++ (f.repr ++ c!")") := by simp [sampleRepr]
    rw [e, readPyKeyword, show c!", " ++ c!"sample" ++ c!"=" = c!", sample=" from rfl, h]
    simp only
    rw [readPy_float f _ (by decide)]
    rfl

theorem readPyKeyword_no_alias (s : Option PyFloat) :
    readPyKeyword c!"alias" (sampleRepr s ++ c!")") = some (none, sampleRepr s ++ c!")") := by
  cases s with
  | none => rfl
  | some f => rfl

theorem readPyKeyword_alias (a r : Str) (h : PlainText a) :
    readPyKeyword c!"alias" (c!", alias='" ++ a ++ c!"'" ++ r) = some (some (.str a), r) := by
  have e : c!", alias='" ++ a ++ c!"'" ++ r = c!", alias=" ++ ('\'' :: (a ++ '\'' :: r)) := by simp
  rw [e, readPyKeyword, show c!", " ++ c!"alias" ++ c!"=" = c!", alias=" from rfl, readText_append]
  simp only
  rw [readPy_plain a r h]
  rfl

section
variable [W : PyShow]

/-- **C78** (delete queries): the printed text of a delete query is a call with keyword arguments, in which a reader of Python
literals finds the storage name and the conditions: all column names, all values, in their order and with their types.
This holds for every choice of the characters that are printed as they are. -/
theorem C78_delete (d : DeleteObj) (n c : PyLit) (hn : LitFor d.storageName n) (hc : LitFor d.columnConditions c) :
    readDeleteCall d.print = some (n, c) := by
  have e : d.print = c!"DeleteQuery(storage_name=" ++ (litText n ++ (c!", columnsConditions=" ++ (litText c ++ c!")"))) := by
    rw [DeleteObj.print, LitFor.text hn, LitFor.text hc]
    simp only [List.append_assoc]
  rw [e, readDeleteCall, readText_append]
  simp only [Option.bind_eq_bind, Option.bind_some]
  rw [readPy_lit n _ (by simp; decide)]
  simp only [Option.bind_some]
  rw [readText_append]
  simp only [Option.bind_some]
  rw [readPy_lit c _ (by decide)]
  rfl

/-- **C78** (delete queries): two delete queries print alike only if they have the same storage name and the same conditions. -/
theorem C78_delete_distinct (d d' : DeleteObj) (n c n' c' : PyLit) (hn : LitFor d.storageName n) (hc : LitFor d.columnConditions c)
    (hn' : LitFor d'.storageName n') (hc' : LitFor d'.columnConditions c') (h : d.print = d'.print) : n = n' ∧ c = c' := by
  have h1 := C78_delete d n c hn hc
  rw [h, C78_delete d' n' c' hn' hc'] at h1
  cases h1
  exact ⟨rfl, rfl⟩

end

/-- **C78** (entities, reading): if neither the name nor the alias has a quote, a backslash or an end of a line, the text of an entity is
the call that makes it, apart from the data model. -/
theorem C78_entity (e : EntityObj) (hn : PlainText e.name) (ha : ∀ a, e.alias = some a → PlainText a) :
    readEntityCall e.repr = some (.str e.name, e.alias.map .str, e.sample.map .float) := by
  obtain ⟨n, al, s, dm⟩ := e
  simp only at hn ha ⊢
  have start : ∀ r, readText c!"Entity(" (c!"Entity('" ++ n ++ c!"'" ++ r) = some ('\'' :: (n ++ '\'' :: r)) := by
    intro r
    have e : c!"Entity('" ++ n ++ c!"'" ++ r = c!"Entity(" ++ ('\'' :: (n ++ '\'' :: r)) := by simp
    rw [e, readText_append]
  cases al with
  | none =>
    have e : EntityObj.repr ⟨n, none, s, dm⟩ = c!"Entity('" ++ n ++ c!"'" ++ (sampleRepr s ++ c!")") := by
      simp [EntityObj.repr]
    rw [e, readEntityCall, start]
    simp only [Option.bind_eq_bind, Option.bind_some]
    rw [readPy_plain n _ hn]
    simp only [Option.bind_some]
    rw [readPyKeyword_no_alias]
    simp only [Option.bind_some]
    rw [readPyKeyword_sample]
    rfl
  | some a =>
    have e : EntityObj.repr ⟨n, some a, s, dm⟩ =
        c!"Entity('" ++ n ++ c!"'" ++ (c!", alias='" ++ a ++ c!"'" ++ (sampleRepr s ++ c!")")) := by
      simp [EntityObj.repr]
    rw [e, readEntityCall, start]
    simp only [Option.bind_eq_bind, Option.bind_some]
    rw [readPy_plain n _ hn]
    simp only [Option.bind_some]
    rw [readPyKeyword_alias a _ (ha a rfl)]
    simp only [Option.bind_some]
    rw [readPyKeyword_sample]
    rfl

/-- **C78** (entities): whatever the aliases are, two entities have the same text exactly if they have the same name, alias and
sample. -/
theorem C78_entity_distinct (n a s d n' a' s' d' : Val) (e e' : EntityObj) (h : mkEntity n a s d = .ok (.entity e))
    (h' : mkEntity n' a' s' d' = .ok (.entity e')) :
    e.repr = e'.repr ↔ e.name = e'.name ∧ e.alias = e'.alias ∧ e.sample = e'.sample := by
  have q := entityName_no_quote (mkEntity_name h)
  have q' := entityName_no_quote (mkEntity_name h')
  clear h h'
  obtain ⟨n, al, s, dm⟩ := e
  obtain ⟨n', al', s', dm'⟩ := e'
  simp only at q q' ⊢
  constructor
  · intro h
    simp only [EntityObj.repr, List.append_assoc, List.append_cancel_left_eq] at h
    obtain ⟨rfl, h1⟩ := cut_first q q' h
    clear h
    refine ⟨rfl, ?_⟩
    simp only [List.append_eq, List.nil_append] at h1
    rw [← List.append_assoc, ← List.append_assoc] at h1
    have h := List.append_cancel_right h1
    cases al with
    | none => cases al' with
      | none => exact ⟨rfl, sampleRepr_injective (by simpa using h)⟩
      | some a => cases s <;> simp [sampleRepr] at h
    | some a => cases al' with
      | none => cases s' <;> simp [sampleRepr] at h
      | some a' =>
        have h : a ++ '\'' :: sampleRepr s = a' ++ '\'' :: sampleRepr s' := by simpa using h
        obtain ⟨rfl, rfl⟩ := quoted_sample h
        exact ⟨rfl, rfl⟩
  · rintro ⟨rfl, rfl, rfl⟩
    rfl

/-- **C78** (storages, reading): if the name does not end in a newline, the text of a storage shows its name and sample. -/
theorem C78_storage (s : StorageObj) (hn : PlainText s.name) :
    readStorageCall s.repr = some (.str s.name, s.sample.map .float) := by
  obtain ⟨n, s, dm⟩ := s
  simp only at hn ⊢
  have e : StorageObj.repr ⟨n, s, dm⟩ = c!"STORAGE(" ++ ('\'' :: (n ++ '\'' :: (sampleRepr s ++ c!")"))) := by
    simp [StorageObj.repr]
  rw [e, readStorageCall, readText_append]
  simp only [Option.bind_eq_bind, Option.bind_some]
  rw [readPy_plain n _ hn]
  simp only [Option.bind_some]
  rw [readPyKeyword_sample]
  rfl

/-- **C78** (storages): two storages have the same text exactly if they have the same name and sample. -/
theorem C78_storage_distinct (n s d n' s' d' : Val) (e e' : StorageObj) (h : mkStorage n s d = .ok (.storage e))
    (h' : mkStorage n' s' d' = .ok (.storage e')) : e.repr = e'.repr ↔ e.name = e'.name ∧ e.sample = e'.sample := by
  have q := entityName_no_quote (mkStorage_name h)
  have q' := entityName_no_quote (mkStorage_name h')
  clear h h'
  obtain ⟨n, s, dm⟩ := e
  obtain ⟨n', s', dm'⟩ := e'
  simp only at q q' ⊢
  constructor
  · intro h
    simp only [StorageObj.repr, List.append_assoc, List.append_cancel_left_eq] at h
    obtain ⟨rfl, h1⟩ := cut_first q q' h
    simp only [List.append_eq, List.nil_append] at h1
    exact ⟨rfl, sampleRepr_injective (List.append_cancel_right h1)⟩
  · rintro ⟨rfl, rfl⟩
    rfl

section Examples

/-- Everything above `0x7e` is escaped. -/
@[local instance, reducible] private def exShow : PyShow := ⟨fun _ => false, fun _ => c!"<object>"⟩

private def exReprHalf : PyFloat := .fin ⟨false, 1, -1, rfl⟩

/-- `{"it's": ["a\n", 'x"y', 1, -inf], "é": [(True,), (None, "")]}`. -/
private def exConditions : Data :=
  .dict [(c!"it's", .list [.val (.str c!"a\n"), .val (.str c!"x\"y"), .val (.int 1), .val (.float (.inf true))]),
    (['é'], .list [.val (.tuple [.bool true]), .val (.tuple [.none, .str []])])]

private def exDelete : DeleteObj := ⟨.val (.str c!"search_issues"), exConditions⟩

private def exLit : PyLit :=
  .dict [(c!"it's", .list [.str c!"a\n", .str c!"x\"y", .int 1, .float (.inf true)]),
    (['é'], .list [.tuple [.bool true], .tuple [.none, .str []]])]

example : exDelete.print = c!"DeleteQuery(storage_name='search_issues', columnsConditions={\"it's\": ['a\\n', 'x\"y', 1, -inf], \
'\\xe9': [(True,), (None, '')]})" := by decide +kernel

private theorem exLitFor : LitFor exDelete.columnConditions exLit := by
  refine .dict _ _ rfl ?_
  simp only [List.zip_cons_cons, List.zip_nil_right, List.mem_cons, List.not_mem_nil, or_false]
  rintro p (rfl | rfl)
  · refine .list _ _ rfl ?_
    simp only [List.zip_cons_cons, List.zip_nil_right, List.mem_cons, List.not_mem_nil, or_false]
    rintro p (rfl | rfl | rfl | rfl)
    · exact .val _ _ (.str _)
    · exact .val _ _ (.str _)
    · exact .val _ _ (.int _)
    · exact .val _ _ (.float _)
  · refine .list _ _ rfl ?_
    simp only [List.zip_cons_cons, List.zip_nil_right, List.mem_cons, List.not_mem_nil, or_false]
    rintro p (rfl | rfl)
    · refine .val _ _ (.tuple _ _ rfl ?_)
      simp only [List.zip_cons_cons, List.zip_nil_right, List.mem_cons, List.not_mem_nil, or_false]
      rintro p rfl
      exact .bool _
    · refine .val _ _ (.tuple _ _ rfl ?_)
      simp only [List.zip_cons_cons, List.zip_nil_right, List.mem_cons, List.not_mem_nil, or_false]
      rintro p (rfl | rfl)
      · exact .none
      · exact .str _

example : readDeleteCall exDelete.print = some (.str c!"search_issues", exLit) := C78_delete _ _ _ (.val _ _ (.str _)) exLitFor

/-- Another storage. -/
private def exDelete' : DeleteObj := ⟨.val (.str c!"search_issue"), exConditions⟩

example : exDelete.print ≠ exDelete'.print := fun h => by
  have := (C78_delete_distinct exDelete exDelete' _ _ _ _ (.val _ _ (.str _)) exLitFor (.val _ _ (.str _)) exLitFor h).1
  injection this with this
  revert this; decide

/-- `Entity("events", "ev", 0.5)`. -/
private def exEntity : EntityObj := ⟨c!"events", some c!"ev", some exReprHalf, none⟩

example : exEntity.repr = c!"Entity('events', alias='ev', sample=0.5)" := by decide +kernel

example : readEntityCall exEntity.repr = some (.str c!"events", some (.str c!"ev"), some (.float exReprHalf)) :=
  C78_entity exEntity (by unfold PlainText; decide) (by rintro a h; cases h; unfold PlainText; decide)

private theorem exEntity_made : mkEntity (.str c!"events") (.str c!"ev") (.float exReprHalf) .none = .ok (.entity exEntity) := rfl

/-- An alias that looks like the end of an entity with a sample. -/
private def exTricky : EntityObj := ⟨c!"events", some c!"ev', sample=0.5", none, none⟩

private theorem exTricky_made : mkEntity (.str c!"events") (.str c!"ev', sample=0.5") .none .none = .ok (.entity exTricky) := rfl

example : exEntity.repr ≠ exTricky.repr := fun h =>
  absurd ((C78_entity_distinct _ _ _ _ _ _ _ _ _ _ exEntity_made exTricky_made).1 h).2.2 (by decide)

/-- The text of that entity is no call: the alias is not escaped. -/
example : readEntityCall exTricky.repr = none := by decide +kernel

example : readStorageCall (StorageObj.repr ⟨c!"errors", some exReprHalf, none⟩) = some (.str c!"errors", some (.float exReprHalf)) :=
  C78_storage ⟨c!"errors", some exReprHalf, none⟩ (by unfold PlainText; decide)

example : StorageObj.repr ⟨c!"errors", some exReprHalf, none⟩ ≠ StorageObj.repr ⟨c!"errors", none, none⟩ := fun h =>
  absurd ((C78_storage_distinct (.str c!"errors") (.float exReprHalf) .none (.str c!"errors") .none .none _ _ rfl rfl).1 h).2 (by decide)

end Examples

end Verif
