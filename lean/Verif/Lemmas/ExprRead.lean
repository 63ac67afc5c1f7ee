import Verif.Spec.ExprRead
import Verif.Lemmas.BooleanRead
import Verif.Props.Scalars

/-!
# Lemmas about reading expressions
-/

namespace Verif
open Spec

/-! ### Words -/

/-- A character that does not end a word and is not a bracket. -/
def wordChar (c : Char) : Bool := c != ' ' && c != ',' && c != '(' && c != ')' && c != '['

theorem spanWord_plain : ∀ {t : Str} (r : Str), (∀ c ∈ t, wordChar c = true) →
    spanWord false (t ++ r) = (t ++ (spanWord false r).1, (spanWord false r).2)
  | [], _, _ => rfl
  | c :: t, r, h => by
    have hc := h c (by simp)
    simp only [wordChar, Bool.and_eq_true, bne_iff_ne] at hc
    have h1 : c ∉ c!" ,()" := by simp [hc]
    have h2 : (c == '[') = false := by simp [hc]
    simp only [List.cons_append, spanWord, h1, if_false, h2]
    rw [spanWord_plain r fun c hc => h c (by simp [hc])]

theorem spanWord_key : ∀ {k : Str} (r : Str), ']' ∉ k →
    spanWord true (k ++ ']' :: r) = (k ++ ']' :: (spanWord false r).1, (spanWord false r).2)
  | [], _, _ => rfl
  | c :: k, r, h => by
    simp only [List.mem_cons, not_or] at h
    have : (c != ']') = true := by simp [Ne.symm h.1]
    simp only [List.cons_append, spanWord, this]
    rw [spanWord_key r h.2]

/-- What may follow a word. -/
def WordEnd (rest : Str) : Prop := rest = [] ∨ ∃ c r, rest = c :: r ∧ c ∈ c!" ,()"

theorem spanWord_end {rest : Str} (h : WordEnd rest) : spanWord false rest = ([], rest) := by
  rcases h with rfl | ⟨c, r, rfl, hc⟩
  · rfl
  · simp [spanWord, hc]

/-- A text that is read as one word. -/
structure ExprWord (w : Str) : Prop where
  head : ∃ c u, w = c :: u ∧ c ∉ c!"'`()"
  span : ∀ rest, WordEnd rest → spanWord false (w ++ rest) = (w, rest)

theorem wordText_plain {w : Str} (h0 : w ≠ []) (h : ∀ c ∈ w, wordChar c = true) (hh : ∀ c u, w = c :: u → c ∉ c!"'`") :
    ExprWord w := by
  constructor
  · cases w with
    | nil => exact absurd rfl h0
    | cons c u =>
      have hc := h c (by simp)
      simp only [wordChar, Bool.and_eq_true, bne_iff_ne] at hc
      have := hh c u rfl
      exact ⟨c, u, rfl, by simp at this ⊢; simp [this, hc]⟩
  · intro rest hr
    rw [spanWord_plain rest h, spanWord_end hr]
    simp

theorem smooth_wordChar {s : Str} (h : Smooth s) (hc : ',' ∉ s) : ∀ c ∈ s, wordChar c = true ∧ c ∉ c!"'`" := by
  intro c hm
  have := h c hm
  have h2 : c ≠ ',' := by rintro rfl; exact hc hm
  simp only [List.mem_cons, List.not_mem_nil, or_false, not_or] at this
  simp [wordChar, this, h2]

theorem dull_wordChar {c : Char} (h : dull c = true) (hc : c ≠ ',') : wordChar c = true := by
  simp only [dull, Bool.and_eq_true, bne_iff_ne] at h
  simp [wordChar, h, hc]

theorem dull_head {c : Char} (h : dull c = true) : c ∉ c!"'`" := by
  simp only [dull, Bool.and_eq_true, bne_iff_ne] at h
  simp [h]

/-- Texts without meaning to the reader are words. -/
theorem wordText_dull {w : Str} (h0 : w ≠ []) (h : ∀ c ∈ w, dull c = true) (hc : ',' ∉ w) : ExprWord w :=
  wordText_plain h0 (fun c hm => dull_wordChar (h c hm) (by rintro rfl; exact hc hm))
    (fun c u e => dull_head (h c (by simp [e])))

theorem float_exprWord (f : PyFloat) : ExprWord f.repr := by
  have ht := float_token f
  refine wordText_dull ?_ (fun c hc => floatChar_dull (repr_chars f c hc)) fun hm => (ht.inner _ hm).1 rfl
  obtain ⟨c, r, h, _⟩ := ht.first
  rw [h]; simp

theorem int_exprWord (i : Int) : ExprWord (intStr i) := by
  have ht := int_token i
  refine wordText_dull ?_ (fun c hc => ?_) fun hm => (ht.inner _ hm).1 rfl
  · obtain ⟨c, r, h, _⟩ := ht.first
    rw [h]; simp
  · rcases intStr_chars hc with h | rfl
    · exact alnum_dull (.inr (.inl h))
    · decide

section
variable [U : PyUnicode]

theorem colIdent_wordChar {s : Str} (h : ColIdent s) : ∀ c ∈ s, wordChar c = true ∧ c ∉ c!"'`" := by
  obtain ⟨x, u, rfl, hx, hu⟩ := h
  intro c hc
  have hd : dull c = true ∧ c ≠ ',' := by
    simp only [List.mem_cons] at hc
    rcases hc with rfl | hc
    · refine ⟨alnum_dull (by rcases hx with h | h <;> simp [h]), ?_⟩
      rintro rfl; exact absurd hx (by decide)
    · refine ⟨word_dull (hu c hc), ?_⟩
      rintro rfl
      have := hu _ hc
      rw [U.ascii _ (by decide)] at this
      exact absurd this (by decide)
  exact ⟨dull_wordChar hd.1 hd.2, dull_head hd.1⟩

/-- A column name after a prefix of word characters. -/
theorem colName_exprWord {p s : Str} (hp : ∀ c ∈ p, wordChar c = true ∧ c ∉ c!"'`") (h : OptNewline ColName s) :
    ExprWord (p ++ s) := by
  have plain : ∀ b : Str, b ≠ [] → (∀ c ∈ b, wordChar c = true ∧ c ∉ c!"'`") → ExprWord (p ++ b) := by
    intro b h0 hb
    refine wordText_plain (by simp [h0]) ?_ ?_
    · intro c hc
      rcases List.mem_append.1 hc with hc | hc
      · exact (hp c hc).1
      · exact (hb c hc).1
    · intro c u e
      have hc : c ∈ p ++ b := by rw [e]; simp
      rcases List.mem_append.1 hc with hc | hc
      · exact (hp c hc).2
      · exact (hb c hc).2
  have nl : wordChar '\n' = true ∧ '\n' ∉ c!"'`" := by decide
  have key : ∀ i k e : Str, ColIdent i → ColKey k → (∀ c ∈ e, wordChar c = true) → ExprWord (p ++ (i ++ '[' :: k ++ [']'] ++ e)) := by
    intro i k e hi hk he
    have hci := colIdent_wordChar hi
    constructor
    · obtain ⟨x, u, rfl, hx, _⟩ := hi
      cases p with
      | nil => exact ⟨x, _, rfl, by
          have := (hci x (by simp)).1
          have h2 := (hci x (by simp)).2
          simp only [wordChar, Bool.and_eq_true, bne_iff_ne] at this
          simp at h2 ⊢; simp [this, h2]⟩
      | cons y p =>
        exact ⟨y, _, rfl, by
          have := (hp y (by simp)).1
          have h2 := (hp y (by simp)).2
          simp only [wordChar, Bool.and_eq_true, bne_iff_ne] at this
          simp at h2 ⊢; simp [this, h2]⟩
    · intro rest hr
      have e1 : p ++ (i ++ '[' :: k ++ [']'] ++ e) ++ rest = (p ++ i) ++ ('[' :: (k ++ ']' :: (e ++ rest))) := by simp
      rw [e1, spanWord_plain _ (by
        intro c hc
        rcases List.mem_append.1 hc with hc | hc
        · exact (hp c hc).1
        · exact (hci c hc).1)]
      have e2 : spanWord false ('[' :: (k ++ ']' :: (e ++ rest))) =
          ('[' :: (spanWord true (k ++ ']' :: (e ++ rest))).1, (spanWord true (k ++ ']' :: (e ++ rest))).2) := by
        simp [spanWord]
      rw [e2, spanWord_key _ hk.2, spanWord_plain _ he, spanWord_end hr]
      simp
  rcases h with (h | ⟨i, k, hi, hk, rfl⟩) | ⟨b, h | ⟨i, k, hi, hk, rfl⟩, rfl⟩
  · refine plain s ?_ (colIdent_wordChar h)
    obtain ⟨x, u, rfl, _⟩ := h; simp
  · have := key i k [] hi hk (by simp)
    simpa using this
  · refine plain _ (by simp) fun c hc => ?_
    rcases List.mem_append.1 hc with hc | hc
    · exact colIdent_wordChar h c hc
    · simp only [List.mem_singleton] at hc; subst hc; exact nl
  · exact key i k ['\n'] hi hk (by simpa using nl.1)

theorem column_exprWord {al : Bool} {c : ColumnObj} (h : ColOk c) (hs : SmoothColumn c)
    (hc : ∀ e a, c.entity = some e → e.alias = some a → ',' ∉ a) :
    ExprWord (colStr ⟨al, false⟩ c) ∧ colStr ⟨al, false⟩ c = columnWord al c := by
  have hn := columnNameRe_iff.1 h.name
  unfold colStr columnWord
  cases he : c.entity with
  | none =>
    simp only [Option.bind_none]
    refine ⟨by simpa using colName_exprWord (p := []) (by simp) hn, ?_⟩
    cases al <;> trivial
  | some e =>
    obtain ⟨a, ha, _⟩ := h.alias e he
    simp only [ha, optStr, Option.bind_some]
    cases al with
    | false => exact ⟨by simpa using colName_exprWord (p := []) (by simp) hn, rfl⟩
    | true =>
      refine ⟨?_, rfl⟩
      simp only [if_true]
      refine colName_exprWord ?_ hn
      intro x hx
      rcases List.mem_append.1 hx with hx | hx
      · exact smooth_wordChar (hs e he a ha) (hc e a he ha) x hx
      · simp only [List.mem_singleton] at hx; subst hx; decide

end

/-! ### Trees -/

/-- What may follow an expression before the alias is looked for. -/
def CallEnd (rest : Str) : Prop := rest = [] ∨ ∃ c r, rest = c :: r ∧ c ∈ c!" ,)"

/-- What may follow an expression. -/
def TreeEnd (rest : Str) : Prop := CallEnd rest ∧ dropPrefix c!" AS `" rest = none

theorem CallEnd.word {rest : Str} (h : CallEnd rest) : WordEnd rest := by
  rcases h with rfl | ⟨c, r, rfl, hc⟩
  · exact .inl rfl
  · exact .inr ⟨c, r, rfl, by simp at hc ⊢; rcases hc with h | h | h <;> simp [h]⟩

theorem CallEnd.no_paren {rest : Str} (h : CallEnd rest) : dropPrefix c!"(" rest = none := by
  rcases h with rfl | ⟨c, r, rfl, hc⟩
  · rfl
  · have : '(' ≠ c := by rintro rfl; simp at hc
    simp [dropPrefix, this]

/-- The text is read as the tree, in every context. -/
structure TreeText (t : Str) (tr : STree) : Prop where
  head : ∃ c u, t = c :: u ∧ c ≠ ')'
  reads : ∀ rest, TreeEnd rest → ∀ f, t.length + 1 ≤ f → readTree f (t ++ rest) = some (tr, rest)

/-- Corresponding texts and trees. -/
inductive TreeTexts : List Str → List STree → Prop
  | nil : TreeTexts [] []
  | cons (t tr ts trs) : TreeText t tr → TreeTexts ts trs → TreeTexts (t :: ts) (tr :: trs)

theorem tailText_end (ts : List Str) (rest : Str) : TreeEnd (tailText c!", " ts ++ (')' :: rest)) := by
  cases ts with
  | nil => exact ⟨.inr ⟨_, _, rfl, by decide⟩, rfl⟩
  | cons t ts => exact ⟨.inr ⟨_, _, rfl, by decide⟩, rfl⟩

theorem moreArgs_spec {ts : List Str} {trs : List STree} (h : TreeTexts ts trs) (rest : Str) :
    ∀ f, (tailText c!", " ts).length + 1 ≤ f → moreArgs f (tailText c!", " ts ++ (')' :: rest)) = some (trs, rest) := by
  induction h with
  | nil =>
    intro f hf
    obtain ⟨f, rfl⟩ : ∃ g, f = g + 1 := ⟨f - 1, by omega⟩
    simp [moreArgs, tailText, dropPrefix]
  | cons t tr ts trs ht _ ih =>
    intro f hf
    simp only [tailText, List.length_append, List.length_cons, List.length_nil] at hf
    obtain ⟨f, rfl⟩ : ∃ g, f = g + 1 := ⟨f - 1, by omega⟩
    have e : tailText c!", " (t :: ts) ++ (')' :: rest) = c!", " ++ (t ++ (tailText c!", " ts ++ (')' :: rest))) := by
      simp [tailText]
    rw [e, moreArgs, dropPrefix_append]
    simp only [Option.bind_eq_bind, Option.bind_some, ht.reads _ (tailText_end ts rest) f (by omega), ih f (by omega)]

/-- A group of arguments in parentheses. -/
theorem readCalls_group {ts : List Str} {trs : List STree} (h : TreeTexts ts trs) {t : STree} {rest : Str}
    {r : Option (STree × Str)} {n : Nat} (hn : ∀ f, n ≤ f → readCalls f (.apply t trs) rest = r) :
    ∀ f, n + (['('] ++ joinWith c!", " ts ++ [')']).length ≤ f →
      readCalls f t (['('] ++ joinWith c!", " ts ++ [')'] ++ rest) = r := by
  intro f hf
  simp only [List.length_append, List.length_cons, List.length_nil] at hf
  obtain ⟨f, rfl⟩ : ∃ g, f = g + 1 := ⟨f - 1, by omega⟩
  cases h with
  | nil =>
    have e : ['('] ++ joinWith c!", " [] ++ [')'] ++ rest = '(' :: ')' :: rest := by simp [joinWith]
    rw [e, readCalls]
    simp only [dropPrefix, if_true]
    exact hn f (by omega)
  | cons x tr ts trs hx hxs =>
    rw [joinWith_tail] at hf ⊢
    simp only [List.length_append] at hf
    obtain ⟨c, u, hc, hp⟩ := hx.head
    have e : ['('] ++ (x ++ tailText c!", " ts) ++ [')'] ++ rest = '(' :: (x ++ (tailText c!", " ts ++ (')' :: rest))) := by
      simp
    have h1 : dropPrefix c!")" (x ++ (tailText c!", " ts ++ (')' :: rest))) = none := by
      rw [hc]; simp [dropPrefix, Ne.symm hp]
    rw [e, readCalls]
    simp only [dropPrefix, if_true]
    rw [h1]
    simp only [Option.bind_eq_bind, Option.bind_some, hx.reads _ (tailText_end ts rest) f (by omega),
      moreArgs_spec hxs rest f (by omega)]
    exact hn f (by omega)

/-- The same for a group that may be absent. -/
theorem readCalls_paren {k : SeqKind} {ts : List Str} {trs : List STree} (h : TreeTexts ts trs) {t : STree} {rest : Str}
    {r : Option (STree × Str)} {n : Nat} (hn : ∀ f, n ≤ f → readCalls f (withArgs t k trs) rest = r) :
    ∀ f, n + (parenClause k ts).length ≤ f → readCalls f t (parenClause k ts ++ rest) = r := by
  intro f hf
  unfold parenClause at hf ⊢
  unfold withArgs at hn
  split at hf
  · rename_i hk
    rw [if_pos hk] at hn ⊢
    exact hn f (by simpa using hf)
  · rename_i hk
    rw [if_neg hk] at hn ⊢
    exact readCalls_group h hn f hf

theorem readCalls_end {t : STree} {rest : Str} (h : CallEnd rest) {f : Nat} (hf : 1 ≤ f) :
    readCalls f t rest = some (t, rest) := by
  obtain ⟨f, rfl⟩ : ∃ g, f = g + 1 := ⟨f - 1, by omega⟩
  rw [readCalls, h.no_paren]

theorem readTree_word {w rest : Str} (hw : ExprWord w) (hr : WordEnd rest) (f : Nat) :
    readTree (f + 1) (w ++ rest) = (readCalls f (.word w) rest).bind fun p => readNamed p.1 p.2 := by
  obtain ⟨c, u, rfl, hc⟩ := hw.head
  simp only [List.mem_cons, List.not_mem_nil, or_false, not_or] at hc
  have hs := hw.span rest hr
  have d : ∀ p, c ≠ p → dropPrefix [p] (c :: u ++ rest) = none := by
    intro p hp; simp [dropPrefix, Ne.symm hp]
  rw [readTree, d _ hc.1, d _ hc.2.1, d _ hc.2.2.1]
  simp only [hs, List.cons_ne_nil, if_false]
  rfl

theorem takeWhile_tick {a : Str} (h : '`' ∉ a) (rest : Str) : readTicked (a ++ ('`' :: rest)) = some (a, rest) := by
  have hp : ∀ x ∈ a, (x != '`') = true := fun x hx => by
    have : x ≠ '`' := by rintro rfl; exact h hx
    simp [this]
  unfold readTicked
  rw [List.takeWhile_append_of_pos hp, List.dropWhile_append_of_pos hp]
  simp [dropPrefix]

/-- Reading an optional alias. -/
theorem readNamed_spec {a : Option Str} (h : ∀ s, a = some s → '`' ∉ s) (t : STree) {rest : Str}
    (hr : dropPrefix c!" AS `" rest = none) : readNamed t (aliasClause a ++ rest) = some (withName t a, rest) := by
  cases a with
  | none => simp [aliasClause, readNamed, hr, withName]
  | some a =>
    have e : aliasClause (some a) ++ rest = c!" AS `" ++ (a ++ ('`' :: rest)) := by simp [aliasClause]
    rw [e, readNamed, dropPrefix_append]
    simp only [takeWhile_tick (h a rfl), Option.map_some, withName]

/-- A call: a word, groups of arguments that may be absent, and an optional alias. -/
theorem treeText_call {w : Str} (hw : ExprWord w) {ik pk : SeqKind} {is ps : List Str} {its pts : List STree}
    (hi : TreeTexts is its) (hp : TreeTexts ps pts) {a : Option Str} (ha : ∀ s, a = some s → '`' ∉ s) :
    TreeText (w ++ parenClause ik is ++ parenClause pk ps ++ aliasClause a)
      (withName (withArgs (withArgs (.word w) ik its) pk pts) a) := by
  have hpe : ∀ (k : SeqKind) (ts : List Str) (rest : Str), WordEnd rest → WordEnd (parenClause k ts ++ rest) := by
    intro k ts rest h
    unfold parenClause
    split
    · exact h
    · exact .inr ⟨'(', _, rfl, by decide⟩
  constructor
  · obtain ⟨c, u, rfl, hc⟩ := hw.head
    exact ⟨c, _, rfl, by rintro rfl; simp at hc⟩
  · intro rest hr f hf
    simp only [List.length_append] at hf
    obtain ⟨f, rfl⟩ : ∃ g, f = g + 1 := ⟨f - 1, by omega⟩
    have e : w ++ parenClause ik is ++ parenClause pk ps ++ aliasClause a ++ rest =
        w ++ (parenClause ik is ++ (parenClause pk ps ++ (aliasClause a ++ rest))) := by simp
    have hce : CallEnd (aliasClause a ++ rest) := by
      cases a with
      | none => simpa [aliasClause] using hr.1
      | some a => exact .inr ⟨' ', _, rfl, by decide⟩
    have hl : 1 ≤ w.length := by
      obtain ⟨c, u, rfl, _⟩ := hw.head; simp
    rw [e, readTree_word hw (hpe _ _ _ (hpe _ _ _ hce.word))]
    have h0 := fun f hf => readCalls_end (t := withArgs (withArgs (.word w) ik its) pk pts) hce (f := f) hf
    have h1 := readCalls_paren (k := ik) hi (readCalls_paren (k := pk) hp h0) f (by omega)
    rw [h1]
    simp only [Option.bind_some]
    exact readNamed_spec ha _ hr.2

/-- A word with an optional alias. -/
theorem treeText_word {w : Str} (hw : ExprWord w) {a : Option Str} (ha : ∀ s, a = some s → '`' ∉ s) :
    TreeText (w ++ aliasClause a) (withName (.word w) a) := by
  have := treeText_call hw (ik := .absent) (pk := .absent) .nil .nil ha
  simpa [parenClause, withArgs] using this

theorem treeText_plainWord {w : Str} (hw : ExprWord w) : TreeText w (.word w) := by
  have := treeText_word hw (a := none) (by simp)
  simpa [aliasClause, withName] using this

/-- `f(…)`. -/
theorem treeText_apply {w : Str} (hw : ExprWord w) {ps : List Str} {pts : List STree} (hp : TreeTexts ps pts) :
    TreeText (w ++ c!"(" ++ joinWith c!", " ps ++ c!")") (.apply (.word w) pts) := by
  have := treeText_call hw (ik := .absent) (pk := .list) .nil hp (a := none) (by simp)
  simpa [parenClause, withArgs, aliasClause, withName] using this

theorem treeText_str (al : Bool) (s : Str) : TreeText (strLit ⟨al, false⟩ s) (.text s) := by
  constructor
  · exact ⟨'\'', _, rfl, by decide⟩
  · intro rest _ f hf
    obtain ⟨f, rfl⟩ : ∃ g, f = g + 1 := ⟨f - 1, by omega⟩
    have hr := read_strLit ⟨al, false⟩ s rest
    have hq : (⟨al, false⟩ : Cfg).quote = '\'' := rfl
    rw [hq] at hr
    rw [readTree]
    have : ∃ r, strLit ⟨al, false⟩ s ++ rest = '\'' :: r := ⟨_, rfl⟩
    obtain ⟨r, hr'⟩ := this
    have hd : dropPrefix c!"'" (strLit ⟨al, false⟩ s ++ rest) = some r := by rw [hr']; simp [dropPrefix]
    rw [hd]
    simp only [hr, Option.map_some]

/-- A quoted text without quotes and backslashes. -/
theorem treeText_plainQuote {s : Str} (h : ∀ c ∈ s, isoChar c = true) : TreeText (['\''] ++ s ++ ['\'']) (.text s) := by
  constructor
  · exact ⟨'\'', _, rfl, by decide⟩
  · intro rest _ f hf
    obtain ⟨f, rfl⟩ : ∃ g, f = g + 1 := ⟨f - 1, by omega⟩
    have hscan : ∀ s : Str, (∀ c ∈ s, isoChar c = true) → scanQuoted '\'' (s ++ '\'' :: rest) = some (s, rest) := by
      intro s
      induction s with
      | nil => intro _; rw [List.nil_append, scanQuoted.eq_def]; simp
      | cons c s ih =>
        intro h
        have hc := h c (by simp)
        have h1 : c ≠ '\\' := by rintro rfl; exact absurd hc (by decide)
        have h2 : c ≠ '\'' := by rintro rfl; exact absurd hc (by decide)
        rw [List.cons_append, scanQuoted.eq_def]; simp [h1, h2, ih fun c hc => h c (by simp [hc])]
    have e : ['\''] ++ s ++ ['\''] ++ rest = '\'' :: (s ++ '\'' :: rest) := by simp
    rw [e, readTree]
    simp [dropPrefix, readQuoted, hscan s h]

theorem treeText_moment {s : Str} (h : ∀ c ∈ s, isoChar c = true) : TreeText (toDateTimeLit s) (momentTree s) := by
  have := treeText_apply (w := c!"toDateTime") (wordText_dull (by simp) (by decide) (by decide))
    (.cons _ _ _ _ (treeText_plainQuote h) .nil)
  simpa [toDateTimeLit, momentTree, joinWith] using this

theorem treeText_tick {n : Str} (h : '`' ∉ n) : TreeText (['`'] ++ n ++ ['`']) (.tick n) := by
  constructor
  · exact ⟨'`', _, rfl, by decide⟩
  · intro rest _ f hf
    obtain ⟨f, rfl⟩ : ∃ g, f = g + 1 := ⟨f - 1, by omega⟩
    have e : ['`'] ++ n ++ ['`'] ++ rest = '`' :: (n ++ '`' :: rest) := by simp
    rw [e, readTree]
    simp [dropPrefix, takeWhile_tick h]

theorem moreNames_spec (rest : Str) : ∀ {ids : List Str}, (∀ i ∈ ids, '`' ∉ i) → ∀ f, ids.length + 1 ≤ f →
    moreNames f (tailText c!", " (ids.map fun i => ['`'] ++ i ++ ['`']) ++ ')' :: rest) = some (ids, rest)
  | [], _, f, hf => by
    obtain ⟨f, rfl⟩ : ∃ g, f = g + 1 := ⟨f - 1, by omega⟩
    simp [moreNames, tailText, dropPrefix]
  | i :: ids, h, f, hf => by
    simp only [List.length_cons] at hf
    obtain ⟨f, rfl⟩ : ∃ g, f = g + 1 := ⟨f - 1, by omega⟩
    have e : tailText c!", " ((i :: ids).map fun i => ['`'] ++ i ++ ['`']) ++ ')' :: rest =
        c!", `" ++ (i ++ '`' :: (tailText c!", " (ids.map fun i => ['`'] ++ i ++ ['`']) ++ ')' :: rest)) := by
      simp [tailText]
    rw [e, moreNames, dropPrefix_append]
    simp only [Option.bind_eq_bind, Option.bind_some, takeWhile_tick (h i (by simp)),
      moreNames_spec rest (ids := ids) (fun i hi => h i (by simp [hi])) f (by omega)]

theorem readNames_spec (rest : Str) {ids : List Str} (h : ∀ i ∈ ids, '`' ∉ i) :
    readNames (joinWith c!", " (ids.map fun i => ['`'] ++ i ++ ['`']) ++ ')' :: rest) = some (ids, rest) := by
  cases ids with
  | nil => simp [readNames, joinWith, dropPrefix]
  | cons i ids =>
    have len : ∀ ids : List Str, ids.length ≤ (tailText c!", " (ids.map fun i => ['`'] ++ i ++ ['`'])).length := by
      intro ids
      induction ids with
      | nil => simp
      | cons i ids ih =>
        simp only [List.map_cons, tailText, List.length_append, List.length_cons, List.length_nil]
        omega
    have hl := len ids
    rw [List.map_cons, joinWith_tail]
    have e : ['`'] ++ i ++ ['`'] ++ tailText c!", " (ids.map fun i => ['`'] ++ i ++ ['`']) ++ ')' :: rest =
        '`' :: (i ++ '`' :: (tailText c!", " (ids.map fun i => ['`'] ++ i ++ ['`']) ++ ')' :: rest)) := by simp
    rw [e, readNames]
    simp only [dropPrefix, if_true, Option.bind_eq_bind, Option.bind_some, takeWhile_tick (h i (by simp))]
    rw [moreNames_spec rest (fun i hi => h i (by simp [hi])) _ (by
      simp only [List.length_cons, List.length_append]; omega)]
    rfl

theorem treeText_lambda {ids : List Str} (h : ∀ i ∈ ids, '`' ∉ i) {b : Str} {tr : STree} (hb : TreeText b tr) :
    TreeText (['('] ++ joinWith c!", " (ids.map fun i => ['`'] ++ i ++ ['`']) ++ c!") -> " ++ b) (.lambda ids tr) := by
  constructor
  · exact ⟨'(', _, rfl, by decide⟩
  · intro rest hr f hf
    simp only [List.length_append, List.length_cons, List.length_nil] at hf
    obtain ⟨f, rfl⟩ : ∃ g, f = g + 1 := ⟨f - 1, by omega⟩
    have e : ['('] ++ joinWith c!", " (ids.map fun i => ['`'] ++ i ++ ['`']) ++ c!") -> " ++ b ++ rest =
        '(' :: (joinWith c!", " (ids.map fun i => ['`'] ++ i ++ ['`']) ++ ')' :: (c!" -> " ++ (b ++ rest))) := by simp
    rw [e, readTree]
    simp only [dropPrefix, if_true]
    have h1 : ('\'' = '(') = False := by simp
    have h2 : ('`' = '(') = False := by simp
    simp only [h1, h2, if_false, readNames_spec _ h, Option.bind_eq_bind, Option.bind_some]
    have := dropPrefix_append c!" -> " (b ++ rest)
    simp only [this, Option.bind_some, hb.reads rest hr f (by omega)]

end Verif
