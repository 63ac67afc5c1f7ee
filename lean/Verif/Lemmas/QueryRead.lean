import Verif.Spec.QueryRead
import Verif.Props.ExprRead
import Verif.Props.Boolean
import Verif.Props.Sample

/-!
# The reader of queries: lemmas
-/

namespace Verif
open Spec

/-! ### What may follow a clause -/

/-- The text begins with one of the clauses, or the query is over. -/
def After (fs : List Field) (s : Str) : Prop :=
  s = [] ∨ (∃ r, s = c!" }" ++ r) ∨ ∃ f ∈ fs, ∃ r, s = c!" " ++ (f.keyword ++ (c!" " ++ r))

theorem After.mono {fs gs : List Field} {s : Str} (h : After fs s) (hs : ∀ f ∈ fs, f ∈ gs) : After gs s := by
  rcases h with h | h | ⟨f, hf, h⟩
  · exact .inl h
  · exact .inr (.inl h)
  · exact .inr (.inr ⟨f, hs f hf, h⟩)

/-- What may follow any clause. -/
def Next (s : Str) : Prop := After clauseOrder s

theorem After.next {fs : List Field} {s : Str} (h : After fs s) : Next s :=
  h.mono fun f _ => by cases f <;> simp [clauseOrder]

theorem Next.drop {p s : Str} (h : Next s) (h0 : dropPrefix p [] = none) (h1 : ∀ r, dropPrefix p (c!" }" ++ r) = none)
    (h2 : ∀ (f : Field) r, dropPrefix p (c!" " ++ (f.keyword ++ (c!" " ++ r))) = none) : dropPrefix p s = none := by
  rcases h with rfl | ⟨r, rfl⟩ | ⟨f, _, r, rfl⟩
  · exact h0
  · exact h1 r
  · exact h2 f r

theorem Next.treeEnd {s : Str} (h : Next s) : TreeEnd s := by
  refine ⟨?_, h.drop rfl (fun r => by simp [dropPrefix]) fun f r => by cases f <;> simp [Field.keyword, dropPrefix]⟩
  rcases h with rfl | ⟨r, rfl⟩ | ⟨f, _, r, rfl⟩
  · exact .inl rfl
  · exact .inr ⟨_, _, rfl, by decide⟩
  · exact .inr ⟨_, _, rfl, by decide⟩

theorem Next.stopOr {s : Str} (h : Next s) : StopOr s := by
  have h1 := h.treeEnd.2
  have h2 : dropPrefix c!" AND " s = none :=
    h.drop rfl (fun r => by simp [dropPrefix]) fun f r => by cases f <;> simp [Field.keyword, dropPrefix]
  have h3 : dropPrefix c!" OR " s = none :=
    h.drop rfl (fun r => by simp [dropPrefix]) fun f r => by cases f <;> simp [Field.keyword, dropPrefix]
  rcases h with rfl | ⟨r, rfl⟩ | ⟨f, _, r, rfl⟩
  · exact .inl rfl
  · exact .inr (.inr ⟨⟨_, rfl⟩, h1, h2, h3⟩)
  · exact .inr (.inr ⟨⟨_, rfl⟩, h1, h2, h3⟩)

theorem Next.no_comma {s : Str} (h : Next s) : dropPrefix c!", " s = none :=
  h.drop rfl (fun r => by simp [dropPrefix]) fun f r => by simp [dropPrefix]

theorem Next.no_comma' {s : Str} (h : Next s) : dropPrefix c!"," s = none :=
  h.drop rfl (fun r => by simp [dropPrefix]) fun f r => by simp [dropPrefix]

theorem Next.no_link {s : Str} (h : Next s) : dropPrefix c!" -[" s = none :=
  h.drop rfl (fun r => by simp [dropPrefix]) fun f r => by cases f <;> simp [Field.keyword, dropPrefix]

theorem dropPrefix_self : ∀ p s r : Str, dropPrefix (p ++ s) (p ++ r) = dropPrefix s r
  | [], _, _ => rfl
  | c :: p, s, r => by simp [dropPrefix, dropPrefix_self p s r]

/-! ### Items -/

/-- The text is read as the result, wherever the rest satisfies the condition. -/
def ReadBy {α : Type} (read : Str → Option (α × Str)) (P : Str → Prop) (t : Str) (x : α) : Prop :=
  ∀ rest, P rest → read (t ++ rest) = some (x, rest)

theorem readSeparated_spec {α : Type} {item : Str → Option (α × Str)} {sep : Str} {P : Str → Prop} (hP : ∀ r, P (sep ++ r))
    {ts : List Str} {xs : List α} (h : Paired (ReadBy item P) ts xs) (hne : ts ≠ []) {rest : Str} (hr : P rest)
    (hs : dropPrefix sep rest = none) : ∀ f, ts.length ≤ f →
      readSeparated item sep f (joinWith sep ts ++ rest) = some (xs, rest) := by
  induction h with
  | nil => exact absurd rfl hne
  | cons t x ts xs ht hts ih =>
    intro f hf
    simp only [List.length_cons] at hf
    obtain ⟨f, rfl⟩ : ∃ g, f = g + 1 := ⟨f - 1, by omega⟩
    cases hts with
    | nil =>
      simp only [joinWith, readSeparated, ht rest hr]
      simp [hs]
    | cons t' x' ts xs ht' hts =>
      have e : joinWith sep (t :: t' :: ts) ++ rest = t ++ (sep ++ (joinWith sep (t' :: ts) ++ rest)) := by
        simp [joinWith]
      rw [e, readSeparated, ht _ (hP _)]
      simp only [Option.bind_eq_bind, Option.bind_some, dropPrefix_append]
      rw [ih (by simp) f (by omega)]
      rfl

theorem joinWith_length {sep : Str} (hs : sep ≠ []) : ∀ ts : List Str, ts.length ≤ (joinWith sep ts).length + 1
  | [] => by simp
  | [t] => by simp
  | t :: t' :: ts => by
    have := joinWith_length hs (t' :: ts)
    have : 1 ≤ sep.length := by cases sep with
      | nil => exact absurd rfl hs
      | cons _ _ => simp
    simp only [joinWith, List.length_append, List.length_cons] at *
    omega

theorem paired_length {α β : Type} {R : α → β → Prop} {xs : List α} {ys : List β} (h : Paired R xs ys) :
    xs.length = ys.length := by
  induction h with
  | nil => rfl
  | cons _ _ _ _ _ _ ih => simp [ih]

/-- Reading expressions. -/
theorem readItem_spec {t : Str} {tr : STree} (h : TreeText t tr) : ReadBy readItem TreeEnd t tr := by
  intro rest hr
  exact h.reads rest hr _ (by simp)

theorem treeTexts_reads {ts : List Str} {trs : List STree} (h : TreeTexts ts trs) : Paired (ReadBy readItem TreeEnd) ts trs := by
  induction h with
  | nil => exact .nil
  | cons t tr ts trs ht _ ih => exact .cons _ _ _ _ (readItem_spec ht) ih

theorem treeEnd_comma (r : Str) : TreeEnd (c!", " ++ r) := ⟨.inr ⟨',', _, rfl, by decide⟩, rfl⟩

theorem readExpressions_spec {ts : List Str} {trs : List STree} (h : TreeTexts ts trs) (hne : ts ≠ []) :
    ReadBy readExpressions Next (joinWith c!", " ts) trs := by
  intro rest hr
  refine readSeparated_spec (P := TreeEnd) treeEnd_comma (treeTexts_reads h) hne hr.treeEnd hr.no_comma _ ?_
  have := joinWith_length (sep := c!", ") (by simp) ts
  simp only [List.length_append]
  omega

theorem readConditions_spec {ts : List Str} {bs : List BTree} (h : ReadAll ts bs) (hne : ts ≠ []) :
    ReadBy readConditions Next (joinWith c!" AND " ts) (group .and bs) := by
  intro rest hr
  refine readOr_spec .and hr.stopOr h hne _ ?_
  rw [show [' '] ++ BooleanOp.and.value ++ [' '] = c!" AND " from rfl]
  simp only [List.length_append]
  omega

/-- What may follow an ordering. -/
def OrderEnd (s : Str) : Prop := Next s ∨ ∃ r, s = c!", " ++ r

theorem readOrdering_spec {t : Str} {tr : STree} (h : TreeText t tr) (d : Direction) :
    ReadBy readOrdering OrderEnd (t ++ [' '] ++ d.value) (tr, d) := by
  intro rest _
  have e : t ++ [' '] ++ d.value ++ rest = t ++ (' ' :: (d.value ++ rest)) := by simp
  have hend : TreeEnd (' ' :: (d.value ++ rest)) :=
    ⟨.inr ⟨' ', _, rfl, by decide⟩, by cases d <;> simp [Direction.value, dropPrefix]⟩
  rw [e, readOrdering, readItem_spec h _ hend]
  cases d <;> simp [Direction.value, dropPrefix]

theorem readOrderings_spec {ts : List Str} {trs : List (STree × Direction)} (h : Paired (ReadBy readOrdering OrderEnd) ts trs)
    (hne : ts ≠ []) : ReadBy readOrderings Next (joinWith c!", " ts) trs := by
  intro rest hr
  refine readSeparated_spec (P := OrderEnd) (fun r => .inr ⟨r, rfl⟩) h hne (.inl hr) hr.no_comma _ ?_
  have := joinWith_length (sep := c!", ") (by simp) ts
  simp only [List.length_append]
  omega

theorem readWord_spec {w : Str} (h : ExprWord w) : ReadBy readWord WordEnd w w := by
  intro rest hr
  obtain ⟨c, u, hc, _⟩ := h.head
  have : w ≠ [] := by rw [hc]; simp
  simp [readWord, h.span rest hr, this]

theorem Next.wordEnd {s : Str} (h : Next s) : WordEnd s := h.treeEnd.1.word

theorem readWord_next {w : Str} (h : ExprWord w) : ReadBy readWord Next w w :=
  fun rest hr => readWord_spec h rest hr.wordEnd

/-! ### Clauses -/

/-- The text of some clauses of a query. -/
def clauseTail (fs : List Field) (b : Body) (txt : Field → Str) : Str :=
  tailText c!" " ((fs.filter (·.isSet b)).map fun f => f.keyword ++ c!" " ++ txt f)

theorem clauseTail_set {f : Field} {fs : List Field} {b : Body} {txt : Field → Str} (h : f.isSet b = true) (rest : Str) :
    clauseTail (f :: fs) b txt ++ rest = (c!" " ++ f.keyword ++ c!" ") ++ (txt f ++ (clauseTail fs b txt ++ rest)) := by
  simp [clauseTail, List.filter_cons, h, tailText]

theorem clauseTail_unset {f : Field} {fs : List Field} {b : Body} {txt : Field → Str} (h : f.isSet b = false) :
    clauseTail (f :: fs) b txt = clauseTail fs b txt := by
  simp [clauseTail, h]

theorem clauseTail_after (fs : List Field) (b : Body) (txt : Field → Str) {rest : Str} (hr : After [] rest) :
    After fs (clauseTail fs b txt ++ rest) := by
  induction fs with
  | nil => simpa [clauseTail, tailText] using hr
  | cons f fs ih =>
    cases hf : f.isSet b with
    | true =>
      rw [clauseTail_set hf]
      exact .inr (.inr ⟨f, by simp, txt f ++ (clauseTail fs b txt ++ rest), by simp⟩)
    | false =>
      rw [clauseTail_unset hf]
      exact ih.mono fun g hg => by simp [hg]

theorem other_keyword {f g : Field} (h : f.keyword ≠ g.keyword) (r : Str) :
    dropPrefix (c!" " ++ f.keyword ++ c!" ") (c!" " ++ (g.keyword ++ (c!" " ++ r))) = none := by
  cases f <;> cases g <;> first | exact absurd rfl h | simp [Field.keyword, dropPrefix]

/-- One clause of a query is read. -/
theorem readClause_step {α : Type} (f : Field) (fs : List Field) {b : Body} {txt : Field → Str}
    {read : Str → Option (α × Str)} {Q : Option α → Prop} {rest : Str} (hr : After [] rest)
    (hf : ∀ g ∈ fs, f.keyword ≠ g.keyword)
    (h1 : f.isSet b = true → ∃ x, ReadBy read Next (txt f) x ∧ Q (some x)) (h0 : f.isSet b = false → Q none) :
    ∃ o : Option α, readClause (c!" " ++ f.keyword ++ c!" ") read (clauseTail (f :: fs) b txt ++ rest) =
      some (o, clauseTail fs b txt ++ rest) ∧ Q o := by
  have ha := clauseTail_after fs b txt hr
  cases hs : f.isSet b with
  | true =>
    obtain ⟨x, hx, hq⟩ := h1 hs
    refine ⟨some x, ?_, hq⟩
    rw [clauseTail_set hs, readClause, dropPrefix_append]
    simp [hx _ ha.next]
  | false =>
    refine ⟨none, ?_, h0 hs⟩
    rw [clauseTail_unset hs]
    have : dropPrefix (c!" " ++ f.keyword ++ c!" ") (clauseTail fs b txt ++ rest) = none := by
      rcases ha with h | ⟨r, h⟩ | ⟨g, hg, r, h⟩
      · rw [h]; cases f <;> rfl
      · rw [h]; cases f <;> simp [Field.keyword, dropPrefix]
      · rw [h]; exact other_keyword (hf g hg) r
    rw [readClause, this]

/-- The limit by clause is read. -/
theorem readLimitBy_step {b : Body} {txt : Field → Str} {fs : List Field} (hfs : fs = [.limit, .offset, .granularity, .totals])
    {Q : Option (Str × List Str) → Prop} {rest : Str} (hr : After [] rest)
    (hl : Field.limit.isSet b = true → ExprWord (txt .limit))
    (h1 : Field.limitby.isSet b = true → ∃ n ws, txt .limitby = n ++ c!" BY " ++ joinWith c!"," ws ∧ ExprWord n ∧
      (∀ w ∈ ws, ExprWord w) ∧ ws ≠ [] ∧ Q (some (n, ws))) (h0 : Field.limitby.isSet b = false → Q none) :
    ∃ o, readLimitBy (clauseTail (.limitby :: fs) b txt ++ rest) = some (o, clauseTail fs b txt ++ rest) ∧ Q o := by
  have ha := clauseTail_after fs b txt hr
  cases hs : Field.limitby.isSet b with
  | true =>
    obtain ⟨n, ws, ht, hn, hw, hne, hq⟩ := h1 hs
    refine ⟨_, ?_, hq⟩
    rw [clauseTail_set hs, readLimitBy, show c!" " ++ Field.limitby.keyword ++ c!" " = c!" LIMIT " from rfl, dropPrefix_append]
    have e : ∀ x : Str, txt .limitby ++ x = n ++ (c!" BY " ++ (joinWith c!"," ws ++ x)) := by intro x; rw [ht]; simp
    simp only [e, Option.bind_eq_bind]
    rw [readWord_spec hn (c!" BY " ++ (joinWith c!"," ws ++ (clauseTail fs b txt ++ rest))) (.inr ⟨' ', _, rfl, by decide⟩)]
    simp only [Option.bind_some, dropPrefix_append]
    have hp : ∀ {ws : List Str}, (∀ w ∈ ws, ExprWord w) → Paired (ReadBy readWord WordEnd) ws ws := by
      intro ws
      induction ws with
      | nil => intro _; exact .nil
      | cons w ws ih => intro h; exact .cons _ _ _ _ (readWord_spec (h w (by simp))) (ih fun w hw => h w (by simp [hw]))
    rw [readSeparated_spec (P := WordEnd) (fun r => .inr ⟨',', r, rfl, by decide⟩) (hp hw) hne ha.next.wordEnd ha.next.no_comma']
    · rfl
    · have := joinWith_length (sep := c!",") (by simp) ws
      simp only [List.length_append]
      omega
  | false =>
    refine ⟨none, ?_, h0 hs⟩
    rw [clauseTail_unset hs]
    subst hfs
    cases hlim : Field.limit.isSet b with
    | true =>
      rw [clauseTail_set hlim, readLimitBy, show c!" " ++ Field.limit.keyword ++ c!" " = c!" LIMIT " from rfl, dropPrefix_append]
      have hn := clauseTail_after [.offset, .granularity, .totals] b txt hr
      simp only [Option.bind_eq_bind]
      rw [readWord_spec (hl hlim) _ hn.next.wordEnd]
      have : dropPrefix c!" BY " (clauseTail [.offset, .granularity, .totals] b txt ++ rest) = none := by
        rcases hn with h | ⟨r, h⟩ | ⟨g, hg, r, h⟩
        · rw [h]; rfl
        · rw [h]; simp [dropPrefix]
        · rw [h]
          simp only [List.mem_cons, List.not_mem_nil, or_false] at hg
          rcases hg with rfl | rfl | rfl <;> simp [Field.keyword, dropPrefix]
      simp only [Option.bind_some, this]
    | false =>
      rw [clauseTail_unset hlim] at ha ⊢
      have hn := clauseTail_after [.offset, .granularity, .totals] b txt hr
      have : dropPrefix c!" LIMIT " (clauseTail [.offset, .granularity, .totals] b txt ++ rest) = none := by
        rcases hn with h | ⟨r, h⟩ | ⟨g, hg, r, h⟩
        · rw [h]; rfl
        · rw [h]; simp [dropPrefix]
        · rw [h]
          simp only [List.mem_cons, List.not_mem_nil, or_false] at hg
          rcases hg with rfl | rfl | rfl <;> simp [Field.keyword, dropPrefix]
      rw [readLimitBy, this]

/-! ### The match -/

theorem spanText_stop {p : Char → Bool} {t : Str} (ht : ∀ c ∈ t, p c = true) {c : Char} {r : Str} (hc : p c = false) :
    spanText p (t ++ c :: r) = (t, c :: r) := by
  unfold spanText
  rw [List.takeWhile_append_of_pos ht, List.dropWhile_append_of_pos ht]
  simp [List.takeWhile_cons, List.dropWhile_cons, hc]

/-- The text of a sample clause without parentheses. -/
theorem sample_says {x : Option PyFloat} (h : ∀ f, x = some f → f.leZero = false) :
    (x = none ∧ sampleClause x = []) ∨ ∃ w, sampleClause x = c!" SAMPLE " ++ w ∧ SaysSample x (some w) ∧ ')' ∉ w := by
  cases x with
  | none => exact .inl ⟨rfl, rfl⟩
  | some f =>
    refine .inr ?_
    cases f with
    | fin d =>
      obtain ⟨num, hc, hr⟩ := sample_text d (h _ rfl)
      refine ⟨num, hc, .rate _ _ hr, ?_⟩
      obtain ⟨a, k, hd, _⟩ := hr.1
      intro hm
      have hall : ∀ s : Str, readDecimal s = some (a, k) → ')' ∉ s := by
        intro s hs hm
        simp only [readDecimal] at hs
        have hsplit := List.takeWhile_append_dropWhile (p := fun c : Char => decide ('0' ≤ c ∧ c ≤ '9')) (l := s)
        rw [← hsplit] at hm
        rcases List.mem_append.1 hm with h | h
        · have := List.all_takeWhile (l := s) (p := fun c : Char => decide ('0' ≤ c ∧ c ≤ '9'))
          rw [List.all_eq_true] at this
          exact absurd (this _ h) (by decide)
        · split at hs
          · rename_i f he
            split at hs
            · rename_i hc
              rw [he] at h
              simp only [List.mem_cons] at h
              rcases h with h | h
              · exact absurd h (by decide)
              · have := hc.2.2
                rw [List.all_eq_true] at this
                exact absurd (this _ h) (by decide)
            · cases hs
          · cases hs
      exact hall num hd hm
    | inf neg =>
      cases neg with
      | true => exact absurd (h _ rfl) (by decide)
      | false => exact ⟨c!"inf", rfl, .inf, by decide⟩
    | nan => exact ⟨c!"nan", rfl, .nan, by decide⟩

theorem readSample_spec {x : Option PyFloat} (h : ∀ f, x = some f → f.leZero = false) :
    ∃ o, SaysSample x o ∧ ∀ rest, readSample (sampleClause x ++ ')' :: rest) = some (o, rest) := by
  rcases sample_says h with ⟨rfl, h⟩ | ⟨w, h1, h2, h3⟩
  · refine ⟨none, .none, fun rest => ?_⟩
    rw [h]
    simp [readSample, dropPrefix]
  · refine ⟨some w, h2, fun rest => ?_⟩
    rw [h1, List.append_assoc, readSample, dropPrefix_append]
    have hw : ∀ c ∈ w, (c != ')') = true := fun c hc => by
      have : c ≠ ')' := by rintro rfl; exact h3 hc
      simp [this]
    simp only [spanText_stop hw (c := ')') (r := rest) (by decide)]
    simp [dropPrefix]

/-- What follows a name in parentheses. -/
theorem sample_head (x : Option PyFloat) (rest : Str) : ∃ c r, sampleClause x ++ ')' :: rest = c :: r ∧ (c != ' ' && c != ')') = false := by
  cases x with
  | none => exact ⟨')', rest, rfl, by decide⟩
  | some f =>
    by_cases h : f.isIntegral = true
    · simp only [sampleClause, h, if_true]; exact ⟨' ', _, rfl, by decide⟩
    · simp only [sampleClause, h, if_false]; exact ⟨' ', _, rfl, by decide⟩

theorem entityName_chars {n : Str} (h : OptNewline EntityName n) :
    n ≠ [] ∧ (∀ c ∈ n, (c != ' ' && c != ')') = true) ∧ ':' ∉ n := by
  have key : ∀ c : Char, isAlpha c = true ∨ c = '_' ∨ c = '\n' → (c != ' ' && c != ')') = true ∧ c ≠ ':' := by
    intro c hc
    refine ⟨?_, ?_⟩
    · have h1 : c ≠ ' ' := by rintro rfl; exact absurd hc (by decide)
      have h2 : c ≠ ')' := by rintro rfl; exact absurd hc (by decide)
      simp [h1, h2]
    · rintro rfl; exact absurd hc (by decide)
  rcases h with ⟨h0, h⟩ | ⟨b, ⟨h0, h⟩, rfl⟩
  · refine ⟨h0, fun c hc => (key c ?_).1, fun hm => (key ':' ?_).2 rfl⟩
    · rcases h c hc with h | h <;> simp [h]
    · exact (h _ hm).imp id .inl
  · have h' : ∀ c ∈ b ++ ['\n'], isAlpha c = true ∨ c = '_' ∨ c = '\n' := by
      intro c hc
      rcases List.mem_append.1 hc with hc | hc
      · rcases h c hc with h | h <;> simp [h]
      · simp only [List.mem_singleton] at hc; simp [hc]
    exact ⟨by simp, fun c hc => (key c (h' c hc)).1, fun hm => (key ':' (h' _ hm)).2 rfl⟩

theorem spanName_spec {n : Str} (h : ∀ c ∈ n, (c != ' ' && c != ')') = true) (x : Option PyFloat) (rest : Str) :
    spanName (n ++ (sampleClause x ++ ')' :: rest)) = (n, sampleClause x ++ ')' :: rest) := by
  obtain ⟨c, r, he, hc⟩ := sample_head x rest
  rw [he]
  exact spanText_stop h hc

/-- An entity is read, in every context. -/
theorem readEntity_spec (al : Bool) {e : EntityObj} (h : EntOk e) (hs : SmoothAlias e) :
    ∃ t, SaysEntity al e t ∧ ∀ rest, readEntity (entityStr ⟨al, false⟩ e ++ rest) = some (t, rest) := by
  obtain ⟨hn0, hn, hcol⟩ := entityName_chars h.name
  obtain ⟨o, ho, hread⟩ := readSample_spec h.sample
  have hlast : ∀ n : Str, ':' ∉ n → n.getLast? ≠ some ':' := by
    intro n hn hl
    exact hn (List.mem_of_getLast? hl)
  have plain : ∀ rest, readEntity (['('] ++ e.name ++ sampleClause e.sample ++ [')'] ++ rest) = some (⟨none, e.name, o⟩, rest) := by
    intro rest
    have e1 : ['('] ++ e.name ++ sampleClause e.sample ++ [')'] ++ rest =
        c!"(" ++ (e.name ++ (sampleClause e.sample ++ ')' :: rest)) := by simp
    rw [e1, readEntity, dropPrefix_append]
    simp only [Option.bind_eq_bind, Option.bind_some, spanName_spec hn, hlast _ hcol, if_false, hread]
  cases ha : e.alias with
  | none =>
    refine ⟨⟨none, e.name, o⟩, ⟨by simp [ha], rfl, ho⟩, fun rest => ?_⟩
    rw [← plain rest]
    simp [entityStr, ha]
  | some a =>
    cases al with
    | false =>
      refine ⟨⟨none, e.name, o⟩, ⟨by simp, rfl, ho⟩, fun rest => ?_⟩
      rw [← plain rest]
      simp [entityStr, ha]
    | true =>
      refine ⟨⟨some a, e.name, o⟩, ⟨by simp [ha], rfl, ho⟩, fun rest => ?_⟩
      have e1 : entityStr ⟨true, false⟩ e ++ rest =
          c!"(" ++ ((a ++ [':']) ++ ' ' :: (e.name ++ (sampleClause e.sample ++ ')' :: rest))) := by simp [entityStr, ha]
      have hch : ∀ c ∈ a ++ [':'], (c != ' ' && c != ')') = true := by
        intro c hc
        rcases List.mem_append.1 hc with hc | hc
        · have := hs a ha c hc
          simp only [List.mem_cons, List.not_mem_nil, or_false, not_or] at this
          simp [this]
        · simp only [List.mem_singleton] at hc; subst hc; decide
      have hsp : spanName ((a ++ [':']) ++ ' ' :: (e.name ++ (sampleClause e.sample ++ ')' :: rest))) =
          (a ++ [':'], ' ' :: (e.name ++ (sampleClause e.sample ++ ')' :: rest))) := spanText_stop hch (by decide)
      have hd : dropPrefix c!" " (' ' :: (e.name ++ (sampleClause e.sample ++ ')' :: rest))) =
          some (e.name ++ (sampleClause e.sample ++ ')' :: rest)) := dropPrefix_append c!" " _
      rw [e1, readEntity, dropPrefix_append]
      simp only [Option.bind_eq_bind, Option.bind_some, hsp, List.getLast?_append, List.getLast?_singleton, Option.some_or,
        if_true, hd, spanName_spec hn, hread, List.dropLast_concat]

theorem readLink_spec {r : RelObj} (h : RelOk r) (h1 : SmoothAlias r.lhs) (h2 : SmoothAlias r.rhs) (h3 : Smooth r.name) :
    ∃ t, SaysLink r t ∧ ∀ rest, readLink (relStr ⟨true, false⟩ r ++ rest) = some (t, rest) := by
  obtain ⟨l, hl, rl⟩ := readEntity_spec true h.lhs h1
  obtain ⟨x, hx, rx⟩ := readEntity_spec true h.rhs h2
  refine ⟨⟨l, r.name, x⟩, ⟨hl, rfl, hx⟩, fun rest => ?_⟩
  have e : relStr ⟨true, false⟩ r ++ rest = entityStr ⟨true, false⟩ r.lhs ++ (c!" -[" ++ (r.name ++
      ']' :: (c!"-> " ++ (entityStr ⟨true, false⟩ r.rhs ++ rest)))) := by simp [relStr]
  have hn : ∀ c ∈ r.name, (c != ']') = true := by
    intro c hc
    have := h3 c hc
    simp only [List.mem_cons, List.not_mem_nil, or_false, not_or] at this
    simp [this]
  have hd : dropPrefix c!"]-> " (']' :: (c!"-> " ++ (entityStr ⟨true, false⟩ r.rhs ++ rest))) =
      some (entityStr ⟨true, false⟩ r.rhs ++ rest) := dropPrefix_append c!"]-> " _
  rw [e, readLink, rl]
  simp only [Option.bind_eq_bind, Option.bind_some, dropPrefix_append,
    spanText_stop hn (c := ']') (r := c!"-> " ++ (entityStr ⟨true, false⟩ r.rhs ++ rest)) (by decide), hd, rx]

theorem links_spec : ∀ {rels : List RelObj}, (∀ r ∈ rels, RelOk r) →
    (∀ r ∈ rels, SmoothAlias r.lhs ∧ SmoothAlias r.rhs ∧ Smooth r.name) →
    ∃ ts, Paired SaysLink rels ts ∧ Paired (ReadBy readLink fun _ => True) (rels.map (relStr ⟨true, false⟩)) ts
  | [], _, _ => ⟨[], .nil, .nil⟩
  | r :: rels, h, hs => by
    obtain ⟨h1, h2, h3⟩ := hs r (by simp)
    obtain ⟨t, ht, hr⟩ := readLink_spec (h r (by simp)) h1 h2 h3
    obtain ⟨ts, hts, hrs⟩ := links_spec (rels := rels) (fun r hr => h r (by simp [hr])) fun r hr => hs r (by simp [hr])
    exact ⟨t :: ts, .cons _ _ _ _ ht hts, .cons _ _ _ _ (fun rest _ => hr rest) hrs⟩

variable [U : PyUnicode]

/-- What the query is on is read. -/
theorem readSource_spec {m : Val} (h : WF m) (hs : SmoothNames m) (hm : m.isMatch = true) {t : Str}
    (ht : translate ⟨m.isJoin, false⟩ m = .ok t) :
    (∃ u, t = '(' :: u ∨ t = 'S' :: u) ∧ ∃ src, SaysSource m.isJoin m src ∧ ReadBy readSource Next t src := by
  have nostor : ∀ s : Str, dropPrefix c!"STORAGE(" ('(' :: s) = none := fun s => by simp [dropPrefix]
  cases h with
  | entity e he =>
    simp only [Val.isJoin, translate, Except.ok.injEq] at ht; subst ht
    obtain ⟨et, h1, h2⟩ := readEntity_spec false he hs
    refine ⟨⟨_, .inl rfl⟩, .entity et, .entity _ _ h1, fun rest hr => ?_⟩
    have hst : dropPrefix c!"STORAGE(" (entityStr ⟨false, false⟩ e ++ rest) = none := nostor _
    have hnl : readLink (entityStr ⟨false, false⟩ e ++ rest) = none := by
      rw [readLink, h2]
      simp [hr.no_link]
    rw [readSource, hst, hnl]
    simp only [h2, Option.map_some]
  | storage s hst =>
    simp only [translate, Except.ok.injEq] at ht; subst ht
    obtain ⟨hn0, hn, _⟩ := entityName_chars hst.name
    obtain ⟨o, ho, hread⟩ := readSample_spec hst.sample
    refine ⟨⟨_, .inr rfl⟩, .storage s.name o, .storage _ _ ho, fun rest hr => ?_⟩
    have e : storageStr s ++ rest = c!"STORAGE(" ++ (s.name ++ (sampleClause s.sample ++ ')' :: rest)) := by
      simp [storageStr]
    rw [e, readSource, dropPrefix_append]
    simp only [spanName_spec hn, hread, Option.bind_eq_bind, Option.bind_some]
  | join k rels hrels hne _ =>
    simp only [Val.isJoin, translate, Except.ok.injEq] at ht; subst ht
    obtain ⟨ts, h1, h2⟩ := links_spec hrels hs
    have hhead : ∃ u, joinStr ⟨true, false⟩ rels = '(' :: u := by
      cases rels with
      | nil => exact absurd rfl hne
      | cons r rels =>
        rw [joinStr, List.map_cons, joinWith_tail]
        exact ⟨_, rfl⟩
    obtain ⟨u, hu⟩ := hhead
    refine ⟨⟨u, .inl hu⟩, .join ts, .join _ _ _ h1, fun rest hr => ?_⟩
    have hst : dropPrefix c!"STORAGE(" (joinStr ⟨true, false⟩ rels ++ rest) = none := by rw [hu]; exact nostor _
    have hne' : rels.map (relStr ⟨true, false⟩) ≠ [] := by simpa using hne
    have hfirst : ∃ x, readLink (joinStr ⟨true, false⟩ rels ++ rest) = some x := by
      cases rels with
      | nil => exact absurd rfl hne
      | cons r rels =>
        obtain ⟨a1, a2, a3⟩ := hs r (by simp)
        obtain ⟨t, _, hr'⟩ := readLink_spec (hrels r (by simp)) a1 a2 a3
        rw [joinStr, List.map_cons, joinWith_tail, List.append_assoc]
        exact ⟨_, hr' _⟩
    have := readSeparated_spec (sep := c!", ") (fun r => trivial) h2 hne' (rest := rest) trivial hr.no_comma
      ((joinStr ⟨true, false⟩ rels ++ rest).length + 1) (by
        have := joinWith_length (sep := c!", ") (by simp) (rels.map (relStr ⟨true, false⟩))
        simp only [joinStr, List.length_append] at this ⊢
        omega)
    obtain ⟨x, hx⟩ := hfirst
    rw [readSource, hst, hx]
    simp only [joinStr] at this ⊢
    rw [this]
    rfl
  | literal _ h => cases h <;> cases hm
  | _ => cases hm

end Verif
