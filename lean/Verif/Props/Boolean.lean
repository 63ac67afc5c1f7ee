import Verif.Lemmas.BooleanRead

/-!
# C16: Boolean structure survives printing
-/

namespace Verif
open Spec

section
variable [U : PyUnicode]

omit U in
theorem smooth_head {s : Str} (h : ∀ c ∈ s, dull c = true) (r : Str) (hr : ∀ c u, r = c :: u → c ≠ '(') :
    dropPrefix c!"(" (s ++ r) = none := by
  cases s with
  | nil =>
    cases r with
    | nil => rfl
    | cons c u => simp [dropPrefix, Ne.symm (hr c u rfl)]
  | cons c s =>
    have : '(' ≠ c := by rintro rfl; exact absurd (h '(' (by simp)) (by decide)
    simp [dropPrefix, this]

omit U in
theorem dropPrefix_paren {c : Char} {s : Str} (h : c ≠ '(') : dropPrefix c!"(" (c :: s) = none := by
  simp [dropPrefix, Ne.symm h]

omit U in
theorem alpha_ne_paren {c : Char} (h : isAlpha c = true ∨ c = '_') : c ≠ '(' := by
  rintro rfl; exact absurd h (by decide)

theorem colName_head {s : Str} (h : OptNewline ColName s) : ∃ c u, s = c :: u ∧ c ≠ '(' := by
  have key : ∀ b, ColName b → ∃ c u, b = c :: u ∧ c ≠ '(' := by
    rintro b (⟨x, u, rfl, hx, _⟩ | ⟨_, k, ⟨x, u, rfl, hx, _⟩, _, rfl⟩)
    · exact ⟨x, u, rfl, alpha_ne_paren hx⟩
    · exact ⟨x, _, rfl, alpha_ne_paren hx⟩
  rcases h with h | ⟨b, h, rfl⟩
  · exact key s h
  · obtain ⟨c, u, rfl, hc⟩ := key b h
    exact ⟨c, _, rfl, hc⟩

/-- The left side of a condition does not begin with a parenthesis. -/
theorem lhs_head {al : Bool} {l : Val} (h : WF l) (hl : ColOrFn l) (hs : SmoothNames l) {t : Str}
    (ht : translate ⟨al, false⟩ l = .ok t) (r : Str) (hr : ∀ c u, r = c :: u → c ≠ '(') :
    dropPrefix c!"(" (t ++ r) = none := by
  cases hl with
  | column c =>
    simp only [translate, Except.ok.injEq] at ht; subst ht
    have hc := h.column_inv.1
    obtain ⟨x, u, hx, hp⟩ := colName_head (columnNameRe_iff.1 hc.name)
    unfold colStr
    split
    · rename_i e he
      split
      · obtain ⟨a, ha, hne⟩ := hc.alias e he
        have hsm := hs e he a ha
        rw [ha]
        cases a with
        | nil => exact absurd rfl hne
        | cons y a =>
          have : y ≠ '(' := by rintro rfl; exact absurd (hsm '(' (by simp)) (by decide)
          simp only [optStr, List.cons_append]
          exact dropPrefix_paren this
      · rw [hx]; exact dropPrefix_paren hp
    · rw [hx]; exact dropPrefix_paren hp
  | curried f n ik is pk ps a =>
    simp only [translate, bind_eq_ok, Except.ok.injEq] at ht
    obtain ⟨i, _, p, _, rfl⟩ := ht
    have hsm : Smooth n := hs
    cases h with
    | literal _ h => cases h
    | curried _ _ _ _ _ _ _ _ _ _ _ _ _ hn _ =>
      have : n ≠ [] := by
        rcases hn with ⟨x, u, rfl, _⟩ | ⟨_, ⟨x, u, rfl, _⟩, rfl⟩ <;> simp
      cases n with
      | nil => exact absurd rfl this
      | cons y n =>
        have : y ≠ '(' := by rintro rfl; exact absurd (hsm '(' (by simp)) (by decide)
        simp only [List.cons_append]
        exact dropPrefix_paren this

omit U in
theorem treesOf_readAll {cfg : Cfg} : ∀ {cs : List Val} {ps : List Str}, translateAll cfg cs = .ok ps →
    (∀ c ∈ cs, ∀ t, translate cfg c = .ok t → ∃ b, TreeOf cfg c b ∧ ReadsAs t b) →
    ∃ bs, TreesOf cfg cs bs ∧ ReadAll ps bs
  | [], ps, h, _ => by cases h; exact ⟨[], .nil, .nil⟩
  | c :: cs, ps, h, hc => by
    simp only [translateAll, bind_eq_ok, Except.ok.injEq] at h
    obtain ⟨t, ht, ts, hts, rfl⟩ := h
    obtain ⟨b, h1, h2⟩ := hc c (by simp) t ht
    obtain ⟨bs, h3, h4⟩ := treesOf_readAll hts fun c hc' => hc c (by simp [hc'])
    exact ⟨b :: bs, .cons _ _ _ _ h1 h3, .cons _ _ _ _ h2 h4⟩

omit U in
theorem Spec.TreesOf.length {cfg : Cfg} : ∀ {cs : List Val} {bs : List BTree}, TreesOf cfg cs bs → bs.length = cs.length
  | _, _, .nil => rfl
  | _, _, .cons _ _ _ _ _ h => by simp [h.length]

omit U in
theorem group_many {o : BooleanOp} {bs : List BTree} (h : 2 ≤ bs.length) : group o bs = .node o bs := by
  match bs, h with
  | _ :: _ :: _, _ => rfl

/-- Every condition text is read as the tree of the condition, in every context. -/
theorem cond_reads (al : Bool) {v : Val} (h : WF v) : Cond v → SmoothVal v → ∀ t, translate ⟨al, false⟩ v = .ok t →
    ∃ b, TreeOf ⟨al, false⟩ v b ∧ ReadsAs t b := by
  induction h with
  | cond l o r hwl hwr hl hu hr _ _ =>
    intro _ hs t ht
    simp only [translate, bind_eq_ok, Except.ok.injEq] at ht
    obtain ⟨rs, hrs, ls, hls, rfl⟩ := ht
    have sl : SmoothVal l := fun x hx => hs x (.lhs _ _ _ hx)
    have sr : SmoothVal r := fun x hx => hs x (.rhs _ _ _ hx)
    have h1 := (wf_operandText al hwl sl ls hls).2 (.inl hl)
    have hp := lhs_head hwl hl (sl _ .here) hls
    rcases rhsText_ok hrs with ⟨hun, rfl⟩ | ⟨hun, s, hs', rfl⟩
    · refine ⟨.leaf ls o none, .unary _ _ _ _ (isUnary_iff.1 hun) hls, ?_⟩
      intro rest hstop f hf
      obtain ⟨f, rfl⟩ : ∃ g, f = g + 1 := ⟨f - 1, by omega⟩
      have e : ls ++ [' '] ++ o.value ++ [] ++ rest = ls ++ (' ' :: (o.value ++ rest)) := by simp
      rw [readPrim, e, hp _ (by rintro c u ⟨⟩; decide), ← readLeaf_unary h1 hstop hun]
      simp
    · have h2 := (wf_operandText al hwr sr s hs').2 hr
      refine ⟨.leaf ls o (some s), .binary _ _ _ _ _ (by rintro rfl; cases hun) (by rintro rfl; cases hun) hls hs', ?_⟩
      intro rest hstop f hf
      obtain ⟨f, rfl⟩ : ∃ g, f = g + 1 := ⟨f - 1, by omega⟩
      have e : ls ++ [' '] ++ o.value ++ (' ' :: s) ++ rest = ls ++ (' ' :: (o.value ++ (' ' :: (s ++ rest)))) := by simp
      have := readLeaf_spec h1 h2 hstop hun
      rw [e] at this
      rw [readPrim, e, hp _ (by rintro c u ⟨⟩; decide), this]
  | boolCond cls o k cs hw hc hlen _ _ ih =>
    intro _ hs t ht
    simp only [translate, bind_eq_ok, Except.ok.injEq] at ht
    obtain ⟨ps, hps, rfl⟩ := ht
    obtain ⟨bs, h1, h2⟩ := treesOf_readAll hps fun c hcm t ht =>
      ih c hcm (hc c hcm) (fun x hx => hs x (.item _ _ _ _ _ hcm hx)) t ht
    refine ⟨.node o bs, .group _ _ _ _ _ h1, ?_⟩
    have hbl := h1.length
    have hne : ps ≠ [] := by
      rintro rfl
      cases h2
      simp at hbl; omega
    have := reads_group o h2 hne
    rwa [group_many (by omega)] at this
  | literal _ h => intro hc; cases hc <;> cases h
  | _ => intro hc; cases hc

/-- **C16** (one condition): the text of a condition is read with the usual precedence as its And/Or tree with its
operands. Missing: conditions in which a function name, an entity alias or a relationship name contains spaces,
quotes, parentheses or brackets, for which the property does not hold
(`C16_fails_for_function_names`). -/
theorem C16_condition_partial (useAliases : Bool) (v : Val) (hb : Built v) (hc : Cond v) (hs : SmoothVal v) (t : Str)
    (h : translate ⟨useAliases, false⟩ v = .ok t) :
    ∃ b, TreeOf ⟨useAliases, false⟩ v b ∧ readCondition t = some b := by
  obtain ⟨b, h1, h2⟩ := cond_reads useAliases (built_wf hb) hc hs t h
  refine ⟨b, h1, ?_⟩
  have := readOr_spec .or (rest := []) (.inl rfl) (.cons t b [] [] h2 .nil) (by simp) (4 * t.length + 6)
    (by simp [joinWith])
  simp only [joinWith, List.append_nil] at this
  simp [readCondition, this, group]

/-- **C16** (clauses): in every printed query, at every level, the text of the WHERE and HAVING clause is read as
the conjunction of the trees of the conditions. `ClauseText` is what `C14_print` shows about the printed text. -/
theorem C16_clause_partial (useAliases : Bool) (f : Field) (hf : f = .where_ ∨ f = .having) (k : SeqKind) (v : Val)
    (xs : List Val) (hx : SeqOf v k xs) (hne : xs ≠ []) (hb : ∀ x ∈ xs, Built x) (hc : ∀ x ∈ xs, Cond x)
    (hs : ∀ x ∈ xs, SmoothVal x) (t : Str) (h : ClauseText ⟨useAliases, false⟩ f v t) :
    ∃ bs, TreesOf ⟨useAliases, false⟩ xs bs ∧ readCondition t = some (group .and bs) := by
  have hsep : f.itemSep = some c!" AND " := by rcases hf with rfl | rfl <;> rfl
  simp only [ClauseText, hsep] at h
  obtain ⟨k', xs', ts, hx', hp, rfl⟩ := h
  have := hx.unique hx'; subst this
  have conv : ∀ {xs : List Val} {ts : List Str}, ClauseText.Paired' ⟨useAliases, false⟩ xs ts →
      translateAll ⟨useAliases, false⟩ xs = .ok ts := by
    intro xs
    induction xs with
    | nil => intro ts h; cases ts <;> simp [ClauseText.Paired'] at h; rfl
    | cons x xs ih =>
      intro ts h
      cases ts with
      | nil => simp [ClauseText.Paired'] at h
      | cons t ts =>
        simp only [ClauseText.Paired'] at h
        simp [translateAll, h.1, ih h.2]
  obtain ⟨bs, h1, h2⟩ := treesOf_readAll (conv hp) fun c hcm t ht =>
    cond_reads useAliases (built_wf (hb c hcm)) (hc c hcm) (hs c hcm) t ht
  refine ⟨bs, h1, ?_⟩
  have hne' : ts ≠ [] := by
    rintro rfl
    cases h2
    cases h1
    exact hne rfl
  have := readOr_spec .and (rest := []) (.inl rfl) h2 hne' (4 * (joinWith c!" AND " ts).length + 6) (Nat.le_refl _)
  simp only [List.append_nil] at this
  simp only [readCondition]
  rw [show [' '] ++ BooleanOp.and.value ++ [' '] = c!" AND " from rfl] at this
  rw [this]

end


section Examples
open Ex

namespace Ex

/-- `AND = 'x OR y'`, with a column called `AND`. -/
def tricky : Val := .cond (col c!"AND") .eq (.str c!"x') OR (y")

/-- `count(x) AS n IS NULL`. -/
def isNull : Val := .cond count .isNull .none

/-- `(AND = 'x\') OR (y' OR count(x) AS n IS NULL)`. -/
def orCond : Val := .boolCond .or .or .list [tricky, isNull]

/-- An And with a nested Or. -/
def andCond : Val := .boolCond .and .and .list [tricky, orCond]

theorem tricky_built : Built tricky :=
  .condition (U := asciiUnicode) (col c!"AND") (.op .eq) (.str c!"x') OR (y") _ (col_built _ rfl) (.op _)
    (.literal _ (.str _)) rfl

theorem isNull_built : Built isNull :=
  .condition (U := asciiUnicode) count (.op .isNull) .none _ count_built (.op _) (.literal _ .none) rfl

theorem orCond_built : Built orCond :=
  .or (U := asciiUnicode) (.list [tricky, isNull]) _
    (.list _ (by intro x hx; simp at hx; rcases hx with rfl | rfl; exact tricky_built; exact isNull_built)) rfl

theorem andCond_built : Built andCond :=
  .and (U := asciiUnicode) (.list [tricky, orCond]) _
    (.list _ (by intro x hx; simp at hx; rcases hx with rfl | rfl; exact tricky_built; exact orCond_built)) rfl

theorem smoothVal_iff {v : Val} : SmoothVal v ↔ SmoothNames v ∧ ∀ c ∈ v.children, SmoothVal c := by
  constructor
  · intro h
    exact ⟨h v .here, fun c hc x hx => h x (part_iff.2 (.inr ⟨c, hc, hx⟩))⟩
  · rintro ⟨h1, h2⟩ x hx
    rcases part_iff.1 hx with rfl | ⟨c, hc, hx⟩
    · exact h1
    · exact h2 c hc x hx

theorem col_smooth (n : Str) : SmoothVal (col n) :=
  smoothVal_iff.2 ⟨fun e h => (by cases h), by simp [col, Val.children]⟩

theorem tricky_smooth : SmoothVal tricky :=
  smoothVal_iff.2 ⟨trivial, fun c hc => by
    simp only [tricky, Val.children, List.mem_cons, List.not_mem_nil, or_false] at hc
    rcases hc with rfl | rfl
    · exact col_smooth _
    · exact smoothVal_iff.2 ⟨trivial, by simp [Val.children]⟩⟩

theorem isNull_smooth : SmoothVal isNull :=
  smoothVal_iff.2 ⟨trivial, fun c hc => by
    simp only [isNull, Val.children, List.mem_cons, List.not_mem_nil, or_false] at hc
    rcases hc with rfl | rfl
    · refine smoothVal_iff.2 ⟨show Smooth c!"count" by unfold Smooth; decide, fun c hc => ?_⟩
      simp only [count, Val.children, List.nil_append, List.mem_singleton] at hc
      subst hc; exact col_smooth _
    · exact smoothVal_iff.2 ⟨trivial, by simp [Val.children]⟩⟩

theorem orCond_smooth : SmoothVal orCond :=
  smoothVal_iff.2 ⟨trivial, fun c hc => by
    simp only [orCond, Val.children, List.mem_cons, List.not_mem_nil, or_false] at hc
    rcases hc with rfl | rfl
    · exact tricky_smooth
    · exact isNull_smooth⟩

theorem andCond_smooth : SmoothVal andCond :=
  smoothVal_iff.2 ⟨trivial, fun c hc => by
    simp only [andCond, Val.children, List.mem_cons, List.not_mem_nil, or_false] at hc
    rcases hc with rfl | rfl
    · exact tricky_smooth
    · exact orCond_smooth⟩

/-- A condition on the function called `a IS NULL OR f`, a name that the SDK accepts. -/
def sneaky : Val := .cond (.curried true c!"a IS NULL OR f" .absent [] .list [] none) .eq (.int 1)

/-- `sneaky` next to another condition. -/
def sneakyAnd : Val := .boolCond .and .and .list [.cond (col c!"b") .eq (.int 1), sneaky]

theorem sneakyAnd_built : Built sneakyAnd := by
  refine .and (U := asciiUnicode) (.list [.cond (col c!"b") .eq (.int 1), sneaky]) _ (.list _ ?_) rfl
  intro x hx
  simp only [List.mem_cons, List.not_mem_nil, or_false] at hx
  rcases hx with rfl | rfl
  · exact .condition (U := asciiUnicode) (col c!"b") (.op .eq) (.int 1) _ (col_built _ rfl) (.op _) (.literal _ (.int _)) rfl
  · refine .condition (U := asciiUnicode) (.curried true c!"a IS NULL OR f" .absent [] .list [] none) (.op .eq) (.int 1) _
      ?_ (.op _) (.literal _ (.int _)) rfl
    exact .function (U := asciiUnicode) (.str c!"a IS NULL OR f") (.list []) .none _ (.literal _ (.str _))
      (.list _ (by simp)) (.literal _ .none) rfl

end Ex

/-- The hypotheses of `C16_condition_partial` hold for a nested condition whose operands contain operator words. -/
example : Built andCond ∧ Cond andCond ∧ SmoothVal andCond ∧
    translate ⟨false, false⟩ andCond =
      .ok c!"(AND = 'x\\') OR (y' AND (AND = 'x\\') OR (y' OR count(x) AS `n` IS NULL))" ∧
    readCondition c!"(AND = 'x\\') OR (y' AND (AND = 'x\\') OR (y' OR count(x) AS `n` IS NULL))" =
      some (.node .and [.leaf c!"AND" .eq (some c!"'x\\') OR (y'"),
        .node .or [.leaf c!"AND" .eq (some c!"'x\\') OR (y'"), .leaf c!"count(x) AS `n`" .isNull none]]) :=
  ⟨andCond_built, .boolCond .., andCond_smooth, rfl, rfl⟩

/-- The hypotheses of `C16_clause_partial` hold for a list of two conditions. -/
example : ∃ t bs, ClauseText ⟨false, false⟩ .where_ (.tuple [orCond, tricky]) t ∧
    TreesOf ⟨false, false⟩ [orCond, tricky] bs ∧ readCondition t = some (group .and bs) := by
  have hb : ∀ x ∈ [orCond, tricky], Built x ∧ Cond x ∧ SmoothVal x := by
    intro x hx
    simp only [List.mem_cons, List.not_mem_nil, or_false] at hx
    rcases hx with rfl | rfl
    · exact ⟨orCond_built, .boolCond .., orCond_smooth⟩
    · exact ⟨tricky_built, .cond .., tricky_smooth⟩
  have ht : ClauseText ⟨false, false⟩ .where_ (.tuple [orCond, tricky])
      c!"(AND = 'x\\') OR (y' OR count(x) AS `n` IS NULL) AND AND = 'x\\') OR (y'" := by
    exact ⟨.tuple, _, [c!"(AND = 'x\\') OR (y' OR count(x) AS `n` IS NULL)", c!"AND = 'x\\') OR (y'"], .tuple _,
      ⟨rfl, rfl, trivial⟩, rfl⟩
  obtain ⟨bs, h1, h2⟩ := C16_clause_partial false .where_ (.inl rfl) .tuple _ _ (.tuple [orCond, tricky]) (by simp)
    (fun x hx => (hb x hx).1) (fun x hx => (hb x hx).2.1) (fun x hx => (hb x hx).2.2) _ ht
  exact ⟨_, bs, ht, h1, h2⟩

/-- **C16** does not hold for all function names: the function `a IS NULL OR f` is accepted, and an And of two
conditions with it is read as an Or. -/
theorem C16_fails_for_function_names : ∃ v t b b', Built v ∧ Cond v ∧ translate ⟨false, false⟩ v = .ok t ∧
    TreeOf ⟨false, false⟩ v b ∧ readCondition t = some b' ∧ b ≠ b' := by
  refine ⟨sneakyAnd, c!"(b = 1 AND a IS NULL OR f() = 1)",
    .node .and [.leaf c!"b" .eq (some c!"1"), .leaf c!"a IS NULL OR f()" .eq (some c!"1")],
    .node .or [.node .and [.leaf c!"b" .eq (some c!"1"), .leaf c!"a" .isNull none], .leaf c!"f()" .eq (some c!"1")],
    sneakyAnd_built, .boolCond .., rfl, ?_, rfl, by simp⟩
  exact .group _ _ _ _ _ (.cons _ _ _ _ (.binary _ _ _ _ _ (by simp) (by simp) rfl rfl)
    (.cons _ _ _ _ (.binary _ _ _ _ _ (by simp) (by simp) rfl rfl) .nil))

end Examples

end Verif
