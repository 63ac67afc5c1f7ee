import Verif.Spec.Lines
import Verif.Lemmas.Boolean

/-!
# Lemmas: where the characters of a text come from
-/

namespace Verif
open Spec

theorem Spec.ComesFrom.mono {p q : Role → Str → Prop} {c : Char} (h : ComesFrom p c) (hpq : ∀ r s, p r s → q r s) : ComesFrom q c := by
  rcases h with ⟨n, h1, h2⟩ | ⟨h0, s, h1, h2⟩
  · exact .inl ⟨n, hpq _ _ h1, h2⟩
  · exact .inr ⟨h0, s, hpq _ _ h1, h2⟩

private theorem odd_lit {c : Char} (hc : ¬ Usual c) {s : Str} (hs : (s.all fun x => decide (32 ≤ x.toNat ∧ x.toNat ≤ 126)) = true) : c ∉ s := by
  intro h
  have := List.all_eq_true.1 hs c h
  exact hc (by simpa [Usual] using this)

private theorem digit_usual {c : Char} (h : isDigit c = true) : Usual c := by
  simp only [isDigit, Bool.and_eq_true, decide_eq_true_eq, Char.le_def, UInt32.le_iff_toNat_le] at h
  have h0 : ('0' : Char).val.toNat = 48 := rfl
  have h9 : ('9' : Char).val.toNat = 57 := rfl
  simp only [Usual, Char.toNat]
  omega

private theorem float_usual {c : Char} (h : floatChar c = true) : Usual c := by
  simp only [floatChar, Bool.or_eq_true, beq_iff_eq] at h
  rcases h with (((((((h | h) | h) | h) | h) | h) | h) | h) | h
  · exact digit_usual h
  all_goals subst h; exact ⟨by decide, by decide⟩

private theorem iso_usual {c : Char} (h : isoChar c = true) : Usual c := by
  simp only [isoChar, Bool.or_eq_true, beq_iff_eq] at h
  rcases h with ((((h | h) | h) | h) | h) | h
  · exact digit_usual h
  all_goals subst h; exact ⟨by decide, by decide⟩

private theorem int_usual {i : Int} {c : Char} (h : c ∈ intStr i) : Usual c := by
  rcases intStr_chars h with h | rfl
  · exact digit_usual h
  · exact ⟨by decide, by decide⟩

private theorem strLit_from {cfg : Cfg} {s : Str} {c : Char} (hc : ¬ Usual c) (h : c ∈ strLit cfg s) : c ≠ '\n' ∧ c ∈ s := by
  refine ⟨fun e => strLit_no_newline cfg s (e ▸ h), ?_⟩
  obtain ⟨h1, h2, h3⟩ := quote_ne cfg
  have hq : c ≠ cfg.quote := by
    rintro rfl
    refine hc ?_
    unfold Cfg.quote
    split <;> exact ⟨by decide, by decide⟩
  have hb : c ≠ '\\' := fun e => hc (e ▸ ⟨by decide, by decide⟩)
  have hn : c ≠ 'n' := fun e => hc (e ▸ ⟨by decide, by decide⟩)
  unfold strLit at h
  rw [escapeStr_eq _ h1 h2] at h
  simp only [List.mem_append, List.mem_singleton, hq, false_or, or_false, List.mem_flatMap] at h
  obtain ⟨x, hx, h⟩ := h
  unfold esc1 at h
  split at h
  · simp [hb] at h
  · split at h
    · simp [hb, hq] at h
    · split at h
      · simp [hb, hn] at h
      · simp only [List.mem_singleton] at h
        exact h ▸ hx

private theorem toDateTime_usual {s : Str} (hs : ∀ c ∈ s, isoChar c = true) {c : Char} (hc : ¬ Usual c) : c ∉ toDateTimeLit s := by
  intro h
  simp only [toDateTimeLit, List.mem_append] at h
  rcases h with (h | h) | h
  · exact odd_lit hc (by decide) h
  · exact hc (iso_usual (hs c h))
  · exact odd_lit hc (by decide) h

private theorem colStr_from {cfg : Cfg} {col : ColumnObj} {c : Char} (hc : ¬ Usual c) (h : c ∈ colStr cfg col) : ∃ n, ColumnMentions col n ∧ c ∈ n := by
  unfold colStr at h
  split at h
  · rename_i e he
    split at h
    · simp only [List.mem_append, List.mem_singleton] at h
      rcases h with (h | h) | h
      · cases ha : e.alias with
        | none =>
          rw [ha] at h
          exact absurd h (odd_lit hc (by decide))
        | some a =>
          rw [ha] at h
          exact ⟨a, .inr ⟨e, he, ha⟩, h⟩
      · exact absurd (h ▸ ⟨by decide, by decide⟩) hc
      · exact ⟨_, .inl rfl, h⟩
    · exact ⟨_, .inl rfl, h⟩
  · exact ⟨_, .inl rfl, h⟩

private theorem sample_usual {f : Option PyFloat} {c : Char} (hc : ¬ Usual c) : c ∉ sampleClause f := by
  intro h
  cases f with
  | none => cases h
  | some f =>
    simp only [sampleClause] at h
    split at h
    · rcases List.mem_append.1 h with h | h
      · exact odd_lit hc (by decide) h
      · exact hc (float_usual (fixed_chars _ _ _ h))
    · rcases List.mem_append.1 h with h | h
      · exact odd_lit hc (by decide) h
      · exact hc (float_usual (fixed_chars _ _ _ h))

private theorem entity_from {cfg : Cfg} {e : EntityObj} {c : Char} (hc : ¬ Usual c) (h : c ∈ entityStr cfg e) : ∃ n, EntityMentions e n ∧ c ∈ n := by
  simp only [entityStr, List.mem_append] at h
  rcases h with (((h | h) | h) | h) | h
  · exact absurd h (odd_lit hc (by decide))
  · split at h
    · rename_i a ha
      split at h
      · rcases List.mem_append.1 h with h | h
        · exact ⟨a, .inr ha, h⟩
        · exact absurd h (odd_lit hc (by decide))
      · cases h
    · cases h
  · exact ⟨_, .inl rfl, h⟩
  · exact absurd h (sample_usual hc)
  · exact absurd h (odd_lit hc (by decide))

private theorem rel_from {cfg : Cfg} {r : RelObj} {c : Char} (hc : ¬ Usual c) (h : c ∈ relStr cfg r) : ∃ n, RelMentions r n ∧ c ∈ n := by
  simp only [relStr, List.mem_append] at h
  rcases h with (((h | h) | h) | h) | h
  · obtain ⟨n, h1, h2⟩ := entity_from hc h
    exact ⟨n, .inr (.inl h1), h2⟩
  · exact absurd h (odd_lit hc (by decide))
  · exact ⟨_, .inl rfl, h⟩
  · exact absurd h (odd_lit hc (by decide))
  · obtain ⟨n, h1, h2⟩ := entity_from hc h
    exact ⟨n, .inr (.inr h1), h2⟩

private theorem alias_from {a : Option Str} {c : Char} (hc : ¬ Usual c) (h : c ∈ aliasClause a) : ∃ n, a = some n ∧ c ∈ n := by
  cases a with
  | none => cases h
  | some a =>
    simp only [aliasClause, List.mem_append] at h
    rcases h with (h | h) | h
    · exact absurd h (odd_lit hc (by decide))
    · exact ⟨a, rfl, h⟩
    · exact absurd h (odd_lit hc (by decide))

private theorem paren_from {k : SeqKind} {ps : List Str} {c : Char} (hc : ¬ Usual c) (h : c ∈ parenClause k ps) : ∃ p ∈ ps, c ∈ p := by
  unfold parenClause at h
  split at h
  · cases h
  · simp only [List.mem_append] at h
    rcases h with (h | h) | h
    · exact absurd h (odd_lit hc (by decide))
    · rcases mem_joinWith h with h | h
      · exact absurd h (odd_lit hc (by decide))
      · exact h
    · exact absurd h (odd_lit hc (by decide))

private theorem boolStr_usual {b : Bool} {c : Char} (hc : ¬ Usual c) : c ∉ boolStr b := by
  cases b <;> exact odd_lit hc (by decide)

private theorem seq_from {cfg : Cfg} {xs : List Val} {o t : Str} {c : Char} (hc : ¬ Usual c)
    (ho : (o.all fun x => decide (32 ≤ x.toNat ∧ x.toNat ≤ 126)) = true)
    (ht : (do let _ ← allScalar xs; let ps ← translateAll cfg xs; Except.ok (o ++ joinWith c!", " ps ++ seqClose cfg)) = Except.ok (ε := Err) t)
    (h : c ∈ t) : ∃ x ∈ xs, ∃ p, translate cfg x = .ok p ∧ c ∈ p := by
  simp only [bind_eq_ok] at ht
  obtain ⟨_, _, ps, hps, ht⟩ := ht
  cases ht
  simp only [List.mem_append] at h
  rcases h with (h | h) | h
  · exact absurd h (odd_lit hc ho)
  · rcases mem_joinWith h with h | ⟨p, hp, h⟩
    · exact absurd h (odd_lit hc (by decide))
    · obtain ⟨x, hx, hx'⟩ := translateAll_mem hps p hp
      exact ⟨x, hx, p, hx', h⟩
  · exact absurd h (odd_lit hc (by unfold seqClose; split <;> decide))

theorem translate_from {cfg : Cfg} {c : Char} (hc : ¬ Usual c) (v : Val) : ∀ t, translate cfg v = .ok t → c ∈ t → ComesFrom (Mentions v) c := by
  induction v using Val.childInd with
  | step v ih =>
    intro t ht h
    cases v with
    | none => cases ht; exact absurd h (odd_lit hc (by decide))
    | bool b => cases ht; cases b <;> exact absurd h (odd_lit hc (by decide))
    | int i => cases ht; exact absurd (int_usual h) hc
    | float f => cases ht; exact absurd (float_usual (repr_chars _ _ h)) hc
    | str s =>
      cases ht
      obtain ⟨h1, h2⟩ := strLit_from hc h
      exact .inr ⟨h1, s, .str, h2⟩
    | bytes bs =>
      simp only [translate] at ht
      split at ht
      · rename_i s hs
        cases ht
        obtain ⟨h1, h2⟩ := strLit_from hc h
        exact .inr ⟨h1, s, .bytes hs, h2⟩
      · cases ht
    | date d => cases ht; exact absurd h (toDateTime_usual (dateIso_chars d) hc)
    | datetime d =>
      simp only [translate, bind_eq_ok] at ht
      obtain ⟨u, _, ht⟩ := ht
      cases ht
      exact absurd h (toDateTime_usual (datetimeIso_chars u) hc)
    | list xs =>
      rw [translate] at ht
      obtain ⟨x, hx, p, hp, h⟩ := seq_from hc (by unfold arrayOpen; split <;> decide) ht h
      exact (ih x hx p hp h).mono fun _ _ => .list hx
    | tuple xs =>
      rw [translate] at ht
      obtain ⟨x, hx, p, hp, h⟩ := seq_from hc (by unfold tupleOpen; split <;> decide) ht h
      exact (ih x hx p hp h).mono fun _ _ => .tuple hx
    | column col =>
      cases ht
      obtain ⟨n, h1, h2⟩ := colStr_from hc h
      exact .inl ⟨n, .column h1, h2⟩
    | aliased col a =>
      cases ht
      rcases List.mem_append.1 h with h | h
      · obtain ⟨n, h1, h2⟩ := colStr_from hc h
        exact .inl ⟨n, .aliased h1, h2⟩
      · obtain ⟨n, rfl, h2⟩ := alias_from hc h
        exact .inl ⟨n, .aliasedAs, h2⟩
    | curried f n ik is pk ps a =>
      simp only [translate, bind_eq_ok] at ht
      obtain ⟨i, hi, p, hp, ht⟩ := ht
      cases ht
      simp only [List.mem_append] at h
      rcases h with ((h | h) | h) | h
      · exact .inl ⟨n, .fnName, h⟩
      · obtain ⟨x, hx, h⟩ := paren_from hc h
        obtain ⟨y, hy, hy'⟩ := translateInits_mem hi x hx
        exact (ih y (by simp [Val.children, hy]) x hy' h).mono fun _ _ => .fnInit hy
      · obtain ⟨x, hx, h⟩ := paren_from hc h
        obtain ⟨y, hy, hy'⟩ := translateParams_mem hp x hx
        exact (ih y (by simp [Val.children, hy]) x hy' h).mono fun _ _ => .fnParam hy
      · obtain ⟨n', rfl, h2⟩ := alias_from hc h
        exact .inl ⟨n', .fnAs, h2⟩
    | ident n =>
      cases ht
      simp only [List.mem_append] at h
      rcases h with (h | h) | h
      · exact absurd h (odd_lit hc (by decide))
      · exact .inl ⟨n, .ident, h⟩
      · exact absurd h (odd_lit hc (by decide))
    | lam k ids b =>
      simp only [translate, bind_eq_ok] at ht
      obtain ⟨t', ht', ht⟩ := ht
      cases ht
      simp only [List.mem_append] at h
      rcases h with ((h | h) | h) | h
      · exact absurd h (odd_lit hc (by decide))
      · rcases mem_joinWith h with h | ⟨p, hp, h⟩
        · exact absurd h (odd_lit hc (by decide))
        · simp only [List.mem_map] at hp
          obtain ⟨i, hi, rfl⟩ := hp
          simp only [List.mem_append] at h
          rcases h with (h | h) | h
          · exact absurd h (odd_lit hc (by decide))
          · exact .inl ⟨i, .lamIdent hi, h⟩
          · exact absurd h (odd_lit hc (by decide))
      · exact absurd h (odd_lit hc (by decide))
      · exact (ih b (by simp [Val.children]) _ ht' h).mono fun _ _ => .lamBody
    | entity e =>
      cases ht
      obtain ⟨n, h1, h2⟩ := entity_from hc h
      exact .inl ⟨n, .entity h1, h2⟩
    | storage st =>
      cases ht
      simp only [storageStr, List.mem_append] at h
      rcases h with ((h | h) | h) | h
      · exact absurd h (odd_lit hc (by decide))
      · exact .inl ⟨_, .storage, h⟩
      · exact absurd h (sample_usual hc)
      · exact absurd h (odd_lit hc (by decide))
    | rel r =>
      cases ht
      obtain ⟨n, h1, h2⟩ := rel_from hc h
      exact .inl ⟨n, .rel h1, h2⟩
    | join k rels =>
      cases ht
      rcases mem_joinWith h with h | ⟨p, hp, h⟩
      · exact absurd h (odd_lit hc (by decide))
      · simp only [List.mem_map] at hp
        obtain ⟨r, hr, rfl⟩ := hp
        obtain ⟨n, h1, h2⟩ := rel_from hc h
        exact .inl ⟨n, .join hr h1, h2⟩
    | cond l o r =>
      simp only [translate, bind_eq_ok] at ht
      obtain ⟨rs, hrs, ls, hls, ht⟩ := ht
      cases ht
      simp only [List.mem_append] at h
      rcases h with ((h | h) | h) | h
      · exact (ih l (by simp [Val.children]) _ hls h).mono fun _ _ => .left
      · exact absurd h (odd_lit hc (by decide))
      · exact absurd h (odd_lit hc (by cases o <;> decide))
      · have hr : ∃ t', translate cfg r = .ok t' ∧ rs = ' ' :: t' ∨ rs = [] := by
          unfold rhsText at hrs
          split at hrs
          · cases hrs; exact ⟨[], .inr rfl⟩
          · split at hrs
            · simp only [bind_eq_ok] at hrs
              obtain ⟨t', h1, h2⟩ := hrs
              cases h2; exact ⟨t', .inl ⟨h1, rfl⟩⟩
            · simp only [bind_eq_ok] at hrs
              obtain ⟨b, _, hrs⟩ := hrs
              split at hrs
              · simp only [bind_eq_ok] at hrs
                obtain ⟨t', h1, h2⟩ := hrs
                cases h2; exact ⟨t', .inl ⟨h1, rfl⟩⟩
              · cases hrs
        obtain ⟨t', ⟨h1, rfl⟩ | rfl⟩ := hr
        · rcases List.mem_cons.1 h with h | h
          · exact absurd (h ▸ ⟨by decide, by decide⟩) hc
          · exact (ih r (by simp [Val.children]) _ h1 h).mono fun _ _ => .right
        · cases h
    | boolCond cls op k cs =>
      simp only [translate, bind_eq_ok] at ht
      obtain ⟨ps, hps, ht⟩ := ht
      cases ht
      simp only [List.mem_append] at h
      rcases h with (h | h) | h
      · exact absurd h (odd_lit hc (by decide))
      · rcases mem_joinWith h with h | ⟨p, hp, h⟩
        · exact absurd h (odd_lit hc (by cases op <;> decide))
        · obtain ⟨x, hx, hx'⟩ := translateAll_mem hps p hp
          exact (ih x hx p hx' h).mono fun _ _ => .item hx
      · exact absurd h (odd_lit hc (by decide))
    | orderby e d =>
      simp only [translate, bind_eq_ok] at ht
      obtain ⟨t', ht', ht⟩ := ht
      cases ht
      simp only [List.mem_append] at h
      rcases h with (h | h) | h
      · exact (ih e (by simp [Val.children]) _ ht' h).mono fun _ _ => .orderby
      · exact absurd h (odd_lit hc (by decide))
      · exact absurd h (odd_lit hc (by cases d <;> decide))
    | limitby k cols n =>
      cases ht
      simp only [List.mem_append] at h
      rcases h with (h | h) | h
      · cases n with
        | int i => exact absurd (int_usual h) hc
        | bool b => exact absurd h (boolStr_usual hc)
      · exact absurd h (odd_lit hc (by decide))
      · rcases mem_joinWith h with h | ⟨p, hp, h⟩
        · exact absurd h (odd_lit hc (by decide))
        · simp only [List.mem_map] at hp
          obtain ⟨col, hcol, rfl⟩ := hp
          obtain ⟨n, h1, h2⟩ := colStr_from hc h
          exact .inl ⟨n, .limitby hcol h1, h2⟩
    | limit n => cases ht; exact absurd (int_usual h) hc
    | offset n => cases ht; exact absurd (int_usual h) hc
    | granularity n => cases ht; exact absurd (int_usual h) hc
    | totals b => cases ht; exact absurd h (boolStr_usual hc)
    | _ => cases ht

/-! ### Clauses and queries -/

theorem hasItem_of {f : Field} {b : Body} {sep : Str} (hf : f.itemSep = some sep) {k : SeqKind} {xs : List Val} (h : SeqOf (f.get b) k xs) {x : Val}
    (hx : x ∈ xs) : HasItem b x := by
  refine .inl ⟨f.get b, ?_, k, xs, h, hx⟩
  cases f <;> first | (cases hf; done) | simp [Field.get]

theorem hasItem_single {f : Field} {b : Body} (hf : f.itemSep = none) : HasItem b (f.get b) := by
  refine .inr ?_
  cases f <;> first | (cases hf; done) | simp [Field.get]

theorem paired_mem {cfg : Cfg} : ∀ {xs : List Val} {ts : List Str}, ClauseText.Paired' cfg xs ts → ∀ t ∈ ts, ∃ x ∈ xs, translate cfg x = .ok t
  | [], [], _, t, ht => by cases ht
  | x :: xs, t' :: ts, h, t, ht => by
    rcases List.mem_cons.1 ht with rfl | ht
    · exact ⟨x, List.mem_cons_self, h.1⟩
    · obtain ⟨y, hy, e⟩ := paired_mem h.2 t ht
      exact ⟨y, List.mem_cons_of_mem _ hy, e⟩
  | [], _ :: _, h, _, _ => h.elim
  | _ :: _, [], h, _, _ => h.elim

theorem clause_from {cfg : Cfg} {f : Field} {b : Body} {t : Str} (h : ClauseText cfg f (f.get b) t) {c : Char} (hc : ¬ Usual c) (hm : c ∈ t) :
    ∃ x, HasItem b x ∧ ComesFrom (Mentions x) c := by
  unfold ClauseText at h
  cases hf : f.itemSep with
  | none =>
    rw [hf] at h
    exact ⟨f.get b, hasItem_single hf, translate_from hc _ _ h hm⟩
  | some sep =>
    rw [hf] at h
    obtain ⟨k, xs, ts, hk, hp, rfl⟩ := h
    rcases mem_joinWith hm with hm | ⟨p, hp', hm⟩
    · refine absurd hm (odd_lit hc ?_)
      cases f <;> cases hf <;> decide
    · obtain ⟨x, hx, e⟩ := paired_mem hp p hp'
      exact ⟨x, hasItem_of hf hk hx, translate_from hc _ _ e hm⟩

theorem keyword_usual (f : Field) {c : Char} (hc : ¬ Usual c) : c ∉ f.keyword ++ c!" " := by
  cases f <;> exact odd_lit hc (by decide)

/-- The lines other than the match. -/
theorem lines_from {cfg : Cfg} {b : Body} {head : Str} {txt : Field → Str}
    (ht : ∀ f : Field, f.isSet b = true → ClauseText cfg f (f.get b) (txt f)) {l : Str} (hl : l ∈ clauseTexts head b txt) {c : Char} (hc : ¬ Usual c)
    (hm : c ∈ l) : l = head ∨ ∃ x, HasItem b x ∧ ComesFrom (Mentions x) c := by
  rcases List.mem_cons.1 hl with rfl | hl
  · exact .inl rfl
  · right
    simp only [List.mem_map, List.mem_filter] at hl
    obtain ⟨f, ⟨_, hs⟩, rfl⟩ := hl
    rcases List.mem_append.1 hm with hm | hm
    · exact absurd hm (keyword_usual f hc)
    · exact clause_from (ht f hs) hc hm

theorem head_usual {c : Char} (hc : ¬ Usual c) : c ∉ c!"MATCH " ∧ c ∉ c!"MATCH { " ∧ c ∉ c!" }" ∧ c ∉ c!" " :=
  ⟨odd_lit hc (by decide), odd_lit hc (by decide), odd_lit hc (by decide), odd_lit hc (by decide)⟩

theorem printed_from {sep : Str} {q : Query} {t : Str} (h : Printed sep q t) {c : Char} (hc : ¬ Usual c) :
    ∃ lines : List Str, t = joinWith sep lines ∧ lines.length = 1 + (clauseOrder.filter (·.isSet q.body)).length ∧
      ∀ l ∈ lines, c ∈ l → ComesFrom (QueryMentions q) c := by
  induction h with
  | base sep m b mt txt hm ht =>
    refine ⟨_, rfl, by simp [clauseTexts, Query.body]; omega, fun l hl hcl => ?_⟩
    rcases lines_from ht hl hc hcl with rfl | ⟨x, hx, h⟩
    · rcases List.mem_append.1 hcl with h | h
      · exact absurd h (head_usual hc).1
      · exact (translate_from hc _ _ hm h).mono fun _ _ => .matched
    · exact h.mono fun _ _ hs => .clause (q := .base m b) hx hs
  | nested sep q b it txt hq ht ih =>
    refine ⟨_, rfl, by simp [clauseTexts, Query.body]; omega, fun l hl hcl => ?_⟩
    rcases lines_from ht hl hc hcl with rfl | ⟨x, hx, h⟩
    · simp only [List.mem_append] at hcl
      rcases hcl with (h | h) | h
      · exact absurd h (head_usual hc).2.1
      · obtain ⟨ls, rfl, _, hls⟩ := ih
        rcases mem_joinWith h with h | ⟨p, hp, h⟩
        · exact absurd h (head_usual hc).2.2.2
        · exact (hls p hp h).mono fun _ _ => .inner
      · exact absurd h (head_usual hc).2.2.1
    · exact h.mono fun _ _ hs => .clause (q := .nested q b) hx hs

/-! ### The optimized conditions -/

theorem collectRhs_from {l : Val} : ∀ {cs rs : List Val}, collectRhs l cs = some rs → ∀ x ∈ rs, ∃ c ∈ cs, ∀ r s, Mentions x r s → Mentions c r s
  | [], rs, h, x, hx => by cases h; cases hx
  | c :: cs, rs, h, x, hx => by
    cases c with
    | cond l' o r' =>
      simp only [collectRhs] at h
      split at h
      · cases h
      · simp only [Option.map_eq_some_iff] at h
        obtain ⟨rs', h1, rfl⟩ := h
        rcases List.mem_cons.1 hx with rfl | hx
        · exact ⟨_, List.mem_cons_self, fun _ _ => .right⟩
        · obtain ⟨y, hy, e⟩ := collectRhs_from h1 x hx
          exact ⟨y, List.mem_cons_of_mem _ hy, e⟩
    | _ => cases h

theorem optimizeCondition_from {c n : Val} (h : optimizeCondition c = .ok (some n)) (r : Role) (s : Str) (hn : Mentions n r s) : Mentions c r s := by
  unfold optimizeCondition at h
  split at h
  · rename_i cls k cs
    split at h
    · rename_i l r' rest
      split at h
      · cases h
      · rename_i rs hrs
        simp only [bind_eq_ok] at h
        obtain ⟨new, h1, h2⟩ := h
        cases h2
        simp only [mkCondition, bind_eq_ok] at h1
        obtain ⟨o, _, h1⟩ := h1
        cases h1
        cases hn with
        | left hn => exact .item List.mem_cons_self (.left hn)
        | right hn =>
          cases hn with
          | list hx hn =>
            rcases List.mem_cons.1 hx with rfl | hx
            · exact .item List.mem_cons_self (.right hn)
            · obtain ⟨y, hy, e⟩ := collectRhs_from hrs _ hx
              exact .item (List.mem_cons_of_mem _ hy) (e _ _ hn)
    · cases h
  · cases h

theorem optimizeLoop_from : ∀ {xs new : List Val} {o : Bool}, optimizeLoop xs = .ok (new, o) →
    ∀ x ∈ new, ∃ y ∈ xs, ∀ r s, Mentions x r s → Mentions y r s
  | [], new, o, h, x, hx => by cases h; cases hx
  | c :: cs, new, o, h, x, hx => by
    simp only [optimizeLoop, bind_eq_ok] at h
    obtain ⟨a, ha, ⟨r1, r2⟩, hr, h⟩ := h
    have hrest : ∀ x ∈ r1, ∃ y ∈ c :: cs, ∀ r s, Mentions x r s → Mentions y r s := by
      intro x hx
      obtain ⟨y, hy, e⟩ := optimizeLoop_from hr x hx
      exact ⟨y, List.mem_cons_of_mem _ hy, e⟩
    cases a with
    | none =>
      cases h
      rcases List.mem_cons.1 hx with rfl | hx
      · exact ⟨_, List.mem_cons_self, fun _ _ h => h⟩
      · exact hrest x hx
    | some n =>
      cases h
      rcases List.mem_cons.1 hx with rfl | hx
      · exact ⟨c, List.mem_cons_self, optimizeCondition_from ha⟩
      · exact hrest x hx

end Verif
