import Verif.Lemmas.Regex
import Verif.Lemmas.MqlEval

/-!
# What the regular expressions of the MQL grammar match
-/

namespace Verif

/-- All members are the same, and there is one. -/
theorem head_of_unique {α : Type} {l : List α} {a : α} (h : a ∈ l) (hu : ∀ b ∈ l, b = a) : l.head? = some a := by
  cases l with
  | nil => simp at h
  | cons b l => simp [hu b (by simp)]

theorem head_flatMap {α β : Type} {l : List α} {f : α → List β} {a : α} {b : β} (h : l.head? = some a)
    (hf : (f a).head? = some b) : (l.flatMap f).head? = some b := by
  cases l with
  | nil => simp at h
  | cons x l =>
    simp only [List.head?_cons, Option.some.injEq] at h
    subst h
    simp [List.flatMap_cons, List.head?_append, hf]

/-- A text does not start with a character of the class. -/
def NotAt (p : Char → Bool) (s : Str) : Prop := ∀ c ∈ s.head?, p c = false

theorem NotAt.nil {p : Char → Bool} : NotAt p [] := by simp [NotAt]

theorem NotAt.cons {p : Char → Bool} {c : Char} {s : Str} (h : p c = false) : NotAt p (c :: s) := by
  simpa [NotAt] using h

theorem notAt_append {p : Char → Bool} {a b : Str} (ha : a ≠ []) (h : NotAt p a) : NotAt p (a ++ b) := by
  cases a with
  | nil => exact absurd rfl ha
  | cons c a => exact h

theorem starRun_cls_head {p : Char → Bool} : ∀ (u r : Str) (n : Nat), (∀ c ∈ u, p c = true) → NotAt p r → (u ++ r).length ≤ n →
    (starRun (Regex.cls p).run n (u ++ r)).head? = some r := by
  intro u
  induction u with
  | nil =>
    intro r n _ hr _
    cases n with
    | zero => simp [starRun]
    | succ n =>
      cases r with
      | nil => simp [starRun, Regex.run]
      | cons c cs =>
        have : p c = false := hr c (by simp)
        simp [starRun, Regex.run, this]
  | cons c u ih =>
    intro r n hu hr hn
    cases n with
    | zero => simp at hn
    | succ n =>
      simp only [List.mem_cons, forall_eq_or_imp] at hu
      have := ih r n hu.2 hr (by simp at hn ⊢; omega)
      have h1 : (Regex.cls p).run (c :: (u ++ r)) = [u ++ r] := by simp [Regex.run, hu.1]
      rw [List.cons_append, starRun, h1]
      simp [List.head?_append, this]

theorem star_head {p : Char → Bool} {u r : Str} (hu : ∀ c ∈ u, p c = true) (hr : NotAt p r) :
    ((Regex.star (.cls p)).run (u ++ r)).head? = some r := starRun_cls_head u r _ hu hr (Nat.le_refl _)

theorem plus_head {p : Char → Bool} {u r : Str} (hne : u ≠ []) (hu : ∀ c ∈ u, p c = true) (hr : NotAt p r) :
    ((Regex.cls p).plus.run (u ++ r)).head? = some r := by
  cases u with
  | nil => exact absurd rfl hne
  | cons c u =>
    simp only [List.mem_cons, forall_eq_or_imp] at hu
    have h := star_head hu.2 hr
    have h1 : (Regex.cls p).run (c :: u ++ r) = [u ++ r] := by simp [Regex.run, hu.1]
    show (((Regex.cls p).run (c :: u ++ r)).flatMap (Regex.star (.cls p)).run).head? = _
    rw [h1]
    simpa using h

theorem plus_fail {p : Char → Bool} {s : Str} (hs : NotAt p s) : (Regex.cls p).plus.run s = [] := by
  cases s with
  | nil => simp [Regex.plus, Regex.run]
  | cons c cs =>
    have : p c = false := hs c (by simp)
    simp [Regex.plus, Regex.run, this]

theorem run_eq_nil {e : Regex} {s : Str} (h : ∀ t, t ∉ e.run s) : e.run s = [] := List.eq_nil_iff_forall_not_mem.2 h

/-! ### Quoted strings -/

/-- The text after the closing quote, scanning as the regular expression does. -/
def scanRest : Str → Option Str
  | [] => none
  | '"' :: r => some r
  | '\\' :: [] => none
  | '\\' :: c :: r => if c = '\n' then none else scanRest r
  | _ :: r => scanRest r

theorem scanRest_plain {c : Char} {r : Str} (h : isPlainQuoted c = true) : scanRest (c :: r) = scanRest r := by
  simp only [isPlainQuoted, Bool.not_eq_true', Bool.or_eq_false_iff, beq_eq_false_iff_ne, ne_eq] at h
  rw [scanRest]
  · exact h.1
  · rintro rfl; exact absurd rfl h.2
  · intro c' r' hc; exact absurd hc h.2

theorem scanRest_plains {u r : Str} (h : ∀ c ∈ u, isPlainQuoted c = true) : scanRest (u ++ r) = scanRest r := by
  induction u with
  | nil => rfl
  | cons c u ih =>
    simp only [List.mem_cons, forall_eq_or_imp] at h
    rw [List.cons_append, scanRest_plain h.1, ih h.2]

/-- `\\.[^"\\]*`. -/
def quotedGroup : Regex := .seq (.chr '\\') (.seq (.cls (· != '\n')) (.star (.cls isPlainQuoted)))

theorem mem_quotedGroup {s t : Str} : t ∈ quotedGroup.run s ↔
    ∃ c u, s = '\\' :: c :: (u ++ t) ∧ c ≠ '\n' ∧ ∀ x ∈ u, isPlainQuoted x = true := by
  simp only [quotedGroup, mem_run_seq, mem_run_chr, mem_run_cls, mem_run_star (OneChar.cls _)]
  constructor
  · rintro ⟨m, rfl, m', ⟨c, rfl, hc⟩, u, rfl, hu⟩
    exact ⟨c, u, rfl, by simpa using hc, hu⟩
  · rintro ⟨c, u, rfl, hc, hu⟩
    exact ⟨_, rfl, _, ⟨c, rfl, by simpa using hc⟩, u, rfl, hu⟩

theorem scanRest_group {s t : Str} (h : t ∈ quotedGroup.run s) : scanRest s = scanRest t := by
  obtain ⟨c, u, rfl, hc, hu⟩ := mem_quotedGroup.1 h
  rw [scanRest, if_neg hc, scanRest_plains hu]

theorem scanRest_groups : ∀ n s t, t ∈ starRun quotedGroup.run n s → scanRest s = scanRest t := by
  intro n
  induction n with
  | zero => intro s t h; simp only [starRun, List.mem_singleton] at h; rw [h]
  | succ n ih =>
    intro s t h
    simp only [starRun, List.mem_append, List.mem_flatMap, List.mem_filter, List.mem_singleton] at h
    rcases h with ⟨m, ⟨hm, _⟩, ht⟩ | rfl
    · rw [scanRest_group hm, ih m t ht]
    · rfl

theorem mem_quotedRe {s t : Str} : t ∈ quotedRe.run s ↔
    ∃ u m, s = '"' :: (u ++ m) ∧ (∀ c ∈ u, isPlainQuoted c = true) ∧ '"' :: t ∈ (Regex.star quotedGroup).run m := by
  have he : quotedRe = .seq (.chr '"') (.seq (.star (.cls isPlainQuoted)) (.seq (.star quotedGroup) (.chr '"'))) := rfl
  simp only [he, mem_run_seq, mem_run_chr, mem_run_star (OneChar.cls _)]
  constructor
  · rintro ⟨m, rfl, m', ⟨u, rfl, hu⟩, m'', h, rfl⟩
    exact ⟨u, m', rfl, hu, h⟩
  · rintro ⟨u, m, rfl, hu, h⟩
    exact ⟨_, rfl, _, ⟨u, rfl, hu⟩, _, h, rfl⟩

theorem starRun_mono {f : Str → List Str} : ∀ n s t, t ∈ starRun f n s → t ∈ starRun f (n + 1) s := by
  intro n
  induction n with
  | zero => intro s t h; simp only [starRun, List.mem_singleton] at h; subst h; simp [starRun]
  | succ n ih =>
    intro s t h
    rw [starRun] at h ⊢
    simp only [List.mem_append, List.mem_flatMap, List.mem_filter, List.mem_singleton] at h ⊢
    rcases h with ⟨m, hm, ht⟩ | rfl
    · exact .inl ⟨m, hm, ih m t ht⟩
    · exact .inr rfl

theorem starRun_mono' {f : Str → List Str} {n m : Nat} (h : n ≤ m) {s t : Str} (ht : t ∈ starRun f n s) : t ∈ starRun f m s := by
  induction h with
  | refl => exact ht
  | step _ ih => exact starRun_mono _ _ _ ih

theorem mem_star_step {e : Regex} {s m t : Str} (h : m ∈ e.run s) (hl : m.length < s.length) (ht : t ∈ (Regex.star e).run m) :
    t ∈ (Regex.star e).run s := by
  simp only [Regex.run] at ht ⊢
  cases hs : s.length with
  | zero => omega
  | succ n =>
    simp only [starRun, List.mem_append, List.mem_flatMap, List.mem_filter]
    exact .inl ⟨m, ⟨h, by simpa using hl⟩, starRun_mono' (by omega) ht⟩

theorem mem_star_refl {e : Regex} {s : Str} : s ∈ (Regex.star e).run s := by
  simp only [Regex.run]
  cases s.length <;> simp [starRun]

theorem scanRest_sound {s t : Str} (h : t ∈ quotedRe.run ('"' :: s)) : scanRest s = some t := by
  obtain ⟨u, m, hs, hu, hm⟩ := mem_quotedRe.1 h
  simp only [List.cons.injEq, true_and] at hs
  subst hs
  rw [scanRest_plains hu, scanRest_groups _ _ _ hm]
  rfl

theorem scanRest_complete : ∀ (n : Nat) (s t : Str), s.length ≤ n → scanRest s = some t →
    ∃ u m, s = u ++ m ∧ (∀ c ∈ u, isPlainQuoted c = true) ∧ '"' :: t ∈ (Regex.star quotedGroup).run m := by
  intro n
  induction n with
  | zero =>
    intro s t hs h
    have : s = [] := by simpa using hs
    subst this
    simp [scanRest] at h
  | succ n ih =>
    intro s t hs h
    cases s with
    | nil => simp [scanRest] at h
    | cons c s =>
      simp only [List.length_cons] at hs
      by_cases hc : isPlainQuoted c = true
      · rw [scanRest_plain hc] at h
        obtain ⟨u, m, rfl, hu, hm⟩ := ih s t (by omega) h
        refine ⟨c :: u, m, rfl, ?_, hm⟩
        simp only [List.mem_cons, forall_eq_or_imp]
        exact ⟨hc, hu⟩
      · simp only [isPlainQuoted, Bool.not_eq_true', Bool.or_eq_true, beq_iff_eq, Bool.not_eq_false] at hc
        refine ⟨[], c :: s, rfl, by simp, ?_⟩
        rcases hc with rfl | rfl
        · simp only [scanRest, Option.some.injEq] at h
          subst h
          exact mem_star_refl
        · cases s with
          | nil => simp [scanRest] at h
          | cons d s =>
            rw [scanRest] at h
            split at h
            · cases h
            · rename_i hd
              obtain ⟨u, m, rfl, hu, hm⟩ := ih s t (by simp at hs ⊢; omega) h
              refine mem_star_step (m := m) (mem_quotedGroup.2 ⟨d, u, rfl, hd, hu⟩) ?_ hm
              simp
              omega

theorem quotedRe_head {s t : Str} (h : scanRest s = some t) : (quotedRe.run ('"' :: s)).head? = some t := by
  refine head_of_unique ?_ ?_
  · obtain ⟨u, m, rfl, hu, hm⟩ := scanRest_complete _ s t (Nat.le_refl _) h
    exact mem_quotedRe.2 ⟨u, m, rfl, hu, hm⟩
  · intro b hb
    have := scanRest_sound hb
    rw [h] at this
    exact (Option.some.inj this).symm

theorem quotedRe_fail {s : Str} (h : NotAt (· == '"') s) : quotedRe.run s = [] := by
  refine run_eq_nil fun t ht => ?_
  obtain ⟨u, m, rfl, _⟩ := mem_quotedRe.1 ht
  exact absurd (h '"' (by simp)) (by decide)

theorem scanRest_esc (c : Char) (r : Str) : scanRest (esc1 '"' c ++ r) = scanRest r := by
  rw [esc1]
  by_cases hb : c = '\\'
  · subst hb; simp [scanRest]
  · by_cases hq : c = '"'
    · subst hq; simp [scanRest]
    · by_cases hn : c = '\n'
      · subst hn; simp [scanRest]
      · simp only [hb, hq, hn, if_false, List.cons_append, List.nil_append]
        exact scanRest_plain (by simp [isPlainQuoted, hb, hq])

/-- The escaped text of a string is scanned to its end. -/
theorem scanRest_escaped (s r : Str) : scanRest (escapeStr '"' s ++ '"' :: r) = some r := by
  rw [escapeStr_eq _ (by decide) (by decide)]
  induction s with
  | nil => rfl
  | cons c s ih => rw [List.flatMap_cons, List.append_assoc, scanRest_esc, ih]

/-- The literal of a string is matched in full and no further. -/
theorem quotedRe_strLit (s r : Str) : (quotedRe.run (strLit .mql s ++ r)).head? = some r := by
  have : strLit .mql s ++ r = '"' :: (escapeStr '"' s ++ '"' :: r) := by simp [strLit, Cfg.quote, Cfg.mql]
  rw [this]
  exact quotedRe_head (scanRest_escaped s r)

/-! ### Unescaping -/

/-- The characters that the parser leaves escaped. -/
theorem unescapeQuotes_esc (s : Str) : unescapeQuotes (s.flatMap (esc1 '"')) =
    s.flatMap fun c => if c = '\\' then ['\\', '\\'] else if c = '\n' then ['\\', 'n'] else [c] := by
  have hplain : ∀ (c : Char) (r : Str), (c ≠ '\\' ∨ ∀ x, r ≠ '"' :: x) → unescapeQuotes (c :: r) = c :: unescapeQuotes r := by
    intro c r h
    rw [unescapeQuotes]
    rintro r' rfl rfl
    rcases h with h | h
    · exact h rfl
    · exact h r' rfl
  have hhead : ∀ (s : Str) x, s.flatMap (esc1 '"') ≠ '"' :: x := by
    intro s x
    cases s with
    | nil => simp
    | cons c s =>
      rw [List.flatMap_cons, esc1]
      split
      · simp
      · split
        · simp
        · split
          · simp
          · rename_i h1 h2 h3; simp only [List.cons_append, List.nil_append, ne_eq, List.cons.injEq]; exact fun h => h2 h.1
  induction s with
  | nil => rfl
  | cons c s ih =>
    rw [List.flatMap_cons, List.flatMap_cons, ← ih, esc1]
    by_cases hb : c = '\\'
    · subst hb
      simp only [if_true, List.cons_append, List.nil_append]
      rw [hplain _ _ (.inr (by simp)), hplain _ _ (.inr (hhead s))]
    · by_cases hq : c = '"'
      · subst hq
        simp [unescapeQuotes]
      · by_cases hn : c = '\n'
        · subst hn
          simp only [if_neg hb, if_neg hq, if_true, List.cons_append, List.nil_append]
          rw [hplain _ _ (.inr (by simp)), hplain _ _ (.inl (by decide))]
        · simp only [if_neg hb, if_neg hq, if_neg hn, List.cons_append, List.nil_append]
          rw [hplain _ _ (.inl hb)]

/-- What the parser makes of the literal of a string. -/
theorem unescapeQuotes_strLit (s : Str) : unescapeQuotes (slice1m1 (strLit .mql s)) =
    s.flatMap fun c => if c = '\\' then ['\\', '\\'] else if c = '\n' then ['\\', 'n'] else [c] := by
  have : slice1m1 (strLit .mql s) = escapeStr '"' s := by
    simp [slice1m1, strLit, Cfg.quote, Cfg.mql]
  rw [this, escapeStr_eq _ (by decide) (by decide), unescapeQuotes_esc]

theorem stays_escaped (s : Str) :
    (s.flatMap fun c => if c = '\\' then ['\\', '\\'] else if c = '\n' then ['\\', 'n'] else [c]) = s ↔ '\\' ∉ s ∧ '\n' ∉ s := by
  constructor
  · intro h
    have hlen : ∀ s : Str, s.length ≤
        (s.flatMap fun c => if c = '\\' then ['\\', '\\'] else if c = '\n' then ['\\', 'n'] else [c]).length := by
      intro s
      induction s with
      | nil => simp
      | cons c s ih =>
        rw [List.flatMap_cons, List.length_append, List.length_cons]
        split
        · simp only [List.length_cons, List.length_nil]; omega
        · split <;> simp only [List.length_cons, List.length_nil] <;> omega
    induction s with
    | nil => simp
    | cons c s ih =>
      rw [List.flatMap_cons] at h
      by_cases hb : c = '\\'
      · have h := congrArg List.length h
        simp only [if_pos hb, List.length_append, List.length_cons, List.length_nil] at h
        have := hlen s
        omega
      · by_cases hn : c = '\n'
        · have h := congrArg List.length h
          simp only [if_neg hb, if_pos hn, List.length_append, List.length_cons, List.length_nil] at h
          have := hlen s
          omega
        · simp only [if_neg hb, if_neg hn, List.cons_append, List.nil_append, List.cons.injEq, true_and] at h
          have := ih h
          simp only [List.mem_cons, not_or]
          exact ⟨⟨Ne.symm hb, this.1⟩, Ne.symm hn, this.2⟩
  · intro ⟨h1, h2⟩
    induction s with
    | nil => rfl
    | cons c s ih =>
      simp only [List.mem_cons, not_or] at h1 h2
      rw [List.flatMap_cons, if_neg (Ne.symm h1.1), if_neg (Ne.symm h2.1), ih h1.2 h2.2]
      rfl

end Verif
