import Verif.Py.Peg

/-!
# The grammar engine: more calls do not change an outcome, rests are suffixes, and how many calls suffice
-/

namespace Verif

variable {ρ α β : Type}

theorem Match.map_ne_out {f : α → Str → β} {m : Match α} : m.map f ≠ .out ↔ m ≠ .out := by
  cases m <;> simp [Match.map]

theorem Match.cons_ne_out {a : α} {m : Match (List α)} : m.cons a ≠ .out ↔ m ≠ .out := by
  cases m <;> simp [Match.cons]

theorem Match.map_eq_ok {f : α → Str → β} {m : Match α} {b : β} {r : Str} :
    m.map f = .ok b r ↔ ∃ a, m = .ok a r ∧ f a r = b := by
  cases m with
  | out => simp [Match.map]
  | fail => simp [Match.map]
  | ok a r' =>
    simp only [Match.map, Match.ok.injEq]
    constructor
    · rintro ⟨h, rfl⟩; exact ⟨a, ⟨rfl, rfl⟩, h⟩
    · rintro ⟨_, ⟨rfl, rfl⟩, h⟩; exact ⟨h, rfl⟩

theorem Match.map_eq_fail {f : α → Str → β} {m : Match α} : m.map f = .fail ↔ m = .fail := by
  cases m <;> simp [Match.map]

theorem Match.cons_eq_ok {a : α} {m : Match (List α)} {b : List α} {r : Str} :
    m.cons a = .ok b r ↔ ∃ as, m = .ok as r ∧ b = a :: as := by
  cases m with
  | out => simp [Match.cons]
  | fail => simp [Match.cons]
  | ok as r' =>
    simp only [Match.cons, Match.ok.injEq]
    constructor
    · rintro ⟨h, rfl⟩; exact ⟨as, ⟨rfl, rfl⟩, h.symm⟩
    · rintro ⟨_, ⟨rfl, rfl⟩, h⟩; exact ⟨h.symm, rfl⟩

theorem Match.cons_eq_fail {a : α} {m : Match (List α)} : m.cons a = .fail ↔ m = .fail := by
  cases m <;> simp [Match.cons]

/-- `f'` gives the outcomes of `f` except where `f` runs out. -/
def Extends {γ : Type} (f f' : γ → Match α) : Prop := ∀ x, f x ≠ .out → f' x = f x

theorem seqWith_extends {f f' : Peg ρ → Str → Match α} (h : ∀ p s, f p s ≠ .out → f' p s = f p s) :
    ∀ ps s, seqWith f ps s ≠ .out → seqWith f' ps s = seqWith f ps s := by
  intro ps
  induction ps with
  | nil => intros; rfl
  | cons p ps ih =>
    intro s hs
    simp only [seqWith] at hs ⊢
    have hp : f p s ≠ .out := by intro hp; simp [hp] at hs
    rw [h p s hp]
    cases hf : f p s with
    | out => exact absurd hf hp
    | fail => rfl
    | ok a r =>
      simp only [hf] at hs ⊢
      rw [ih r (Match.cons_ne_out.1 hs)]

theorem altWith_extends {f f' : Peg ρ → Str → Match α} (h : ∀ p s, f p s ≠ .out → f' p s = f p s) :
    ∀ ps s, altWith f ps s ≠ .out → altWith f' ps s = altWith f ps s := by
  intro ps
  induction ps with
  | nil => intros; rfl
  | cons p ps ih =>
    intro s hs
    simp only [altWith] at hs ⊢
    have hp : f p s ≠ .out := by intro hp; simp [hp] at hs
    rw [h p s hp]
    cases hf : f p s with
    | out => exact absurd hf hp
    | fail => simp only [hf] at hs ⊢; exact ih s hs
    | ok a r => rfl

theorem starWith_extends {f f' : Str → Match α} (h : ∀ s, f s ≠ .out → f' s = f s) :
    ∀ k s, starWith f k s ≠ .out → starWith f' k s = starWith f k s := by
  intro k
  induction k with
  | zero => intros; rfl
  | succ k ih =>
    intro s hs
    cases s with
    | nil => rfl
    | cons c cs =>
      simp only [starWith] at hs ⊢
      have hp : f (c :: cs) ≠ .out := by intro hp; simp [hp] at hs
      rw [h _ hp]
      cases hf : f (c :: cs) with
      | out => exact absurd hf hp
      | fail => rfl
      | ok a r =>
        simp only [hf] at hs ⊢
        split
        · rename_i hl
          simp only [hl, if_true] at hs
          rw [ih r (Match.cons_ne_out.1 hs)]
        · rfl

theorem optWith_extends {f f' : Str → Match α} (h : ∀ s, f s ≠ .out → f' s = f s) (s : Str)
    (hs : optWith f s ≠ .out) : optWith f' s = optWith f s := by
  cases s with
  | nil => rfl
  | cons c cs =>
    simp only [optWith] at hs ⊢
    have hp : f (c :: cs) ≠ .out := by intro hp; simp [hp] at hs
    rw [h _ hp]

/-- One more call does not change an outcome. -/
theorem pegRun_succ (g : ρ → Peg ρ) : ∀ n p s, pegRun g n p s ≠ .out → pegRun g (n + 1) p s = pegRun g n p s := by
  intro n
  induction n with
  | zero => intro p s h; exact absurd rfl h
  | succ n ih =>
    intro p s h
    cases p with
    | lit l => rfl
    | re e => rfl
    | seq ps =>
      simp only [pegRun] at h
      rw [pegRun, pegRun, seqWith_extends ih ps s (Match.map_ne_out.1 h)]
    | alt ps =>
      simp only [pegRun] at h
      rw [pegRun, pegRun, altWith_extends ih ps s (Match.map_ne_out.1 h)]
    | star q =>
      simp only [pegRun] at h
      rw [pegRun, pegRun, starWith_extends (ih q) _ s (Match.map_ne_out.1 h)]
    | opt q =>
      simp only [pegRun] at h
      rw [pegRun, pegRun, optWith_extends (ih q) s (Match.map_ne_out.1 h)]
    | rule r =>
      simp only [pegRun] at h
      rw [pegRun, pegRun, ih _ s (Match.map_ne_out.1 h)]

/-- More calls do not change an outcome. -/
theorem pegRun_mono (g : ρ → Peg ρ) {n m : Nat} (hnm : n ≤ m) {p : Peg ρ} {s : Str} (h : pegRun g n p s ≠ .out) :
    pegRun g m p s = pegRun g n p s := by
  induction hnm with
  | refl => rfl
  | step _ ih => rw [pegRun_succ g _ p s (by rw [ih]; exact h), ih]

/-! ### Rests are suffixes -/

theorem starRun_suffix {f : Str → List Str} (hf : ∀ s, ∀ t ∈ f s, t <:+ s) : ∀ n s, ∀ t ∈ starRun f n s, t <:+ s := by
  intro n
  induction n with
  | zero => intro s t h; simp only [starRun, List.mem_singleton] at h; subst h; exact List.suffix_refl _
  | succ n ih =>
    intro s t h
    simp only [starRun, List.mem_append, List.mem_flatMap, List.mem_filter, List.mem_singleton] at h
    rcases h with ⟨m, ⟨hm, _⟩, ht⟩ | rfl
    · exact (ih m t ht).trans (hf s m hm)
    · exact List.suffix_refl _

theorem Regex.run_suffix (r : Regex) : ∀ s, ∀ t ∈ r.run s, t <:+ s := by
  induction r with
  | eps => intro s t h; simp only [Regex.run, List.mem_singleton] at h; subst h; exact List.suffix_refl _
  | cls p =>
    intro s t h
    cases s with
    | nil => simp [Regex.run] at h
    | cons c cs =>
      simp only [Regex.run] at h
      split at h
      · simp only [List.mem_singleton] at h; subst h; exact List.suffix_cons _ _
      · simp at h
  | seq a b iha ihb =>
    intro s t h
    simp only [Regex.run, List.mem_flatMap] at h
    obtain ⟨m, hm, ht⟩ := h
    exact (ihb m t ht).trans (iha s m hm)
  | alt a b iha ihb =>
    intro s t h
    simp only [Regex.run, List.mem_append] at h
    rcases h with h | h
    · exact iha s t h
    · exact ihb s t h
  | star a ih =>
    intro s t h
    exact starRun_suffix ih _ s t h
  | eol =>
    intro s t h
    simp only [Regex.run] at h
    split at h
    · simp only [List.mem_singleton] at h; subst h; exact List.suffix_refl _
    · simp at h

theorem matchLit_ok {l s r : Str} {u : Unit} : matchLit l s = .ok u r ↔ s = l ++ r := by
  simp only [matchLit]
  split
  · rename_i h
    simp only [Match.ok.injEq]
    obtain ⟨t, rfl⟩ := List.isPrefixOf_iff_prefix.1 h
    simp [eq_comm]
  · rename_i h
    simp only [reduceCtorEq, false_iff]
    rintro rfl
    exact h (List.isPrefixOf_iff_prefix.2 ⟨r, rfl⟩)

theorem matchRe_ok {e : Regex} {s r : Str} {u : Unit} : matchRe e s = .ok u r ↔ (e.run s).head? = some r := by
  simp only [matchRe]
  cases e.run s <;> simp

theorem matchRe_fail {e : Regex} {s : Str} : matchRe e s = .fail ↔ e.run s = [] := by
  simp only [matchRe]
  cases e.run s <;> simp

theorem seqWith_suffix {f : Peg ρ → Str → Match α} (h : ∀ p s a r, f p s = .ok a r → r <:+ s) :
    ∀ ps s as r, seqWith f ps s = .ok as r → r <:+ s := by
  intro ps
  induction ps with
  | nil => intro s as r hs; simp only [seqWith, Match.ok.injEq] at hs; rw [← hs.2]; exact List.suffix_refl _
  | cons p ps ih =>
    intro s as r hs
    simp only [seqWith] at hs
    cases hf : f p s with
    | out => simp [hf] at hs
    | fail => simp [hf] at hs
    | ok a r' =>
      simp only [hf, Match.cons_eq_ok] at hs
      obtain ⟨as', hs, _⟩ := hs
      exact (ih _ _ _ hs).trans (h _ _ _ _ hf)

theorem altWith_suffix {f : Peg ρ → Str → Match α} (h : ∀ p s a r, f p s = .ok a r → r <:+ s) :
    ∀ ps s as r, altWith f ps s = .ok as r → r <:+ s := by
  intro ps
  induction ps with
  | nil => intro s as r hs; simp [altWith] at hs
  | cons p ps ih =>
    intro s as r hs
    simp only [altWith] at hs
    cases hf : f p s with
    | out => simp [hf] at hs
    | fail => simp only [hf] at hs; exact ih _ _ _ hs
    | ok a r' =>
      simp only [hf, Match.ok.injEq] at hs
      rw [← hs.2]
      exact h _ _ _ _ hf

theorem starWith_suffix {f : Str → Match α} (h : ∀ s a r, f s = .ok a r → r <:+ s) :
    ∀ k s as r, starWith f k s = .ok as r → r <:+ s := by
  intro k
  induction k with
  | zero => intro s as r hs; simp only [starWith, Match.ok.injEq] at hs; rw [← hs.2]; exact List.suffix_refl _
  | succ k ih =>
    intro s as r hs
    cases s with
    | nil => simp only [starWith, Match.ok.injEq] at hs; rw [← hs.2]; exact List.suffix_refl _
    | cons c cs =>
      simp only [starWith] at hs
      cases hf : f (c :: cs) with
      | out => simp [hf] at hs
      | fail => simp only [hf, Match.ok.injEq] at hs; rw [← hs.2]; exact List.suffix_refl _
      | ok a r' =>
        simp only [hf] at hs
        split at hs
        · obtain ⟨as', hs, _⟩ := Match.cons_eq_ok.1 hs
          exact (ih _ _ _ hs).trans (h _ _ _ hf)
        · simp only [Match.ok.injEq] at hs
          rw [← hs.2]
          exact h _ _ _ hf

theorem optWith_suffix {f : Str → Match α} (h : ∀ s a r, f s = .ok a r → r <:+ s) {s as r}
    (hs : optWith f s = .ok as r) : r <:+ s := by
  cases s with
  | nil => simp only [optWith, Match.ok.injEq] at hs; rw [← hs.2]; exact List.suffix_refl _
  | cons c cs =>
    simp only [optWith] at hs
    cases hf : f (c :: cs) with
    | out => simp [hf] at hs
    | fail => simp only [hf, Match.ok.injEq] at hs; rw [← hs.2]; exact List.suffix_refl _
    | ok a r' => simp only [hf, Match.ok.injEq] at hs; rw [← hs.2]; exact h _ _ _ hf

theorem pegRun_suffix (g : ρ → Peg ρ) : ∀ n p s nd r, pegRun g n p s = .ok nd r → r <:+ s := by
  intro n
  induction n with
  | zero => intro p s nd r h; simp [pegRun] at h
  | succ n ih =>
    intro p s nd r h
    cases p with
    | lit l =>
      simp only [pegRun, Match.map_eq_ok, matchLit_ok] at h
      obtain ⟨_, rfl, _⟩ := h
      exact ⟨l, rfl⟩
    | re e =>
      simp only [pegRun, Match.map_eq_ok, matchRe_ok] at h
      obtain ⟨_, h, _⟩ := h
      exact e.run_suffix s r (List.mem_of_mem_head? h)
    | seq ps =>
      simp only [pegRun, Match.map_eq_ok] at h
      obtain ⟨_, h, _⟩ := h
      exact seqWith_suffix ih _ _ _ _ h
    | alt ps =>
      simp only [pegRun, Match.map_eq_ok] at h
      obtain ⟨_, h, _⟩ := h
      exact altWith_suffix ih _ _ _ _ h
    | star q =>
      simp only [pegRun, Match.map_eq_ok] at h
      obtain ⟨_, h, _⟩ := h
      exact starWith_suffix (ih q) _ _ _ _ h
    | opt q =>
      simp only [pegRun, Match.map_eq_ok] at h
      obtain ⟨_, h, _⟩ := h
      exact optWith_suffix (ih q) h
    | rule k =>
      simp only [pegRun, Match.map_eq_ok] at h
      obtain ⟨_, h, _⟩ := h
      exact ih _ _ _ _ h

/-! ### Expressions that may match nothing -/

/-- Whether a regular expression may match the empty text (an upper bound). -/
def Regex.nullable : Regex → Bool
  | .eps => true
  | .cls _ => false
  | .seq a b => a.nullable && b.nullable
  | .alt a b => a.nullable || b.nullable
  | .star _ => true
  | .eol => true

theorem Regex.run_nullable (r : Regex) : ∀ s, ∀ t ∈ r.run s, t.length = s.length → r.nullable = true := by
  induction r with
  | eps => intros; rfl
  | cls p =>
    intro s t h hl
    cases s with
    | nil => simp [Regex.run] at h
    | cons c cs =>
      simp only [Regex.run] at h
      split at h
      · simp only [List.mem_singleton] at h; subst h; simp at hl
      · simp at h
  | seq a b iha ihb =>
    intro s t h hl
    simp only [Regex.run, List.mem_flatMap] at h
    obtain ⟨m, hm, ht⟩ := h
    have h1 := (a.run_suffix s m hm).length_le
    have h2 := (b.run_suffix m t ht).length_le
    simp only [Regex.nullable, Bool.and_eq_true]
    exact ⟨iha s m hm (by omega), ihb m t ht (by omega)⟩
  | alt a b iha ihb =>
    intro s t h hl
    simp only [Regex.run, List.mem_append] at h
    simp only [Regex.nullable, Bool.or_eq_true]
    rcases h with h | h
    · exact .inl (iha s t h hl)
    · exact .inr (ihb s t h hl)
  | star a ih => intros; rfl
  | eol => intros; rfl

mutual
/-- Whether an expression may match the empty text (an upper bound), given the same for the rules. -/
def Peg.nullable (nr : ρ → Bool) : Peg ρ → Bool
  | .lit l => l.isEmpty
  | .re e => e.nullable
  | .seq ps => Peg.allNullable nr ps
  | .alt ps => Peg.anyNullable nr ps
  | .star _ => true
  | .opt _ => true
  | .rule r => nr r

/-- All members may match nothing. -/
def Peg.allNullable (nr : ρ → Bool) : List (Peg ρ) → Bool
  | [] => true
  | p :: ps => p.nullable nr && Peg.allNullable nr ps

/-- Some member may match nothing. -/
def Peg.anyNullable (nr : ρ → Bool) : List (Peg ρ) → Bool
  | [] => false
  | p :: ps => p.nullable nr || Peg.anyNullable nr ps
end

mutual
/-- An upper bound of the nesting of calls before text is consumed, given the same for the rules. -/
def Peg.rank (nr : ρ → Bool) (rr : ρ → Nat) : Peg ρ → Nat
  | .lit _ => 0
  | .re _ => 0
  | .seq ps => 1 + Peg.seqRank nr rr ps
  | .alt ps => 1 + Peg.altRank nr rr ps
  | .star p => 1 + p.rank nr rr
  | .opt p => 1 + p.rank nr rr
  | .rule r => rr r

/-- The members that may be reached before text is consumed. -/
def Peg.seqRank (nr : ρ → Bool) (rr : ρ → Nat) : List (Peg ρ) → Nat
  | [] => 0
  | p :: ps => max (p.rank nr rr) (if p.nullable nr then Peg.seqRank nr rr ps else 0)

/-- The maximum over the members. -/
def Peg.altRank (nr : ρ → Bool) (rr : ρ → Nat) : List (Peg ρ) → Nat
  | [] => 0
  | p :: ps => max (p.rank nr rr) (Peg.altRank nr rr ps)
end

mutual
/-- The ranks of the expression and of all its parts are below `K`. -/
def Peg.within (nr : ρ → Bool) (rr : ρ → Nat) (K : Nat) : Peg ρ → Bool
  | .seq ps => decide ((Peg.seq ps).rank nr rr < K) && Peg.allWithin nr rr K ps
  | .alt ps => decide ((Peg.alt ps).rank nr rr < K) && Peg.allWithin nr rr K ps
  | .star p => decide ((Peg.star p).rank nr rr < K) && p.within nr rr K
  | .opt p => decide ((Peg.opt p).rank nr rr < K) && p.within nr rr K
  | p => decide (p.rank nr rr < K)

/-- The same for the members. -/
def Peg.allWithin (nr : ρ → Bool) (rr : ρ → Nat) (K : Nat) : List (Peg ρ) → Bool
  | [] => true
  | p :: ps => p.within nr rr K && Peg.allWithin nr rr K ps
end

/-- Static conditions under which matching ends: the tables are consistent with the expressions of the rules. -/
structure GrammarOk (g : ρ → Peg ρ) (nr : ρ → Bool) (rr : ρ → Nat) (K : Nat) : Prop where
  nullable : ∀ r, (g r).nullable nr = true → nr r = true
  rank : ∀ r, (g r).rank nr rr < rr r
  within : ∀ r, (g r).within nr rr K = true

section
variable {g : ρ → Peg ρ} {nr : ρ → Bool} {rr : ρ → Nat} {K : Nat}

theorem seqWith_nullable {f : Peg ρ → Str → Match α} (hx : ∀ p s a r, f p s = .ok a r → r <:+ s)
    (h : ∀ p s a r, f p s = .ok a r → r.length = s.length → p.nullable nr = true) :
    ∀ ps s as r, seqWith f ps s = .ok as r → r.length = s.length → Peg.allNullable nr ps = true := by
  intro ps
  induction ps with
  | nil => intros; rfl
  | cons p ps ih =>
    intro s as r hs hl
    simp only [seqWith] at hs
    cases hf : f p s with
    | out => simp [hf] at hs
    | fail => simp [hf] at hs
    | ok a r' =>
      simp only [hf, Match.cons_eq_ok] at hs
      obtain ⟨as', hs, _⟩ := hs
      have h1 := (hx _ _ _ _ hf).length_le
      have h2 := (seqWith_suffix hx _ _ _ _ hs).length_le
      simp only [Peg.allNullable, Bool.and_eq_true]
      exact ⟨h _ _ _ _ hf (by omega), ih _ _ _ hs (by omega)⟩

theorem altWith_nullable {f : Peg ρ → Str → Match α}
    (h : ∀ p s a r, f p s = .ok a r → r.length = s.length → p.nullable nr = true) :
    ∀ ps s as r, altWith f ps s = .ok as r → r.length = s.length → Peg.anyNullable nr ps = true := by
  intro ps
  induction ps with
  | nil => intro s as r hs; simp [altWith] at hs
  | cons p ps ih =>
    intro s as r hs hl
    simp only [altWith] at hs
    simp only [Peg.anyNullable, Bool.or_eq_true]
    cases hf : f p s with
    | out => simp [hf] at hs
    | fail => simp only [hf] at hs; exact .inr (ih _ _ _ hs hl)
    | ok a r' =>
      simp only [hf, Match.ok.injEq] at hs
      obtain ⟨_, rfl⟩ := hs
      exact .inl (h _ _ _ _ hf hl)

theorem pegRun_nullable (hg : ∀ r, (g r).nullable nr = true → nr r = true) :
    ∀ n p s nd r, pegRun g n p s = .ok nd r → r.length = s.length → p.nullable nr = true := by
  intro n
  induction n with
  | zero => intro p s nd r h; simp [pegRun] at h
  | succ n ih =>
    intro p s nd r h hl
    cases p with
    | lit l =>
      simp only [pegRun, Match.map_eq_ok, matchLit_ok] at h
      obtain ⟨_, rfl, _⟩ := h
      simp only [List.length_append] at hl
      simp only [Peg.nullable, List.isEmpty_iff]
      exact List.length_eq_zero_iff.1 (by omega)
    | re e =>
      simp only [pegRun, Match.map_eq_ok, matchRe_ok] at h
      obtain ⟨_, h, _⟩ := h
      exact e.run_nullable s r (List.mem_of_mem_head? h) hl
    | seq ps =>
      simp only [pegRun, Match.map_eq_ok] at h
      obtain ⟨_, h, _⟩ := h
      exact seqWith_nullable (pegRun_suffix g n) ih _ _ _ _ h hl
    | alt ps =>
      simp only [pegRun, Match.map_eq_ok] at h
      obtain ⟨_, h, _⟩ := h
      exact altWith_nullable ih _ _ _ _ h hl
    | star q => rfl
    | opt q => rfl
    | rule k =>
      simp only [pegRun, Match.map_eq_ok] at h
      obtain ⟨_, h, _⟩ := h
      exact hg k (ih _ _ _ _ h hl)

/-! ### Enough calls -/

theorem within_rank {p : Peg ρ} (h : p.within nr rr K = true) : p.rank nr rr < K := by
  cases p <;> simp only [Peg.within, Bool.and_eq_true, decide_eq_true_eq] at h <;> first | exact h | exact h.1

theorem allWithin_seqRank : ∀ {ps : List (Peg ρ)}, 0 < K → Peg.allWithin nr rr K ps = true → Peg.seqRank nr rr ps < K := by
  intro ps hK
  induction ps with
  | nil => intro _; simpa [Peg.seqRank] using hK
  | cons p ps ih =>
    intro h
    simp only [Peg.allWithin, Bool.and_eq_true] at h
    have h1 := within_rank h.1
    have h2 := ih h.2
    simp only [Peg.seqRank]
    split <;> omega

theorem mul_succ_le {K a b : Nat} (h : a < b) : K * a + K ≤ K * b := by
  have := Nat.mul_le_mul_left K (Nat.succ_le_of_lt h)
  rwa [Nat.mul_succ] at this

theorem seqWith_ne_out {m : Nat} (hK : 0 < K) (hg : ∀ r, (g r).nullable nr = true → nr r = true)
    (ih : ∀ p s, p.within nr rr K = true → K * s.length + p.rank nr rr < m → pegRun g m p s ≠ .out) :
    ∀ ps s, Peg.allWithin nr rr K ps = true → K * s.length + Peg.seqRank nr rr ps < m → seqWith (pegRun g m) ps s ≠ .out := by
  intro ps
  induction ps with
  | nil => intro s _ _; simp [seqWith]
  | cons p ps ihp =>
    intro s hb hm
    simp only [Peg.allWithin, Bool.and_eq_true] at hb
    simp only [Peg.seqRank] at hm
    have hp := ih p s hb.1 (by omega)
    simp only [seqWith]
    cases hf : pegRun g m p s with
    | out => exact absurd hf hp
    | fail => simp
    | ok a r =>
      simp only
      refine Match.cons_ne_out.2 (ihp r hb.2 ?_)
      have hl := (pegRun_suffix g m p s a r hf).length_le
      by_cases he : r.length = s.length
      · have hn := pegRun_nullable hg m p s a r hf he
        simp only [hn, if_true] at hm
        rw [he]; omega
      · have h1 := mul_succ_le (K := K) (Nat.lt_of_le_of_ne hl he)
        have h2 := allWithin_seqRank hK hb.2
        omega

theorem altWith_ne_out {m : Nat}
    (ih : ∀ p s, p.within nr rr K = true → K * s.length + p.rank nr rr < m → pegRun g m p s ≠ .out) :
    ∀ ps s, Peg.allWithin nr rr K ps = true → K * s.length + Peg.altRank nr rr ps < m → altWith (pegRun g m) ps s ≠ .out := by
  intro ps
  induction ps with
  | nil => intro s _ _; simp [altWith]
  | cons p ps ihp =>
    intro s hb hm
    simp only [Peg.allWithin, Bool.and_eq_true] at hb
    simp only [Peg.altRank] at hm
    have hp := ih p s hb.1 (by omega)
    simp only [altWith]
    cases hf : pegRun g m p s with
    | out => exact absurd hf hp
    | fail => simp only; exact ihp s hb.2 (by omega)
    | ok a r => simp

theorem starWith_ne_out {f : Str → Match α} {L : Nat} (hf : ∀ s, s.length ≤ L → f s ≠ .out) :
    ∀ k s, s.length ≤ L → starWith f k s ≠ .out := by
  intro k
  induction k with
  | zero => intro s _; simp [starWith]
  | succ k ih =>
    intro s hs
    cases s with
    | nil => simp [starWith]
    | cons c cs =>
      simp only [starWith]
      cases h : f (c :: cs) with
      | out => exact absurd h (hf _ hs)
      | fail => simp
      | ok a r =>
        simp only
        split
        · exact Match.cons_ne_out.2 (ih r (by omega))
        · simp

theorem optWith_ne_out {f : Str → Match α} {s : Str} (hf : f s ≠ .out) : optWith f s ≠ .out := by
  cases s with
  | nil => simp [optWith]
  | cons c cs =>
    simp only [optWith]
    cases h : f (c :: cs) with
    | out => exact absurd h hf
    | fail => simp
    | ok a r => simp

/-- `K` calls per character and the rank of the expression suffice. -/
theorem pegRun_ne_out (hg : GrammarOk g nr rr K) (hK : 0 < K) : ∀ n p s, p.within nr rr K = true →
    K * s.length + p.rank nr rr < n → pegRun g n p s ≠ .out := by
  intro n
  induction n with
  | zero => intro p s _ h; exact absurd h (Nat.not_lt_zero _)
  | succ m ih =>
    intro p s hb hm
    cases p with
    | lit l =>
      simp only [pegRun]
      refine Match.map_ne_out.2 ?_
      simp only [matchLit]
      split <;> simp
    | re e =>
      simp only [pegRun]
      refine Match.map_ne_out.2 ?_
      simp only [matchRe]
      split <;> simp
    | seq ps =>
      simp only [Peg.within, Bool.and_eq_true] at hb
      simp only [Peg.rank] at hm
      simp only [pegRun]
      exact Match.map_ne_out.2 (seqWith_ne_out hK hg.nullable ih ps s hb.2 (by omega))
    | alt ps =>
      simp only [Peg.within, Bool.and_eq_true] at hb
      simp only [Peg.rank] at hm
      simp only [pegRun]
      exact Match.map_ne_out.2 (altWith_ne_out ih ps s hb.2 (by omega))
    | star q =>
      simp only [Peg.within, Bool.and_eq_true] at hb
      simp only [Peg.rank] at hm
      simp only [pegRun]
      refine Match.map_ne_out.2 (starWith_ne_out (L := s.length) ?_ _ s (Nat.le_refl _))
      intro s' hs'
      refine ih q s' hb.2 ?_
      have := Nat.mul_le_mul_left K hs'
      omega
    | opt q =>
      simp only [Peg.within, Bool.and_eq_true] at hb
      simp only [Peg.rank] at hm
      simp only [pegRun]
      exact Match.map_ne_out.2 (optWith_ne_out (ih q s hb.2 (by omega)))
    | rule r =>
      simp only [Peg.rank] at hm
      simp only [pegRun]
      have := hg.rank r
      exact Match.map_ne_out.2 (ih (g r) s (hg.within r) (by omega))

end

end Verif
