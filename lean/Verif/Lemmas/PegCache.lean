import Verif.Py.PegCache
import Verif.Spec.PegCache
import Verif.Lemmas.Peg

/-!
# The packrat cache does not change outcomes
-/

namespace Verif

variable {ρ : Type} [DecidableEq ρ]

open Spec (Peg.reached Peg.members Peg.count Peg.countAll)

/-- Two suffixes of a text with the same length are the same. -/
theorem suffix_eq_of_length {s t text : Str} (hs : s <:+ text) (ht : t <:+ text) (h : s.length = t.length) : s = t := by
  obtain ⟨a, rfl⟩ := hs
  obtain ⟨b, hb⟩ := ht
  exact (List.append_inj' hb h.symm).2.symm

/-- The cache is right: what it stores are outcomes, the entries in progress are those of `I`, and no evaluation was
started twice or outside of the grammar and the text. -/
structure MemoOk (g : ρ → Peg ρ) (text : Str) (I : List (Place ρ × Nat)) (c : Memo ρ) : Prop where
  stored : ∀ key m, c.lookup key = some (some m) → m ≠ .out ∧ ∀ p s, Peg.reached g key.1.1 key.1.2 = some p → s <:+ text →
    s.length = key.2 → ∃ k, pegRun g k p s = m
  busy : ∀ key, c.lookup key = some none ↔ key ∈ I
  once : c.started.Nodup
  inside : ∀ key ∈ c.started, (∃ p, Peg.reached g key.1.1 key.1.2 = some p ∧ ∀ r, p ≠ .rule r) ∧ key.2 ≤ text.length

omit [DecidableEq ρ] in
theorem mem_started {c : Memo ρ} {key} : key ∈ c.started ↔ (key, none) ∈ c := by
  simp [Memo.started]

theorem lookup_none_not_mem {c : Memo ρ} {key} (h : c.lookup key = none) (v) : (key, v) ∉ c := by
  induction c with
  | nil => simp
  | cons kv c ih =>
    obtain ⟨k, w⟩ := kv
    simp only [List.lookup] at h
    split at h
    · cases h
    · rename_i hk
      simp only [beq_eq_false_iff_ne, ne_eq] at hk
      simp only [List.mem_cons, Prod.mk.injEq, not_or, not_and]
      exact ⟨fun hh => absurd hh hk, ih h⟩

theorem lookup_cons_eq {c : Memo ρ} {key k v} :
    List.lookup key ((k, v) :: c) = if key = k then some v else c.lookup key := by
  simp only [List.lookup]
  split
  · rename_i h; rw [if_pos (by simpa using h)]
  · rename_i h; rw [if_neg (by simpa using h)]

/-- Marking an expression as being in progress. -/
theorem MemoOk.begin {g : ρ → Peg ρ} {text : Str} {I c} (h : MemoOk g text I c) {key : Place ρ × Nat}
    (hk : c.lookup key = none) (hr : ∃ p, Peg.reached g key.1.1 key.1.2 = some p ∧ ∀ r, p ≠ .rule r) (hl : key.2 ≤ text.length) :
    MemoOk g text (key :: I) ((key, none) :: c) where
  stored k m hm := by
    rw [lookup_cons_eq] at hm
    split at hm
    · simp at hm
    · exact h.stored k m hm
  busy k := by
    rw [lookup_cons_eq, List.mem_cons, ← h.busy k]
    split <;> simp_all
  once := by
    have : Memo.started ((key, none) :: c) = key :: c.started := by simp [Memo.started]
    rw [this, List.nodup_cons]
    exact ⟨fun hm => lookup_none_not_mem hk _ (mem_started.1 hm), h.once⟩
  inside k hm := by
    have : Memo.started ((key, none) :: c) = key :: c.started := by simp [Memo.started]
    rw [this, List.mem_cons] at hm
    rcases hm with rfl | hm
    · exact ⟨hr, hl⟩
    · exact h.inside k hm

/-- Storing the outcome. -/
theorem MemoOk.finish {g : ρ → Peg ρ} {text : Str} {I c} {key : Place ρ × Nat} (h : MemoOk g text (key :: I) c)
    (hk : key ∉ I) {m} (hm : m ≠ .out) (hs : ∀ p s, Peg.reached g key.1.1 key.1.2 = some p → s <:+ text →
    s.length = key.2 → ∃ k, pegRun g k p s = m) :
    MemoOk g text I ((key, some m) :: c) where
  stored k m' hm' := by
    rw [lookup_cons_eq] at hm'
    split at hm'
    · rename_i he
      cases he
      simp only [Option.some.injEq] at hm'
      cases hm'
      exact ⟨hm, hs⟩
    · exact h.stored k m' hm'
  busy k := by
    rw [lookup_cons_eq]
    split
    · rename_i he
      cases he
      simpa using hk
    · rename_i he
      rw [h.busy k, List.mem_cons]
      simp [he]
  once := by
    have : Memo.started ((key, some m) :: c) = c.started := by simp [Memo.started]
    rw [this]; exact h.once
  inside k hk := by
    have : Memo.started ((key, some m) :: c) = c.started := by simp [Memo.started]
    rw [this] at hk; exact h.inside k hk

/-- What a call with the cache does when the call without ends. -/
def AgreesAt (g : ρ → Peg ρ) (text : Str) (I : List (Place ρ × Nat)) {α : Type} (f : Str → Match α)
    (F : Str → Memo ρ → Cached ρ α) : Prop :=
  ∀ s c, s <:+ text → MemoOk g text I c → f s ≠ .out → ∃ c', F s c = (some (f s), c') ∧ MemoOk g text I c'

theorem seqCached_agrees {g : ρ → Peg ρ} {text : Str} {I} {α : Type} {f : Peg ρ → Str → Match α}
    {F : Nat → Peg ρ → Str → Memo ρ → Cached ρ α} (hsuf : ∀ p s a r, f p s = .ok a r → r <:+ s) :
    ∀ ps i, (∀ j p, ps[j]? = some p → AgreesAt g text I (f p) (F (i + j) p)) →
      AgreesAt g text I (seqWith f ps) (seqCached F i ps) := by
  intro ps
  induction ps with
  | nil => intro i _ s c _ hc _; exact ⟨c, rfl, hc⟩
  | cons p ps ih =>
    intro i hF s c hs hc hne
    have hp : f p s ≠ .out := by intro hp; simp [seqWith, hp] at hne
    obtain ⟨c1, h1, hc1⟩ := hF 0 p rfl s c hs hc hp
    rw [Nat.add_zero] at h1
    simp only [seqWith, seqCached, h1] at hne ⊢
    cases hf : f p s with
    | out => exact absurd hf hp
    | fail => exact ⟨c1, rfl, hc1⟩
    | ok a r =>
      simp only [hf] at hne ⊢
      have ih' := ih (i + 1) (fun j q hj => by
        have := hF (j + 1) q (by simpa using hj)
        rwa [show i + (j + 1) = i + 1 + j by omega] at this)
      obtain ⟨c2, h2, hc2⟩ := ih' r c1 ((hsuf _ _ _ _ hf).trans hs) hc1 (Match.cons_ne_out.1 hne)
      exact ⟨c2, by rw [h2]; rfl, hc2⟩

theorem altCached_agrees {g : ρ → Peg ρ} {text : Str} {I} {α : Type} {f : Peg ρ → Str → Match α}
    {F : Nat → Peg ρ → Str → Memo ρ → Cached ρ α} :
    ∀ ps i, (∀ j p, ps[j]? = some p → AgreesAt g text I (f p) (F (i + j) p)) →
      AgreesAt g text I (altWith f ps) (altCached F i ps) := by
  intro ps
  induction ps with
  | nil => intro i _ s c _ hc _; exact ⟨c, rfl, hc⟩
  | cons p ps ih =>
    intro i hF s c hs hc hne
    have hp : f p s ≠ .out := by intro hp; simp [altWith, hp] at hne
    obtain ⟨c1, h1, hc1⟩ := hF 0 p rfl s c hs hc hp
    rw [Nat.add_zero] at h1
    simp only [altWith, altCached, h1] at hne ⊢
    cases hf : f p s with
    | out => exact absurd hf hp
    | ok a r => exact ⟨c1, rfl, hc1⟩
    | fail =>
      simp only [hf] at hne ⊢
      have ih' := ih (i + 1) (fun j q hj => by
        have := hF (j + 1) q (by simpa using hj)
        rwa [show i + (j + 1) = i + 1 + j by omega] at this)
      exact ih' s c1 hs hc1 hne

theorem starCached_agrees {g : ρ → Peg ρ} {text : Str} {I} {α : Type} {f : Str → Match α}
    {F : Str → Memo ρ → Cached ρ α} (hsuf : ∀ s a r, f s = .ok a r → r <:+ s) (hF : AgreesAt g text I f F) :
    ∀ k, AgreesAt g text I (starWith f k) (starCached F k) := by
  intro k
  induction k with
  | zero => intro s c _ hc _; exact ⟨c, rfl, hc⟩
  | succ k ih =>
    intro s c hs hc hne
    cases s with
    | nil => exact ⟨c, rfl, hc⟩
    | cons ch cs =>
      have hp : f (ch :: cs) ≠ .out := by intro hp; simp [starWith, hp] at hne
      obtain ⟨c1, h1, hc1⟩ := hF _ c hs hc hp
      simp only [starWith, starCached, h1] at hne ⊢
      cases hf : f (ch :: cs) with
      | out => exact absurd hf hp
      | fail => exact ⟨c1, rfl, hc1⟩
      | ok a r =>
        simp only [hf] at hne ⊢
        by_cases hl : r.length < (ch :: cs).length
        · simp only [hl, if_true] at hne ⊢
          obtain ⟨c2, h2, hc2⟩ := ih r c1 ((hsuf _ _ _ hf).trans hs) hc1 (Match.cons_ne_out.1 hne)
          exact ⟨c2, by rw [h2]; rfl, hc2⟩
        · simp only [hl, if_false]
          exact ⟨c1, rfl, hc1⟩

theorem optCached_agrees {g : ρ → Peg ρ} {text : Str} {I} {α : Type} {f : Str → Match α}
    {F : Str → Memo ρ → Cached ρ α} (hF : AgreesAt g text I f F) : AgreesAt g text I (optWith f) (optCached F) := by
  intro s c hs hc hne
  cases s with
  | nil => exact ⟨c, rfl, hc⟩
  | cons ch cs =>
    have hp : f (ch :: cs) ≠ .out := by intro hp; simp [optWith, hp] at hne
    obtain ⟨c1, h1, hc1⟩ := hF _ c hs hc hp
    simp only [optWith, optCached, h1]
    cases hf : f (ch :: cs) with
    | out => exact absurd hf hp
    | fail => exact ⟨c1, rfl, hc1⟩
    | ok a r => exact ⟨c1, rfl, hc1⟩

/-- All entries in progress are about calls that do not end within `n`. -/
def BusyAt (g : ρ → Peg ρ) (text : Str) (n : Nat) (I : List (Place ρ × Nat)) : Prop :=
  ∀ key ∈ I, ∀ p s, Peg.reached g key.1.1 key.1.2 = some p → s <:+ text → s.length = key.2 → pegRun g n p s = .out

omit [DecidableEq ρ] in
theorem BusyAt.less {g : ρ → Peg ρ} {text : Str} {n I} (h : BusyAt g text (n + 1) I) : BusyAt g text n I := by
  intro key hk p s hp hs hl
  by_cases hne : pegRun g n p s = .out
  · exact hne
  · exact absurd (h key hk p s hp hs hl) (by rw [pegRun_succ g n p s hne]; exact hne)

/-- `match_core` around an evaluation that agrees with the outcome. -/
theorem matchCore_agrees {g : ρ → Peg ρ} {text : Str} {n : Nat} {I} {w : Place ρ} {p : Peg ρ} {s : Str} {c : Memo ρ}
    {run : Memo ρ → Cached ρ (Node ρ)} (hw : Peg.reached g w.1 w.2 = some p) (hr : ∀ r, p ≠ .rule r) (hs : s <:+ text) (hI : BusyAt g text (n + 1) I)
    (hc : MemoOk g text I c) (hne : pegRun g (n + 1) p s ≠ .out) (hout : pegRun g n p s = .out)
    (hrun : ∀ I' c', BusyAt g text n I' → MemoOk g text I' c' →
      ∃ c'', run c' = (some (pegRun g (n + 1) p s), c'') ∧ MemoOk g text I' c'') :
    ∃ c', matchCore w s c run = (some (pegRun g (n + 1) p s), c') ∧ MemoOk g text I c' := by
  simp only [matchCore]
  cases hl : c.lookup (w, s.length) with
  | some v =>
    cases v with
    | none => exact absurd (hI _ ((hc.busy _).1 hl) p s hw hs rfl) hne
    | some m =>
      obtain ⟨hm, hst⟩ := hc.stored _ _ hl
      obtain ⟨k, hk⟩ := hst p s hw hs rfl
      refine ⟨c, ?_, hc⟩
      have h1 := pegRun_mono g (Nat.le_max_left k (n + 1)) (p := p) (s := s) (by rw [hk]; exact hm)
      have h2 := pegRun_mono g (Nat.le_max_right k (n + 1)) hne
      rw [← h2, h1, hk]
  | none =>
    have hb := hc.begin hl ⟨p, hw, hr⟩ hs.length_le
    have hnot : (w, s.length) ∉ I := fun hm => by
      have := (hc.busy _).2 hm
      rw [hl] at this
      cases this
    obtain ⟨c', h1, hc'⟩ := hrun _ _ (by
      intro key hk q t hq ht hlen
      rcases List.mem_cons.1 hk with rfl | hk
      · rw [hw] at hq
        cases hq
        rw [suffix_eq_of_length ht hs hlen]
        exact hout
      · exact hI.less key hk q t hq ht hlen) hb
    refine ⟨((w, s.length), some (pegRun g (n + 1) p s)) :: c', ?_, hc'.finish hnot hne ?_⟩
    · simp only [h1]
    · intro q t hq ht hlen
      rw [hw] at hq
      cases hq
      exact ⟨n + 1, by rw [suffix_eq_of_length ht hs hlen]⟩

omit [DecidableEq ρ] in
theorem node_eq {s : Str} {x : Cached ρ (List (Node ρ))} {m c} (h : x = (some m, c)) :
    x.node s = (some (m.map fun cs r => .node none (consumed s r) cs), c) := by
  rw [h]; rfl

/-- With the cache the parser has the outcome that it has without. -/
theorem pegCached_agrees (g : ρ → Peg ρ) (text : Str) : ∀ n N, n ≤ N → ∀ w p I, Peg.reached g w.1 w.2 = some p →
    BusyAt g text n I → AgreesAt g text I (pegRun g n p) (pegCached g N w p) := by
  intro n
  induction n with
  | zero => intro N _ w p I _ _ s c _ _ hne; exact absurd rfl hne
  | succ n ih =>
    intro N hN w p I hw hI s c hs hc hne
    by_cases hout : pegRun g n p s = .out
    case neg =>
      obtain ⟨c', h1, h2⟩ := ih N (by omega) w p I hw hI.less s c hs hc hout
      exact ⟨c', by rw [h1, pegRun_succ g n p s hout], h2⟩
    case pos =>
      obtain ⟨N, rfl⟩ : ∃ N', N = N' + 1 := ⟨N - 1, by omega⟩
      have hN : n ≤ N := by omega
      cases p with
      | lit l => exact matchCore_agrees hw (by simp) hs hI hc hne hout (fun I' c' _ hc' => ⟨c', rfl, hc'⟩)
      | re e => exact matchCore_agrees hw (by simp) hs hI hc hne hout (fun I' c' _ hc' => ⟨c', rfl, hc'⟩)
      | seq ps =>
        rw [pegCached]
        refine matchCore_agrees hw (by simp) hs hI hc hne hout (fun I' c' hI' hc' => ?_)
        simp only [pegRun] at hne ⊢
        obtain ⟨c2, h2, hc2⟩ := seqCached_agrees (F := fun i => pegCached g N (w.1, i :: w.2)) (pegRun_suffix g n) ps 0
          (fun j q hj => by
            rw [Nat.zero_add]
            exact ih N hN (w.1, j :: w.2) q I' (by simp [Peg.reached, hw, Peg.members, hj]) hI')
          s c' hs hc' (Match.map_ne_out.1 hne)
        exact ⟨c2, node_eq h2, hc2⟩
      | alt ps =>
        rw [pegCached]
        refine matchCore_agrees hw (by simp) hs hI hc hne hout (fun I' c' hI' hc' => ?_)
        simp only [pegRun] at hne ⊢
        obtain ⟨c2, h2, hc2⟩ := altCached_agrees (F := fun i => pegCached g N (w.1, i :: w.2)) (f := pegRun g n) ps 0
          (fun j q hj => by
            rw [Nat.zero_add]
            exact ih N hN (w.1, j :: w.2) q I' (by simp [Peg.reached, hw, Peg.members, hj]) hI')
          s c' hs hc' (Match.map_ne_out.1 hne)
        exact ⟨c2, node_eq h2, hc2⟩
      | star q =>
        rw [pegCached]
        refine matchCore_agrees hw (by simp) hs hI hc hne hout (fun I' c' hI' hc' => ?_)
        simp only [pegRun] at hne ⊢
        obtain ⟨c2, h2, hc2⟩ := starCached_agrees (pegRun_suffix g n q)
          (ih N hN (w.1, 0 :: w.2) q I' (by simp [Peg.reached, hw, Peg.members]) hI') s.length s c' hs hc' (Match.map_ne_out.1 hne)
        exact ⟨c2, node_eq h2, hc2⟩
      | opt q =>
        rw [pegCached]
        refine matchCore_agrees hw (by simp) hs hI hc hne hout (fun I' c' hI' hc' => ?_)
        simp only [pegRun] at hne ⊢
        obtain ⟨c2, h2, hc2⟩ := optCached_agrees
          (ih N hN (w.1, 0 :: w.2) q I' (by simp [Peg.reached, hw, Peg.members]) hI') s c' hs hc' (Match.map_ne_out.1 hne)
        exact ⟨c2, node_eq h2, hc2⟩
      | rule r =>
        simp only [pegRun] at hne ⊢
        obtain ⟨c2, h2, hc2⟩ := ih N hN (r, []) (g r) I rfl hI.less s c hs hc (Match.map_ne_out.1 hne)
        exact ⟨c2, by simp only [pegCached, h2]; rfl, hc2⟩

/-! ### How many evaluations there can be -/

mutual
/-- The ways from an expression to its expressions, the last step first. -/
def pegWays : Peg ρ → List (List Nat)
  | .seq ps => [] :: pegWaysAll 0 ps
  | .alt ps => [] :: pegWaysAll 0 ps
  | .star p => [] :: (pegWays p).map (· ++ [0])
  | .opt p => [] :: (pegWays p).map (· ++ [0])
  | .lit _ => [[]]
  | .re _ => [[]]
  | .rule _ => []

/-- The ways through the members, numbered from `i`. -/
def pegWaysAll : Nat → List (Peg ρ) → List (List Nat)
  | _, [] => []
  | i, p :: ps => (pegWays p).map (· ++ [i]) ++ pegWaysAll (i + 1) ps
end

omit [DecidableEq ρ] in
mutual
theorem length_pegWays : ∀ p : Peg ρ, (pegWays p).length = Peg.count p
  | .seq ps => by simp only [pegWays, Peg.count, List.length_cons, length_pegWaysAll ps 0]; omega
  | .alt ps => by simp only [pegWays, Peg.count, List.length_cons, length_pegWaysAll ps 0]; omega
  | .star p => by simp only [pegWays, Peg.count, List.length_cons, List.length_map, length_pegWays p]; omega
  | .opt p => by simp only [pegWays, Peg.count, List.length_cons, List.length_map, length_pegWays p]; omega
  | .lit _ => rfl
  | .re _ => rfl
  | .rule _ => rfl

theorem length_pegWaysAll : ∀ (ps : List (Peg ρ)) i, (pegWaysAll i ps).length = Peg.countAll ps
  | [], _ => rfl
  | p :: ps, i => by
    simp only [pegWaysAll, Peg.countAll, List.length_append, List.length_map, length_pegWays p, length_pegWaysAll ps (i + 1)]
end

omit [DecidableEq ρ] in
theorem mem_pegWaysAll {ps : List (Peg ρ)} {j : Nat} {q : Peg ρ} {w : List Nat} (hj : ps[j]? = some q) (hw : w ∈ pegWays q) :
    ∀ i, w ++ [i + j] ∈ pegWaysAll i ps := by
  induction ps generalizing j with
  | nil => simp at hj
  | cons p ps ih =>
    intro i
    simp only [pegWaysAll, List.mem_append, List.mem_map]
    cases j with
    | zero =>
      simp only [List.getElem?_cons_zero, Option.some.injEq] at hj
      cases hj
      exact .inl ⟨w, hw, rfl⟩
    | succ j =>
      have := ih (by simpa using hj) (i + 1)
      rw [show i + 1 + j = i + (j + 1) by omega] at this
      exact .inr this

omit [DecidableEq ρ] in
theorem mem_pegWays_member {p q : Peg ρ} {j : Nat} {w : List Nat} (hj : (Peg.members p)[j]? = some q) (hw : w ∈ pegWays q) :
    w ++ [j] ∈ pegWays p := by
  cases p with
  | lit l => simp [Peg.members] at hj
  | re e => simp [Peg.members] at hj
  | rule r => simp [Peg.members] at hj
  | seq ps =>
    have := mem_pegWaysAll hj hw 0
    rw [Nat.zero_add] at this
    exact List.mem_cons_of_mem _ this
  | alt ps =>
    have := mem_pegWaysAll hj hw 0
    rw [Nat.zero_add] at this
    exact List.mem_cons_of_mem _ this
  | star p =>
    cases j with
    | zero =>
      simp only [Peg.members, List.getElem?_cons_zero, Option.some.injEq] at hj
      cases hj
      simp only [pegWays, List.mem_cons, List.mem_map]
      exact .inr ⟨w, hw, rfl⟩
    | succ j => simp [Peg.members] at hj
  | opt p =>
    cases j with
    | zero =>
      simp only [Peg.members, List.getElem?_cons_zero, Option.some.injEq] at hj
      cases hj
      simp only [pegWays, List.mem_cons, List.mem_map]
      exact .inr ⟨w, hw, rfl⟩
    | succ j => simp [Peg.members] at hj

omit [DecidableEq ρ] in
theorem nil_mem_pegWays {p : Peg ρ} (h : ∀ r, p ≠ .rule r) : [] ∈ pegWays p := by
  cases p <;> first | exact absurd rfl (h _) | simp [pegWays]

omit [DecidableEq ρ] in
theorem reached_extends {g : ρ → Peg ρ} {r : ρ} : ∀ {w p v}, Peg.reached g r w = some p → v ∈ pegWays p →
    v ++ w ∈ pegWays (g r) := by
  intro w
  induction w with
  | nil =>
    intro p v h hv
    simp only [Peg.reached, Option.some.injEq] at h
    rw [List.append_nil, h]
    exact hv
  | cons i w ih =>
    intro p v h hv
    simp only [Peg.reached, Option.bind_eq_some_iff] at h
    obtain ⟨q, hq, hi⟩ := h
    have := ih hq (mem_pegWays_member hi hv)
    simpa using this

omit [DecidableEq ρ] in
theorem reached_mem {g : ρ → Peg ρ} {r : ρ} {w} (h : ∃ p, Peg.reached g r w = some p ∧ ∀ r, p ≠ .rule r) :
    w ∈ pegWays (g r) := by
  obtain ⟨p, hp, hr⟩ := h
  simpa using reached_extends hp (nil_mem_pegWays hr)

theorem nodup_length_le {α : Type} [DecidableEq α] : ∀ {l k : List α}, l.Nodup → (∀ a ∈ l, a ∈ k) → l.length ≤ k.length := by
  intro l
  induction l with
  | nil => simp
  | cons a l ih =>
    intro k hn hs
    rw [List.nodup_cons] at hn
    have ha := hs a (by simp)
    have := ih (k := k.erase a) hn.2 (fun b hb => by
      refine (List.mem_erase_of_ne ?_).2 ?_
      · intro h
        rw [h] at hb
        exact hn.1 hb
      exact hs b (List.mem_cons_of_mem _ hb))
    rw [List.length_erase_of_mem ha] at this
    have : 0 < k.length := List.length_pos_of_mem ha
    simp only [List.length_cons]
    omega

/-- All places of a grammar with the rules `rs`, with all lengths up to `n`. -/
def allKeys (g : ρ → Peg ρ) (rs : List ρ) (n : Nat) : List (Place ρ × Nat) :=
  (rs.flatMap fun r => (pegWays (g r)).map fun w => (r, w)).flatMap fun w => (List.range (n + 1)).map fun k => (w, k)

theorem length_flatMap_const {α β : Type} (f : α → List β) (n : Nat) (h : ∀ a, (f a).length = n) :
    ∀ l : List α, (l.flatMap f).length = l.length * n := by
  intro l
  induction l with
  | nil => simp
  | cons a l ih => rw [List.flatMap_cons, List.length_append, ih, h, List.length_cons, Nat.succ_mul, Nat.add_comm]

omit [DecidableEq ρ] in
theorem length_allKeys (g : ρ → Peg ρ) (rs : List ρ) (n : Nat) :
    (allKeys g rs n).length = (rs.map fun r => Peg.count (g r)).sum * (n + 1) := by
  rw [allKeys, length_flatMap_const _ (n + 1) (by simp)]
  congr 1
  induction rs with
  | nil => rfl
  | cons r rs ih => simp [List.flatMap_cons, ih, length_pegWays]

/-- The number of evaluations. -/
theorem MemoOk.length_le {g : ρ → Peg ρ} {text : Str} {I c} (h : MemoOk g text I c) {rs : List ρ} (hrs : ∀ r, r ∈ rs) :
    c.started.length ≤ (rs.map fun r => Peg.count (g r)).sum * (text.length + 1) := by
  rw [← length_allKeys]
  refine nodup_length_le h.once (fun key hk => ?_)
  obtain ⟨⟨r, w⟩, k⟩ := key
  obtain ⟨h1, h2⟩ := h.inside _ hk
  simp only [allKeys, List.mem_flatMap, List.mem_map, List.mem_range]
  exact ⟨(r, w), ⟨r, hrs r, w, reached_mem h1, rfl⟩, k, Nat.lt_succ_of_le h2, rfl⟩

/-- The empty cache. -/
theorem memoOk_nil (g : ρ → Peg ρ) (text : Str) : MemoOk g text [] [] where
  stored := by simp
  busy := by simp
  once := by simp [Memo.started]
  inside := by simp [Memo.started]

end Verif
