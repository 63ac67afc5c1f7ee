import Verif.Lemmas.Literal
import Verif.Spec.Plain

namespace Verif
open Spec

/-- Characters that occur in the `repr` of a float. -/
def floatChar (c : Char) : Bool :=
  isDigit c || c == '.' || c == '-' || c == '+' || c == 'e' || c == 'i' || c == 'n' || c == 'f' || c == 'a'

theorem layoutRepr_chars {ds : Str} {k : Int} (hd : ∀ c ∈ ds, isDigit c = true) :
    ∀ c ∈ layoutRepr ds k, floatChar c = true := by
  intro c hc
  have dig : ∀ c, isDigit c = true → floatChar c = true := by
    intro c h; simp [floatChar, h]
  unfold layoutRepr at hc
  split at hc
  · simp only [List.mem_append] at hc
    rcases hc with (hc | hc) | hc
    · split at hc
      · simp at hc
      · rename_i d ds
        split at hc
        · simp only [List.mem_singleton] at hc; subst hc; exact dig _ (hd _ (by simp))
        · simp only [List.mem_cons] at hc
          rcases hc with hc | hc | hc
          · subst hc; exact dig _ (hd _ (by simp))
          · subst hc; decide
          · exact dig _ (hd _ (by simp [hc]))
    · simp only [List.mem_cons, List.not_mem_nil, or_false] at hc
      rcases hc with hc | hc
      · subst hc; decide
      · split at hc <;> subst hc <;> decide
    · exact dig _ (padNat_digits hc)
  · split at hc
    · simp only [List.mem_append, List.mem_cons, List.not_mem_nil, or_false, List.mem_replicate] at hc
      rcases hc with ((hc | hc) | hc) | hc
      · subst hc; decide
      · subst hc; decide
      · rw [hc.2]; decide
      · exact dig _ (hd _ hc)
    · split at hc
      · simp only [List.mem_append, List.mem_cons, List.not_mem_nil, or_false, List.mem_replicate] at hc
        rcases hc with (hc | hc) | (hc | hc)
        · exact dig _ (hd _ hc)
        · rw [hc.2]; decide
        · subst hc; decide
        · subst hc; decide
      · simp only [List.mem_append, List.mem_cons, List.not_mem_nil, or_false] at hc
        rcases hc with (hc | hc) | hc
        · exact dig _ (hd _ (List.mem_of_mem_take hc))
        · subst hc; decide
        · exact dig _ (hd _ (List.mem_of_mem_drop hc))

theorem repr_chars (f : PyFloat) : ∀ c ∈ f.repr, floatChar c = true := by
  cases f with
  | fin d =>
    intro c hc
    simp only [PyFloat.repr, List.mem_append] at hc
    rcases hc with hc | hc
    · split at hc
      · simp only [List.mem_singleton] at hc; subst hc; decide
      · simp at hc
    · unfold Dbl.reprAbs at hc
      split at hc
      · simp only [List.mem_cons, List.not_mem_nil, or_false] at hc
        rcases hc with h | h | h <;> subst h <;> decide
      · exact layoutRepr_chars (fun _ => natStr_digits) _ hc
  | inf neg => cases neg <;> decide
  | nan => decide

/-- Characters that occur in an ISO date or datetime. -/
def isoChar (c : Char) : Bool :=
  isDigit c || c == '-' || c == 'T' || c == ':' || c == '.' || c == '+'

theorem dateIso_chars (d : Date) : ∀ c ∈ d.iso, isoChar c = true := by
  have dig : ∀ c, isDigit c = true → isoChar c = true := by intro c h; simp [isoChar, h]
  intro c hc
  simp only [Date.iso, List.mem_append, List.mem_singleton] at hc
  rcases hc with (((hc | hc) | hc) | hc) | hc <;>
    first | (subst hc; decide) | exact dig _ (padNat_digits hc)

theorem formatOffset_chars (o : Int) : ∀ c ∈ formatOffset o, isoChar c = true := by
  have dig : ∀ c, isDigit c = true → isoChar c = true := by intro c h; simp [isoChar, h]
  intro c hc
  simp only [formatOffset, List.mem_append, List.mem_singleton] at hc
  rcases hc with (((hc | hc) | hc) | hc) | hc
  · split at hc <;> (simp only [List.mem_singleton] at hc; subst hc; decide)
  · exact dig _ (padNat_digits hc)
  · subst hc; decide
  · exact dig _ (padNat_digits hc)
  · split at hc
    · simp only [List.mem_append, List.mem_singleton] at hc
      rcases hc with (hc | hc) | hc
      · subst hc; decide
      · exact dig _ (padNat_digits hc)
      · split at hc
        · simp only [List.mem_append, List.mem_singleton] at hc
          rcases hc with hc | hc
          · subst hc; decide
          · exact dig _ (padNat_digits hc)
        · simp at hc
    · simp at hc

theorem datetimeIso_chars (t : Datetime) : ∀ c ∈ t.iso, isoChar c = true := by
  have dig : ∀ c, isDigit c = true → isoChar c = true := by intro c h; simp [isoChar, h]
  intro c hc
  simp only [Datetime.iso, List.mem_append, List.mem_singleton] at hc
  rcases hc with (((((((hc | hc) | hc) | hc) | hc) | hc) | hc) | hc) | hc
  · exact dateIso_chars _ _ hc
  · subst hc; decide
  · exact dig _ (padNat_digits hc)
  · subst hc; decide
  · exact dig _ (padNat_digits hc)
  · subst hc; decide
  · exact dig _ (padNat_digits hc)
  · split at hc
    · simp only [List.mem_append, List.mem_singleton] at hc
      rcases hc with hc | hc
      · subst hc; decide
      · exact dig _ (padNat_digits hc)
    · simp at hc
  · split at hc
    · exact formatOffset_chars _ _ hc
    · simp at hc

theorem translateAll_mem {cfg : Cfg} : ∀ {xs : List Val} {ps : List Str}, translateAll cfg xs = .ok ps →
    ∀ p ∈ ps, ∃ x ∈ xs, translate cfg x = .ok p
  | [], ps, h, p, hp => by simp [translateAll] at h; subst h; simp at hp
  | x :: xs, ps, h, p, hp => by
    simp only [translateAll, bind_eq_ok] at h
    obtain ⟨t, ht, ts, hts, h⟩ := h
    simp only [Except.ok.injEq] at h; subst h
    simp only [List.mem_cons] at hp
    rcases hp with rfl | hp
    · exact ⟨x, by simp, ht⟩
    · obtain ⟨y, hy, hy'⟩ := translateAll_mem hts p hp
      exact ⟨y, by simp [hy], hy'⟩

theorem plain_no_newline (cfg : Cfg) {v : Val} (hv : Plain v) :
    ∀ t, translate cfg v = .ok t → '\n' ∉ t := by
  have seqCase : ∀ (xs : List Val) (o : Str), '\n' ∉ o →
      (∀ x ∈ xs, ∀ t, translate cfg x = .ok t → '\n' ∉ t) → ∀ t,
      (do let _ ← allScalar xs
          let ps ← translateAll cfg xs
          Except.ok (o ++ joinWith c!", " ps ++ seqClose cfg)) = Except.ok (ε := Err) t → '\n' ∉ t := by
    intro xs o ho ih t h
    simp only [bind_eq_ok] at h
    obtain ⟨_, _, ps, hps, h⟩ := h
    simp only [Except.ok.injEq] at h; subst h
    simp only [List.mem_append, not_or]
    refine ⟨⟨ho, fun h => ?_⟩, by unfold seqClose; split <;> decide⟩
    rcases mem_joinWith h with h | ⟨p, hp, hn⟩
    · exact absurd h (by decide)
    · obtain ⟨x, hx, hx'⟩ := translateAll_mem hps p hp
      exact ih x hx p hx' hn
  have hf : floatChar '\n' = false := by decide
  have hi : isoChar '\n' = false := by decide
  have hto : ∀ s : Str, (∀ c ∈ s, isoChar c = true) → '\n' ∉ toDateTimeLit s := by
    intro s hs h
    unfold toDateTimeLit at h
    simp only [List.mem_append] at h
    rcases h with (h | h) | h
    · exact absurd h (by decide)
    · have := hs _ h; simp [hi] at this
    · exact absurd h (by decide)
  induction hv with
  | none => intro t h; simp only [translate, Except.ok.injEq] at h; subst h; decide
  | bool b => intro t h; simp only [translate, Except.ok.injEq] at h; subst h; cases b <;> decide
  | int i =>
    intro t h; simp only [translate, Except.ok.injEq] at h; subst h
    intro h; rcases intStr_chars h with h | h <;> exact absurd h (by decide)
  | float f =>
    intro t h; simp only [translate, Except.ok.injEq] at h; subst h
    intro h; have := repr_chars f _ h; simp [hf] at this
  | str s => intro t h; simp only [translate, Except.ok.injEq] at h; subst h; exact strLit_no_newline _ _
  | bytes bs =>
    intro t h; simp only [translate] at h
    split at h
    · simp only [Except.ok.injEq] at h; subst h; exact strLit_no_newline _ _
    · simp at h
  | date d =>
    intro t h; simp only [translate, Except.ok.injEq] at h; subst h
    exact hto _ (dateIso_chars d)
  | datetime d =>
    intro t h; simp only [translate, bind_eq_ok] at h
    obtain ⟨u, _, h⟩ := h
    simp only [Except.ok.injEq] at h; subst h
    exact hto _ (datetimeIso_chars u)
  | list xs _ ih =>
    intro t h
    rw [translate] at h
    exact seqCase xs _ (by unfold arrayOpen; split <;> decide) ih t h
  | tuple xs _ ih =>
    intro t h
    rw [translate] at h
    exact seqCase xs _ (by unfold tupleOpen; split <;> decide) ih t h

end Verif
