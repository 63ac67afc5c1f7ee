import Verif.Lemmas.Date
import Verif.Spec.Moment

/-!
# C04: datetime literals denote the same instant in UTC
-/

namespace Verif
open Spec

/-- C04 (meaning): whenever a datetime is rendered, the text read as naive UTC denotes the instant of the
datetime. -/
theorem C04_denotes_instant (cfg : Cfg) (t : Datetime) (s : Str) (h : translate cfg (.datetime t) = .ok s) :
    ∃ n : Nat, readDateTimeLit s = some n ∧ utcInstant t = some (n : Int) := by
  simp only [translate] at h
  cases hz : t.tz with
  | none =>
    simp only [Datetime.toNaiveUtc, hz, ok_bind] at h
    cases h
    exact ⟨_, readDateTimeLit_iso t hz, by simp only [utcInstant, hz]; rfl⟩
  | some o =>
    cases o with
    | none => simp [Datetime.toNaiveUtc, hz] at h
    | some off =>
      simp only [Datetime.toNaiveUtc, hz, localMicros_eq] at h
      by_cases hr : Representable (t.inst - off)
      · obtain ⟨h1, h2⟩ := hr
        obtain ⟨n, hn⟩ : ∃ n : Nat, (t.inst : Int) - off = n :=
          ⟨((t.inst : Int) - off).toNat, by omega⟩
        rw [hn] at h h1 h2
        obtain ⟨u, hu, hut, hui⟩ := ofMicros_ok n (by omega) (by omega)
        rw [hu, ok_bind] at h
        cases h
        refine ⟨n, by rw [readDateTimeLit_iso u hut, hui], ?_⟩
        simp only [utcInstant, hz]
        rw [← hn]; simp only [Datetime.inst]
      · rw [ofMicros_overflow _ (by unfold Representable at hr; omega)] at h
        simp at h

/-- C04 (success): a datetime is rendered exactly when its UTC instant exists and is representable; otherwise
the error is `OverflowError` (out of range) or `AssertionError` (tzinfo without offset). -/
theorem C04_succeeds_iff (cfg : Cfg) (t : Datetime) :
    ((∃ s, translate cfg (.datetime t) = .ok s) ↔ ∃ n, utcInstant t = some n ∧ Representable n) ∧
    (utcInstant t = none → translate cfg (.datetime t) = .error .assertion) ∧
    (∀ n, utcInstant t = some n → ¬ Representable n → translate cfg (.datetime t) = .error .overflowError) := by
  simp only [translate]
  cases hz : t.tz with
  | none =>
    have hr := inst_range t
    simp only [Datetime.toNaiveUtc, hz, ok_bind, utcInstant]
    refine ⟨⟨fun _ => ⟨_, rfl, ?_⟩, fun _ => ⟨_, rfl⟩⟩, by simp, ?_⟩
    · simp only [Representable]; simp only [Datetime.inst] at hr; omega
    · intro n hn hnr
      cases hn
      exact absurd ⟨by simp only [Datetime.inst] at hr; omega, by simp only [Datetime.inst] at hr; omega⟩ hnr
  | some o =>
    cases o with
    | none => simp [Datetime.toNaiveUtc, hz, utcInstant]
    | some off =>
      simp only [Datetime.toNaiveUtc, hz, localMicros_eq, utcInstant]
      refine ⟨⟨?_, ?_⟩, by simp, ?_⟩
      · intro ⟨s, h⟩
        refine ⟨_, rfl, ?_⟩
        apply Classical.byContradiction
        intro hr
        rw [ofMicros_overflow _ (by simp only [Representable] at hr; simp only [Datetime.inst]; omega)] at h
        simp at h
      · intro ⟨n, hn, hr⟩
        cases hn
        obtain ⟨h1, h2⟩ := hr
        obtain ⟨n, hn⟩ : ∃ n : Nat, (t.inst : Int) - off = n :=
          ⟨((t.inst : Int) - off).toNat, by simp only [Datetime.inst]; omega⟩
        obtain ⟨u, hu, _, _⟩ := ofMicros_ok n (by simp only [Datetime.inst] at hn; omega)
          (by simp only [Datetime.inst] at hn; omega)
        rw [hn, hu]
        exact ⟨_, rfl⟩
      · intro n hn hr
        cases hn
        rw [ofMicros_overflow _ (by simp only [Representable] at hr; simp only [Datetime.inst]; omega)]
        rfl

/-- C04 (same text): two rendered datetimes have the same text exactly when they denote the same instant. -/
theorem C04_same_text_iff (cfg : Cfg) (t u : Datetime) (s s' : Str) (h : translate cfg (.datetime t) = .ok s)
    (h' : translate cfg (.datetime u) = .ok s') : s = s' ↔ utcInstant t = utcInstant u := by
  obtain ⟨n, hn, ht⟩ := C04_denotes_instant cfg t s h
  obtain ⟨n', hn', hu⟩ := C04_denotes_instant cfg u s' h'
  constructor
  · intro he
    subst he
    rw [hn] at hn'
    cases hn'
    rw [ht, hu]
  · intro he
    rw [ht, hu] at he
    have hnn : n = n' := by injection he with he; omega
    simp only [translate] at h h'
    simp only [bind_eq_ok] at h h'
    obtain ⟨a, ha, hs⟩ := h
    obtain ⟨b, hb, hs'⟩ := h'
    cases hs; cases hs'
    have naive : ∀ {t a : Datetime}, t.toNaiveUtc = .ok a → a.tz = none := by
      intro t a ha
      unfold Datetime.toNaiveUtc at ha
      split at ha
      · cases ha; assumption
      · cases ha
      · unfold ofMicros at ha
        simp only at ha
        split at ha
        · split at ha
          · split at ha
            · cases ha; rfl
            · cases ha
          · cases ha
        · cases ha
    have ea := naive ha
    have eb := naive hb
    rw [readDateTimeLit_iso a ea] at hn
    rw [readDateTimeLit_iso b eb] at hn'
    rw [inst_inj ea eb ((Option.some.inj hn).trans (hnn.trans (Option.some.inj hn').symm))]

/-- C04 (naive): naive datetimes are printed with their own fields. -/
theorem C04_naive_fields (cfg : Cfg) (t : Datetime) (ht : t.tz = none) :
    ∃ s, translate cfg (.datetime t) = .ok s ∧
      readDateTimeLit s = some (instant t.date.y t.date.m t.date.d t.h t.mi t.s t.us) := by
  obtain ⟨s, hs⟩ := (C04_succeeds_iff cfg t).1.2 (by
    refine ⟨(t.inst : Int), by simp only [utcInstant, ht, Datetime.inst], ?_⟩
    have hr := inst_range t
    exact ⟨by omega, by omega⟩)
  obtain ⟨n, hn, hu⟩ := C04_denotes_instant cfg t s hs
  refine ⟨s, hs, ?_⟩
  simp only [utcInstant, ht] at hu
  rw [hn]
  congr 1
  injection hu with hu
  omega

/-- C04 (dates): a date literal reads back as its year, month and day, and is never the text of a
datetime. -/
theorem C04_date_fields (cfg : Cfg) (d : Date) :
    ∃ s, translate cfg (.date d) = .ok s ∧ readDateLit s = some (d.y, d.m, d.d) ∧
      ∀ t, translate cfg (.datetime t) ≠ .ok s := by
  refine ⟨_, rfl, readDateLit_iso d, fun t ht => ?_⟩
  simp only [translate, bind_eq_ok] at ht
  obtain ⟨u, _, hs⟩ := ht
  injection hs with hs
  have h1 := readDateLit_datetime u
  rw [hs, readDateLit_iso] at h1
  cases h1

section Examples

/-- 2024-03-01T00:30:00 with offset +01:00: the last day of February of a leap year in UTC. -/
example : translate .snql (.datetime ⟨⟨2024, 3, 1, by decide⟩, 0, 30, 0, 5, some (some 3600000000), by decide⟩) =
    .ok c!"toDateTime('2024-02-29T23:30:00.000005')" := by decide

/-- The same instant with offset -05:30. -/
example : translate .snql (.datetime ⟨⟨2024, 2, 29, by decide⟩, 18, 0, 0, 5, some (some (-19800000000)), by decide⟩) =
    .ok c!"toDateTime('2024-02-29T23:30:00.000005')" := by decide

/-- Year 1 shifted below the representable range. -/
example : translate .snql (.datetime ⟨⟨1, 1, 1, by decide⟩, 0, 0, 0, 0, some (some 1), by decide⟩) =
    .error .overflowError := by decide

example : translate .snql (.datetime ⟨⟨2020, 12, 31, by decide⟩, 23, 59, 59, 0, none, by decide⟩) =
    .ok c!"toDateTime('2020-12-31T23:59:59')" := by decide

example : translate .snql (.date ⟨2020, 2, 29, by decide⟩) = .ok c!"toDateTime('2020-02-29')" := by decide

end Examples

end Verif
