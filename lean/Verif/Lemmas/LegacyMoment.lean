import Verif.Lemmas.LegacyDate
import Verif.Lemmas.Names
import Verif.Model.Legacy

/-!
# Lemmas: `parse_datetime` reads exactly the accepted texts
-/

namespace Verif

open Spec

variable [D : PyDecimal]

omit D in
theorem readMark_iff {m : Char} {s r : Str} :
    readMark m s = some r ↔ ∃ c, s = c :: r ∧ (c = m ∨ (m = 'T' ∧ c = 't')) := by
  cases s with
  | nil => simp [readMark]
  | cons c s =>
    simp only [readMark]
    constructor
    · intro h
      split at h
      · rename_i hc
        cases h
        simp only [Bool.or_eq_true, beq_iff_eq, Bool.and_eq_true] at hc
        exact ⟨c, rfl, hc⟩
      · cases h
    · rintro ⟨c', h, hc⟩
      cases h
      rw [if_pos (by simpa using hc)]

omit D in
theorem readMark_self {m : Char} {r : Str} : readMark m (m :: r) = some r := readMark_iff.2 ⟨m, rfl, .inl rfl⟩

theorem readFields_sound {s r : Str} {f : Fields} (h : readFields s = some (f, r)) (hs : f.s < 60) :
    ∃ t, s = t ++ r ∧ MomentText t f.y f.m f.d f.h f.mi f.s := by
  simp only [readFields, Option.bind_eq_bind, Option.bind_eq_some_iff, Option.some.injEq, Prod.mk.injEq, Prod.exists] at h
  obtain ⟨y, s1, h1, s2, h2, m, s3, h3, s4, h4, d, s5, h5, s6, h6, hh, s7, h7, s8, h8, mi, s9, h9, s10, h10, sec, s11, h11, rfl, rfl⟩ := h
  obtain ⟨ty, rfl, hy⟩ := readYear_iff.1 h1
  obtain ⟨c1, rfl, e1⟩ := readMark_iff.1 h2
  obtain ⟨tm, rfl, hm⟩ := readMonth_sound h3
  obtain ⟨c2, rfl, e2⟩ := readMark_iff.1 h4
  obtain ⟨td, rfl, hd⟩ := readDay_sound h5
  obtain ⟨mark, rfl, e3⟩ := readMark_iff.1 h6
  obtain ⟨th, rfl, hh⟩ := readHour_sound h7
  obtain ⟨c4, rfl, e4⟩ := readMark_iff.1 h8
  obtain ⟨tmi, rfl, hmi⟩ := readMinute_sound h9
  obtain ⟨c5, rfl, e5⟩ := readMark_iff.1 h10
  obtain ⟨ts, rfl, hs⟩ := readSecond_sound h11 hs
  have e1 : c1 = '-' := by rcases e1 with e | ⟨e, -⟩; exact e; exact absurd e (by decide)
  have e2 : c2 = '-' := by rcases e2 with e | ⟨e, -⟩; exact e; exact absurd e (by decide)
  have e4 : c4 = ':' := by rcases e4 with e | ⟨e, -⟩; exact e; exact absurd e (by decide)
  have e5 : c5 = ':' := by rcases e5 with e | ⟨e, -⟩; exact e; exact absurd e (by decide)
  have e3 : mark = 'T' ∨ mark = 't' := by rcases e3 with e | ⟨-, e⟩; exact .inl e; exact .inr e
  subst e1 e2 e4 e5
  refine ⟨ty ++ '-' :: tm ++ '-' :: td ++ mark :: th ++ ':' :: tmi ++ ':' :: ts, by simp, ?_⟩
  exact ⟨ty, tm, td, mark, th, tmi, ts, rfl, hy, hm, hd, e3, hh, hmi, hs⟩

theorem readFields_complete {t r : Str} {y m d h mi s : Nat} (ht : MomentText t y m d h mi s) (hr : NoDigit r) :
    readFields (t ++ r) = some (⟨y, m, d, h, mi, s⟩, r) := by
  obtain ⟨ty, tm, td, mark, th, tmi, ts, rfl, hy, hm, hd, e3, hh, hmi, hs⟩ := ht
  have n3 : NoDigit (mark :: (th ++ ':' :: (tmi ++ ':' :: (ts ++ r)))) := by
    rcases e3 with rfl | rfl
    · exact noDigit_mark (by decide) (by decide)
    · exact noDigit_mark (by decide) (by decide)
  have m3 : readMark 'T' (mark :: (th ++ ':' :: (tmi ++ ':' :: (ts ++ r)))) = some (th ++ ':' :: (tmi ++ ':' :: (ts ++ r))) := by
    rcases e3 with rfl | rfl <;> rfl
  simp only [List.append_assoc, List.cons_append, readFields, Option.bind_eq_bind]
  rw [readYear_iff.2 ⟨ty, rfl, hy⟩]
  simp only [Option.bind_some, readMark_self]
  rw [readMonth_complete hm (noDigit_mark (by decide) (by decide))]
  simp only [Option.bind_some, readMark_self]
  rw [readDay_complete hd n3]
  simp only [Option.bind_some, m3]
  rw [readHour_complete hh (noDigit_mark (by decide) (by decide))]
  simp only [Option.bind_some, readMark_self]
  rw [readMinute_complete hmi (noDigit_mark (by decide) (by decide))]
  simp only [Option.bind_some, readMark_self]
  rw [readSecond_complete hs hr]
  rfl

omit D in
theorem foldl_digits : ∀ (ds : List Nat) (a : Nat),
    ds.foldl (fun a d => 10 * a + d) a = a * 10 ^ ds.length + ds.foldl (fun a d => 10 * a + d) 0
  | [], a => by simp
  | d :: ds, a => by
    simp only [List.foldl_cons, List.length_cons]
    rw [foldl_digits ds (10 * a + d), foldl_digits ds (10 * 0 + d)]
    rw [Nat.pow_succ, Nat.add_mul]
    simp only [Nat.mul_zero, Nat.zero_add]
    rw [Nat.mul_comm 10 a, Nat.mul_assoc, Nat.mul_comm 10 (10 ^ ds.length)]
    omega

omit D in
theorem readPadded_complete {a : Char → Option Nat} : ∀ (w : Nat) (t : Str) (ds : List Nat), t.length ≤ w → t.map a = ds.map some →
    readPadded a w t = (ds.foldl (fun a d => 10 * a + d) 0 * 10 ^ (w - t.length), [])
  | 0, t, ds, hl, hm => by
    have : t = [] := List.length_eq_zero_iff.1 (by omega)
    subst this
    have : ds = [] := by cases ds with
      | nil => rfl
      | cons => simp at hm
    subst this
    rfl
  | w + 1, [], ds, hl, hm => by
    have : ds = [] := by cases ds with
      | nil => rfl
      | cons => simp at hm
    subst this
    simp [readPadded]
  | w + 1, c :: t, ds, hl, hm => by
    cases ds with
    | nil => simp at hm
    | cons d ds =>
      simp only [List.map_cons, List.cons.injEq] at hm
      have hlen : t.length = ds.length := by
        have := congrArg List.length hm.2
        simpa using this
      simp only [List.length_cons] at hl
      simp only [readPadded, hm.1]
      rw [readPadded_complete w t ds (by omega) hm.2]
      simp only [List.foldl_cons, List.length_cons, Nat.mul_zero, Nat.zero_add, Nat.reduceSubDiff]
      rw [foldl_digits ds d, Nat.add_mul, ← hlen, Nat.mul_assoc, ← Nat.pow_add, Nat.add_sub_cancel' (by omega)]

omit D in
theorem readPadded_sound {a : Char → Option Nat} : ∀ (w : Nat) (s : Str) {v : Nat} {r : Str}, readPadded a w s = (v, r) →
    ∃ (t : Str) (ds : List Nat), s = t ++ r ∧ t.length ≤ w ∧ t.map a = ds.map some ∧ v = ds.foldl (fun a d => 10 * a + d) 0 * 10 ^ (w - t.length)
  | 0, s, v, r, h => by
    cases h
    exact ⟨[], [], rfl, Nat.le_refl _, rfl, rfl⟩
  | w + 1, [], v, r, h => by
    cases h
    exact ⟨[], [], rfl, Nat.zero_le _, rfl, by simp⟩
  | w + 1, c :: s, v, r, h => by
    simp only [readPadded] at h
    split at h
    · rename_i n hc
      cases h
      obtain ⟨t, ds, h1, h2, h3, h4⟩ := readPadded_sound w s (v := (readPadded a w s).1) (r := (readPadded a w s).2) rfl
      have hlen : t.length = ds.length := by
        have := congrArg List.length h3
        simpa using this
      refine ⟨c :: t, n :: ds, by rw [List.cons_append, ← h1], by simp only [List.length_cons]; omega, by simp [hc, h3], ?_⟩
      simp only [List.foldl_cons, List.length_cons, Nat.mul_zero, Nat.zero_add, Nat.reduceSubDiff]
      rw [foldl_digits ds n, Nat.add_mul, ← hlen, Nat.mul_assoc, ← Nat.pow_add, Nat.add_sub_cancel' h2, h4]
    · cases h
      exact ⟨[], [], rfl, Nat.zero_le _, rfl, by simp⟩

/-- Reading a fraction with a class of digits. -/
theorem readFraction_iff {a : Char → Option Nat} (ha : ∀ c n, a c = some n → D.value c = some n) {s : Str} {us : Nat} :
    readFraction a s = some (us, []) ↔ ∃ t, s = '.' :: t ∧ MicrosText t us ∧ ∀ c ∈ t, ∃ n, a c = some n := by
  constructor
  · intro h
    unfold readFraction at h
    split at h
    · rename_i c s
      split at h
      · rename_i n hc
        have h := Option.some.inj h
        obtain ⟨t, ds, h1, h2, h3, h4⟩ := readPadded_sound 6 (c :: s) h
        have hlen : t.length = ds.length := by
          have := congrArg List.length h3
          simpa using this
        rw [List.append_nil] at h1
        subst h1
        refine ⟨c :: s, rfl, ⟨_, by simp, h2, ⟨ds, ?_, rfl⟩, h4⟩, ?_⟩
        · rw [← h3]
          apply List.map_congr_left
          intro x hx
          have : a x ∈ (c :: s).map a := List.mem_map_of_mem hx
          rw [h3] at this
          obtain ⟨n, -, hn⟩ := List.mem_map.1 this
          rw [← hn]; exact ha _ _ hn.symm
        · intro x hx
          have : a x ∈ (c :: s).map a := List.mem_map_of_mem hx
          rw [h3] at this
          obtain ⟨n, -, hn⟩ := List.mem_map.1 this
          exact ⟨n, hn.symm⟩
      · cases h
    · cases h
  · rintro ⟨t, rfl, ⟨n, hl1, hl2, ⟨ds, hm, rfl⟩, rfl⟩, hall⟩
    match t, hl1 with
    | c :: t, _ =>
      obtain ⟨d, hd⟩ := hall c (List.mem_cons_self ..)
      simp only [readFraction, hd]
      have hma : (c :: t).map a = ds.map some := by
        rw [← hm]
        apply List.map_congr_left
        intro x hx
        obtain ⟨k, hk⟩ := hall x hx
        rw [hk, ha _ _ hk]
      rw [readPadded_complete 6 (c :: t) ds hl2 hma]

theorem readFraction_ascii {s : Str} {us : Nat} :
    readFraction (digitIn 0 9) s = some (us, []) ↔ ∃ t, s = '.' :: t ∧ AsciiDigits t ∧ MicrosText t us := by
  rw [readFraction_iff fun _ _ => digitIn_value]
  have key : ∀ c : Char, (∃ n, digitIn 0 9 c = some n) ↔ ('0' ≤ c ∧ c ≤ '9') := by
    intro c
    rw [digitIn_low]
    refine ⟨fun h => h.1, fun h => ⟨h, ?_⟩⟩
    have := digit_range h
    omega
  constructor
  · rintro ⟨t, h1, h2, h3⟩
    exact ⟨t, h1, fun c hc => (key c).1 (h3 c hc), h2⟩
  · rintro ⟨t, h1, h2, h3⟩
    exact ⟨t, h1, h3, fun c hc => (key c).2 (h2 c hc)⟩

theorem number_mem {t : Str} {n : Nat} (h : Number t n) {c : Char} (hc : c ∈ t) : ∃ k, D.value c = some k := by
  obtain ⟨ds, hm, -⟩ := h
  have : D.value c ∈ t.map D.value := List.mem_map_of_mem hc
  rw [hm] at this
  obtain ⟨k, -, hk⟩ := List.mem_map.1 this
  exact ⟨k, hk.symm⟩

theorem readFraction_any {s : Str} {us : Nat} :
    readFraction D.value s = some (us, []) ↔ ∃ t, s = '.' :: t ∧ MicrosText t us := by
  rw [readFraction_iff value_id]
  constructor
  · rintro ⟨t, h1, h2, -⟩; exact ⟨t, h1, h2⟩
  · rintro ⟨t, h1, h2⟩
    refine ⟨t, h1, h2, fun c hc => ?_⟩
    obtain ⟨n, -, -, hn, -⟩ := h2
    exact number_mem hn hc

theorem twoDigits_iff {s r : Str} {n : Nat} :
    readTwo (digitIn 0 5) D.value s = some (n, r) ↔ ∃ t, s = t ++ r ∧ TwoDigitsText t n := by
  rw [readTwo_iff]
  constructor
  · rintro ⟨c, d, i, j, rfl, h1, h2, rfl⟩
    exact ⟨[c, d], rfl, rfl, begins_iff.2 (sixty_first.1 h1).1, number_two.2 ⟨i, j, digitIn_value h1, h2, rfl⟩⟩
  · rintro ⟨t, rfl, hl, hb, hn⟩
    match t, hl with
    | [c, d], _ =>
      obtain ⟨i, j, h1, h2, rfl⟩ := number_two.1 hn
      have hm := sixty_first.2 ⟨begins_iff.1 hb, rfl⟩
      have hv := digitIn_value hm
      rw [h1] at hv; cases hv
      exact ⟨c, d, _, j, rfl, hm, h2, rfl⟩

theorem hours_iff {s r : Str} {n : Nat} :
    readTwo D.value D.value s = some (n, r) ↔ ∃ t, s = t ++ r ∧ t.length = 2 ∧ Number t n := by
  rw [readTwo_iff]
  constructor
  · rintro ⟨c, d, i, j, rfl, h1, h2, rfl⟩
    exact ⟨[c, d], rfl, rfl, number_two.2 ⟨i, j, h1, h2, rfl⟩⟩
  · rintro ⟨t, rfl, hl, hn⟩
    match t, hl with
    | [c, d], _ =>
      obtain ⟨i, j, h1, h2, rfl⟩ := number_two.1 hn
      exact ⟨c, d, i, j, rfl, h1, h2, rfl⟩

omit D in
theorem readColon_cases (s : Str) : (readColon s = (false, s)) ∨ ∃ s', s = ':' :: s' ∧ readColon s = (true, s') := by
  unfold readColon
  split
  · exact .inr ⟨_, rfl, rfl⟩
  · exact .inl rfl

/-- The separator for the flag of the reader. -/
def sepOf (colon : Bool) : Str := if colon then [':'] else []

omit D in
theorem readColon_sep (s : Str) : s = sepOf (readColon s).1 ++ (readColon s).2 := by
  rcases readColon_cases s with h | ⟨s', rfl, h⟩ <;> rw [h] <;> rfl

theorem twoDigits_head {t : Str} {n : Nat} (h : TwoDigitsText t n) (r : Str) : readColon (t ++ r) = (false, t ++ r) := by
  obtain ⟨-, ⟨c, t', rfl, hc⟩, -⟩ := h
  have : c ≠ ':' := by rintro rfl; revert hc; decide
  simp only [List.cons_append, readColon]
  split
  · rename_i h; cases h; exact absurd rfl this
  · rfl

theorem readColon_sepOf {t : Str} {n : Nat} (h : TwoDigitsText t n) (r : Str) (b : Bool) :
    readColon (sepOf b ++ t ++ r) = (b, t ++ r) := by
  cases b
  · simpa [sepOf] using twoDigits_head h r
  · rfl

theorem Spec.OffsetText.cast {sep t : Str} {n m : Nat} (h : OffsetText sep t n) (e : n = m) : OffsetText sep t m := e ▸ h

theorem readZoneSize_sound {s : Str} {n : Nat} (h : readZoneSize s = some (n, [])) :
    ∃ b, OffsetText (sepOf b) s n := by
  simp only [readZoneSize, Option.bind_eq_bind, Option.bind_eq_some_iff, Option.some.injEq, Prod.mk.injEq, Prod.exists] at h
  obtain ⟨hh, s1, h1, m, s2, h2, us, s3, h3, rfl, rfl⟩ := h
  obtain ⟨th, rfl, hl, hn⟩ := hours_iff.1 h1
  obtain ⟨tm, e2, hm⟩ := twoDigits_iff.1 h2
  have e1 := readColon_sep s1
  rw [e2] at e1
  rw [e1]
  refine ⟨(readColon s1).1, ?_⟩
  generalize (readColon s1).1 = b at *
  unfold readZoneSeconds at h3
  split at h3
  · simp only [Option.some.injEq, Prod.mk.injEq] at h3
    obtain ⟨rfl, rfl⟩ := h3
    have := OffsetText.minutes (sep := sepOf b) hl hn hm
    rw [List.append_nil, ← List.append_assoc]
    exact this.cast (by omega)
  · rename_i sec s4 h4
    obtain ⟨ts, e4, hs⟩ := twoDigits_iff.1 h4
    have e5 := readColon_sep s2
    split at h3
    · rename_i hb
      rw [hb, e4] at e5
      rw [e5]
      split at h3
      · rename_i us' s5 h5
        simp only [Option.some.injEq, Prod.mk.injEq] at h3
        obtain ⟨rfl, rfl⟩ := h3
        obtain ⟨tf, rfl, hf⟩ := readFraction_any.1 h5
        have := OffsetText.micros (sep := sepOf b) hl hn hm hs hf
        simp only [List.append_assoc] at this ⊢
        exact this.cast (by omega)
      · simp only [Option.some.injEq, Prod.mk.injEq] at h3
        obtain ⟨rfl, rfl⟩ := h3
        have := OffsetText.seconds (sep := sepOf b) hl hn hm hs
        simp only [List.append_assoc, List.append_nil] at this ⊢
        exact this.cast (by omega)
    · cases h3

theorem readZoneSize_complete {s : Str} {n : Nat} {b : Bool} (h : OffsetText (sepOf b) s n) : readZoneSize s = some (n, []) := by
  cases h with
  | minutes hl hn hm =>
    rename_i th tm h m
    simp only [readZoneSize, Option.bind_eq_bind, List.append_assoc]
    rw [hours_iff.2 ⟨th, rfl, hl, hn⟩]
    have hc := readColon_sepOf hm [] b
    simp only [List.append_nil] at hc
    simp only [Option.bind_some, hc]
    rw [twoDigits_iff.2 ⟨tm, (List.append_nil _).symm, hm⟩]
    simp only [Option.bind_some, readZoneSeconds, readColon, readTwo]
    refine congrArg (fun x : Nat => some (x, ([] : Str))) ?_
    omega
  | seconds hl hn hm hs =>
    rename_i th tm ts h m s
    simp only [readZoneSize, Option.bind_eq_bind, List.append_assoc]
    rw [hours_iff.2 ⟨th, rfl, hl, hn⟩]
    have hc := readColon_sepOf hm (sepOf b ++ ts) b
    simp only [List.append_assoc] at hc
    simp only [Option.bind_some, hc]
    rw [twoDigits_iff.2 ⟨tm, rfl, hm⟩]
    have hc2 := readColon_sepOf hs [] b
    simp only [List.append_nil] at hc2
    simp only [Option.bind_some, readZoneSeconds, hc2]
    rw [twoDigits_iff.2 ⟨ts, (List.append_nil _).symm, hs⟩]
    simp only [if_pos, readFraction, Option.bind_some]
    refine congrArg (fun x : Nat => some (x, ([] : Str))) ?_
    omega
  | micros hl hn hm hs hf =>
    rename_i th tm ts tf h m s us
    simp only [readZoneSize, Option.bind_eq_bind, List.append_assoc]
    rw [hours_iff.2 ⟨th, rfl, hl, hn⟩]
    have hc := readColon_sepOf hm (sepOf b ++ (ts ++ '.' :: tf)) b
    simp only [List.append_assoc] at hc
    simp only [Option.bind_some, hc]
    rw [twoDigits_iff.2 ⟨tm, rfl, hm⟩]
    have hc2 := readColon_sepOf hs ('.' :: tf) b
    simp only [List.append_assoc] at hc2
    simp only [Option.bind_some, readZoneSeconds, hc2]
    rw [twoDigits_iff.2 ⟨ts, rfl, hs⟩]
    simp only [if_pos]
    rw [readFraction_any.2 ⟨tf, rfl, hf⟩]
    simp only [Option.bind_some]
    refine congrArg (fun x : Nat => some (x, ([] : Str))) ?_
    omega

theorem readZone_iff {s : Str} {off : Int} : readZone s = some (off, []) ↔
    (s = ['Z'] ∧ off = 0) ∨ (∃ t b n, s = '+' :: t ∧ OffsetText (sepOf b) t n ∧ off = (n : Int)) ∨
      ∃ t b n, s = '-' :: t ∧ OffsetText (sepOf b) t n ∧ off = -(n : Int) := by
  constructor
  · intro h
    unfold readZone at h
    split at h
    · rename_i t
      simp only [Option.map_eq_some_iff, Prod.mk.injEq, Prod.exists] at h
      obtain ⟨n, r, h1, rfl, rfl⟩ := h
      obtain ⟨b, hb⟩ := readZoneSize_sound h1
      exact .inr (.inl ⟨t, b, n, rfl, hb, rfl⟩)
    · rename_i t
      simp only [Option.map_eq_some_iff, Prod.mk.injEq, Prod.exists] at h
      obtain ⟨n, r, h1, rfl, rfl⟩ := h
      obtain ⟨b, hb⟩ := readZoneSize_sound h1
      exact .inr (.inr ⟨t, b, n, rfl, hb, rfl⟩)
    · cases h
      exact .inl ⟨rfl, rfl⟩
    · cases h
  · rintro (⟨rfl, rfl⟩ | ⟨t, b, n, rfl, h, rfl⟩ | ⟨t, b, n, rfl, h, rfl⟩)
    · rfl
    · simp only [readZone, readZoneSize_complete h]; rfl
    · simp only [readZone, readZoneSize_complete h]; rfl

omit D in
theorem fields_datetime_iff {f : Fields} {us : Nat} {off : Option Int} {t : Datetime} :
    f.datetime us off = some t ↔
      t.date.y = f.y ∧ t.date.m = f.m ∧ t.date.d = f.d ∧ t.h = f.h ∧ t.mi = f.mi ∧ t.s = f.s ∧ t.us = us ∧ t.tz = off.map some := by
  constructor
  · intro h
    unfold Fields.datetime at h
    split at h
    · split at h
      · cases h; exact ⟨rfl, rfl, rfl, rfl, rfl, rfl, rfl, rfl⟩
      · cases h
    · cases h
  · rintro ⟨h1, h2, h3, h4, h5, h6, h7, h8⟩
    obtain ⟨⟨y, m, d, hd⟩, h, mi, s, us', tz, ht⟩ := t
    obtain ⟨y', m', d', h', mi', s'⟩ := f
    simp only at h1 h2 h3 h4 h5 h6 h7 h8
    subst h1 h2 h3 h4 h5 h6 h7 h8
    rw [Fields.datetime, dif_pos hd, dif_pos ht]

theorem datetime_seconds (t : Datetime) : t.s < 60 := (timeOk_iff t.ok).2.2.1

omit D in
theorem isEmpty_if {α} {s : Str} {x : Option α} {v : α} (h : (if s.isEmpty then x else none) = some v) : s = [] ∧ x = some v := by
  cases s with
  | nil => exact ⟨rfl, h⟩
  | cons => cases h

theorem strptimeFraction_iff {s : Str} {t : Datetime} : strptimeFraction s = some t ↔
    ∃ m f, s = m ++ '.' :: f ∧ MomentText m t.date.y t.date.m t.date.d t.h t.mi t.s ∧ AsciiDigits f ∧ MicrosText f t.us ∧ t.tz = none := by
  constructor
  · intro h
    simp only [strptimeFraction, Option.bind_eq_bind, Option.bind_eq_some_iff, Prod.exists] at h
    obtain ⟨f, r, h1, us, r', h2, h3⟩ := h
    obtain ⟨rfl, h3⟩ := isEmpty_if h3
    obtain ⟨e1, e2, e3, e4, e5, e6, e7, e8⟩ := fields_datetime_iff.1 h3
    have hs := datetime_seconds t
    rw [e6] at hs
    obtain ⟨m, rfl, hm⟩ := readFields_sound h1 hs
    obtain ⟨tf, rfl, ha, hf⟩ := readFraction_ascii.1 h2
    refine ⟨m, tf, rfl, ?_, ha, ?_, e8⟩
    · rw [e1, e2, e3, e4, e5, e6]; exact hm
    · rw [e7]; exact hf
  · rintro ⟨m, f, rfl, hm, ha, hf, htz⟩
    simp only [strptimeFraction, Option.bind_eq_bind]
    rw [readFields_complete hm (noDigit_mark (by decide) (by decide))]
    simp only [Option.bind_some]
    rw [readFraction_ascii.2 ⟨f, rfl, ha, hf⟩]
    simp only [Option.bind_some, List.isEmpty_nil, if_true]
    exact fields_datetime_iff.2 ⟨rfl, rfl, rfl, rfl, rfl, rfl, rfl, htz⟩

theorem strptimePlain_iff {s : Str} {t : Datetime} : strptimePlain s = some t ↔
    MomentText s t.date.y t.date.m t.date.d t.h t.mi t.s ∧ t.us = 0 ∧ t.tz = none := by
  constructor
  · intro h
    simp only [strptimePlain, Option.bind_eq_bind, Option.bind_eq_some_iff, Prod.exists] at h
    obtain ⟨f, r, h1, h3⟩ := h
    obtain ⟨rfl, h3⟩ := isEmpty_if h3
    obtain ⟨e1, e2, e3, e4, e5, e6, e7, e8⟩ := fields_datetime_iff.1 h3
    have hs := datetime_seconds t
    rw [e6] at hs
    obtain ⟨m, rfl, hm⟩ := readFields_sound h1 hs
    refine ⟨?_, e7, e8⟩
    rw [List.append_nil, e1, e2, e3, e4, e5, e6]; exact hm
  · rintro ⟨hm, hus, htz⟩
    have hf := readFields_complete hm noDigit_nil
    rw [List.append_nil] at hf
    simp only [strptimePlain, Option.bind_eq_bind]
    rw [hf]
    simp only [Option.bind_some, List.isEmpty_nil, if_true]
    exact fields_datetime_iff.2 ⟨rfl, rfl, rfl, rfl, rfl, rfl, hus, htz⟩

theorem zone_noDigit {z : Str} {off : Int} (h : readZone z = some (off, [])) : NoDigit z := by
  rcases readZone_iff.1 h with ⟨rfl, -⟩ | ⟨t, b, n, rfl, -⟩ | ⟨t, b, n, rfl, -⟩ <;> exact noDigit_mark (by decide) (by decide)

theorem strptimeZone_iff {s : Str} {t : Datetime} : strptimeZone s = some t ↔
    ∃ m z off, s = m ++ z ∧ MomentText m t.date.y t.date.m t.date.d t.h t.mi t.s ∧ readZone z = some (off, []) ∧ t.us = 0 ∧
      t.tz = some (some off) := by
  constructor
  · intro h
    simp only [strptimeZone, Option.bind_eq_bind, Option.bind_eq_some_iff, Prod.exists] at h
    obtain ⟨f, r, h1, off, r', h2, h3⟩ := h
    obtain ⟨rfl, h3⟩ := isEmpty_if h3
    obtain ⟨e1, e2, e3, e4, e5, e6, e7, e8⟩ := fields_datetime_iff.1 h3
    have hs := datetime_seconds t
    rw [e6] at hs
    obtain ⟨m, rfl, hm⟩ := readFields_sound h1 hs
    refine ⟨m, r, off, rfl, ?_, h2, e7, e8⟩
    rw [e1, e2, e3, e4, e5, e6]; exact hm
  · rintro ⟨m, z, off, rfl, hm, hz, hus, htz⟩
    simp only [strptimeZone, Option.bind_eq_bind]
    rw [readFields_complete hm (zone_noDigit hz)]
    simp only [Option.bind_some, hz, List.isEmpty_nil, if_true]
    exact fields_datetime_iff.2 ⟨rfl, rfl, rfl, rfl, rfl, rfl, hus, htz⟩

/-- The formats exclude one another. -/
theorem parseDateStyles_iff {s : Str} {t : Datetime} : parseDateStyles s = some t ↔
    strptimeFraction s = some t ∨ strptimeZone s = some t ∨ strptimePlain s = some t := by
  constructor
  · intro h
    rcases or_some_cases h with h | h
    · exact .inl h
    · rcases or_some_cases h with h | h
      · exact .inr (.inl h)
      · exact .inr (.inr h)
  · have nofrac : ∀ {m z : Str} {y mo d h mi sec : Nat}, MomentText m y mo d h mi sec → NoDigit z → (∀ r, z ≠ '.' :: r) →
        strptimeFraction (m ++ z) = none := by
      intro m z y mo d h mi sec hm hz hne
      simp only [strptimeFraction, Option.bind_eq_bind]
      rw [readFields_complete hm hz]
      simp only [Option.bind_some]
      have : readFraction (digitIn 0 9) z = none := by
        unfold readFraction
        split
        · exact absurd rfl (hne _)
        · rfl
      rw [this]
      rfl
    rintro (h | h | h)
    · exact or_first h
    · have hz := h
      obtain ⟨m, z, off, rfl, hm, hz, hus, htz⟩ := strptimeZone_iff.1 h
      rw [parseDateStyles, nofrac hm (zone_noDigit hz), Option.none_or]
      · exact or_first h
      · intro r hr
        subst hr
        rcases readZone_iff.1 hz with ⟨h, -⟩ | ⟨t, b, n, h, -⟩ | ⟨t, b, n, h, -⟩ <;> simp at h
    · have hp := h
      obtain ⟨hm, -, -⟩ := strptimePlain_iff.1 h
      have h1 := nofrac hm noDigit_nil (by simp)
      rw [List.append_nil] at h1
      have h2 : strptimeZone s = none := by
        have hf := readFields_complete hm noDigit_nil
        rw [List.append_nil] at hf
        simp only [strptimeZone, Option.bind_eq_bind]
        rw [hf]
        rfl
      rw [parseDateStyles, h1, h2, Option.none_or, Option.none_or]
      exact hp

/-! ### The plus sign -/

theorem number_no {c : Char} (h1 : c.toNat < 128) (h2 : isDigit c = false) {t : Str} {n : Nat} (h : Number t n) : c ∉ t := by
  intro hc
  obtain ⟨k, hk⟩ := number_mem h hc
  rw [value_other h1 h2] at hk
  cases hk

theorem moment_no_plus {t : Str} {y m d h mi s : Nat} (ht : MomentText t y m d h mi s) : '+' ∉ t := by
  obtain ⟨ty, tm, td, mark, th, tmi, ts, rfl, hy, hm, hd, e3, hh, hmi, hs⟩ := ht
  have no : ∀ {t : Str} {n : Nat}, Number t n → '+' ∉ t := fun h => number_no (by decide) (by decide) h
  have hd' : '+' ∉ td := by
    rcases hd with ⟨-, -, hn, -⟩ | ⟨c, rfl, -, hn, -⟩
    · exact no hn
    · have := no hn
      simpa using this
  have he : '+' ≠ mark := by rcases e3 with rfl | rfl <;> decide
  have a1 := no hy.2
  have a2 := no hm.2.2.1
  have a3 := no hh.2.2.1
  have a4 := no hmi.2.2.1
  have a5 := no hs.2.2.1
  simp [a1, a2, hd', he, a3, a4, a5]

theorem micros_no_plus {t : Str} {us : Nat} (h : MicrosText t us) : '+' ∉ t := by
  obtain ⟨n, -, -, hn, -⟩ := h
  exact number_no (by decide) (by decide) hn

theorem offset_no {sep t : Str} {n : Nat} (h : OffsetText sep t n) {c : Char} (hs : c ∉ sep) (h1 : c.toNat < 128) (h2 : isDigit c = false)
    (h3 : c ≠ '.') : c ∉ t := by
  have no : ∀ {t : Str} {n : Nat}, Number t n → c ∉ t := fun h => number_no h1 h2 h
  cases h with
  | minutes hl hn hm => simp [no hn, no hm.2.2, hs]
  | seconds hl hn hm hs' => simp [no hn, no hm.2.2, no hs'.2.2, hs]
  | micros hl hn hm hs' hf =>
    obtain ⟨k, -, -, hk, -⟩ := hf
    simp [no hn, no hm.2.2, no hs'.2.2, no hk, hs, h3]

theorem sepOf_no_plus (b : Bool) : '+' ∉ sepOf b := by cases b <;> decide

theorem offset_no_plus {b : Bool} {t : Str} {n : Nat} (h : OffsetText (sepOf b) t n) : '+' ∉ t :=
  offset_no h (sepOf_no_plus b) (by decide) (by decide) (by decide)

omit D in
theorem splitOnce_cases (c : Char) : ∀ s : Str, (c ∉ s ∧ splitOnce c s = none) ∨
    ∃ a b, s = a ++ c :: b ∧ c ∉ a ∧ splitOnce c s = some (a, b)
  | [] => .inl ⟨List.not_mem_nil, rfl⟩
  | x :: s => by
    by_cases h : x = c
    · subst h
      exact .inr ⟨[], s, rfl, List.not_mem_nil, splitOnce_append List.not_mem_nil⟩
    · rcases splitOnce_cases c s with ⟨h1, -⟩ | ⟨a, b, rfl, h1, -⟩
      · have h2 : c ∉ x :: s := by simp [h1, Ne.symm h]
        exact .inl ⟨h2, splitOnce_none h2⟩
      · have h2 : c ∉ x :: a := by simp [h1, Ne.symm h]
        exact .inr ⟨x :: a, b, rfl, h2, splitOnce_append h2⟩

theorem parseDatetime_iff {s : Str} {t : Datetime} : parseDatetime s = some t ↔ LegacyDate s t := by
  rw [parseDatetime, parseDateStyles_iff]
  rcases splitOnce_cases '+' s with ⟨hs, he⟩ | ⟨a, b, rfl, ha, he⟩
  · rw [withoutZoneColons, he]
    simp only
    constructor
    · rintro (h | h | h)
      · obtain ⟨m, f, rfl, hm, ha, hf, htz⟩ := strptimeFraction_iff.1 h
        exact .fraction hm ha hf htz
      · obtain ⟨m, z, off, rfl, hm, hz, hus, htz⟩ := strptimeZone_iff.1 h
        refine .zone hm hus ?_ htz
        rcases readZone_iff.1 hz with ⟨rfl, rfl⟩ | ⟨t, b, n, rfl, -⟩ | ⟨t, b, n, rfl, ho, rfl⟩
        · exact .utc
        · exact absurd (by simp) hs
        · cases b
          · exact .minus ho
          · exact .minusColons ho
      · obtain ⟨hm, hus, htz⟩ := strptimePlain_iff.1 h
        exact .plain hm hus htz
    · intro h
      cases h with
      | plain hm hus htz => exact .inr (.inr (strptimePlain_iff.2 ⟨hm, hus, htz⟩))
      | fraction hm ha hf htz => exact .inl (strptimeFraction_iff.2 ⟨_, _, rfl, hm, ha, hf, htz⟩)
      | zone hm hus hz htz =>
        refine .inr (.inl (strptimeZone_iff.2 ⟨_, _, _, rfl, hm, ?_, hus, htz⟩))
        cases hz with
        | utc => rfl
        | plus => exact absurd (by simp) hs
        | minus ho => exact readZone_iff.2 (.inr (.inr ⟨_, false, _, rfl, ho, rfl⟩))
        | minusColons ho => exact readZone_iff.2 (.inr (.inr ⟨_, true, _, rfl, ho, rfl⟩))
  · rw [withoutZoneColons, he]
    simp only
    have cancel : ∀ {x y x' y' : Str}, '+' ∉ x → '+' ∉ x' → x ++ '+' :: y = x' ++ '+' :: y' → x = x' ∧ y = y' := by
      intro x y x' y' hx hx' h
      have h1 := splitOnce_append (b := y) hx
      rw [h, splitOnce_append hx'] at h1
      cases h1
      exact ⟨rfl, rfl⟩
    constructor
    · rintro (h | h | h)
      · obtain ⟨m, f, e, hm, ha, hf, htz⟩ := strptimeFraction_iff.1 h
        have : '+' ∈ m ++ '.' :: f := by rw [← e]; simp
        simp [moment_no_plus hm, micros_no_plus hf] at this
      · obtain ⟨m, z, off, e, hm, hz, hus, htz⟩ := strptimeZone_iff.1 h
        rcases readZone_iff.1 hz with ⟨rfl, rfl⟩ | ⟨u, c, n, rfl, ho, rfl⟩ | ⟨u, c, n, rfl, ho, rfl⟩
        · have : '+' ∈ m ++ ['Z'] := by rw [← e]; simp
          simp [moment_no_plus hm] at this
        · obtain ⟨rfl, rfl⟩ := cancel ha (moment_no_plus hm) e
          refine .zone hm hus (.plus ?_) htz
          cases c
          · have e' : b.filter (fun c => decide (c ≠ ':')) = b.filter (· != ':') := by
              apply List.filter_congr
              intro x _
              by_cases hx : x = ':' <;> simp [hx]
            rw [e']; exact ho
          · exfalso
            have h0 : ':' ∉ b.filter (· != ':') := by simp
            generalize b.filter (· != ':') = w at ho h0
            apply h0
            cases ho <;> simp [sepOf]
        · have : '+' ∈ m ++ '-' :: u := by rw [← e]; simp
          simp [moment_no_plus hm, offset_no_plus ho] at this
      · obtain ⟨hm, -⟩ := strptimePlain_iff.1 h
        exact absurd (by simp) (moment_no_plus hm)
    · intro h
      generalize hx : a ++ '+' :: b = x at h
      cases h with
      | plain hm hus htz => exact absurd (by rw [← hx]; simp) (moment_no_plus hm)
      | fraction hm ha' hf htz =>
        rename_i m f
        have : '+' ∈ m ++ '.' :: f := by rw [← hx]; simp
        simp [moment_no_plus hm, micros_no_plus hf] at this
      | zone hm hus hz htz =>
        rename_i m z off
        refine .inr (.inl (strptimeZone_iff.2 ?_))
        cases hz with
        | utc =>
          have : '+' ∈ m ++ ['Z'] := by rw [← hx]; simp
          simp [moment_no_plus hm] at this
        | plus ho =>
          rename_i u n
          obtain ⟨rfl, rfl⟩ := cancel ha (moment_no_plus hm) hx
          have e' : b.filter (fun c => decide (c ≠ ':')) = b.filter (· != ':') := by
            apply List.filter_congr
            intro x _
            by_cases hx : x = ':' <;> simp [hx]
          rw [e'] at ho
          exact ⟨a, _, _, rfl, hm, readZone_iff.2 (.inr (.inl ⟨_, false, _, rfl, ho, rfl⟩)), hus, htz⟩
        | minus ho =>
          rename_i u n
          have : '+' ∈ m ++ '-' :: u := by rw [← hx]; simp
          simp [moment_no_plus hm, offset_no_plus (b := false) ho] at this
        | minusColons ho =>
          rename_i u n
          have : '+' ∈ m ++ '-' :: u := by rw [← hx]; simp
          simp [moment_no_plus hm, offset_no_plus (b := true) ho] at this

end Verif
