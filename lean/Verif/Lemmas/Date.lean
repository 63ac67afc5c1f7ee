import Verif.Model.Translate
import Verif.Lemmas.Str
import Verif.Spec.Date

/-!
# Lemmas about the calendar and decimal numbers
-/

namespace Verif
open Spec

theorem isLeap_iff (y : Nat) : isLeap y = true ↔ Leap y := by
  simp only [isLeap, Leap, Bool.and_eq_true, Bool.or_eq_true, beq_iff_eq, bne_iff_ne, ne_eq, Nat.dvd_iff_mod_eq_zero]
  omega

theorem daysBeforeYear_succ (y : Nat) : daysBeforeYear (y + 2) = daysBeforeYear (y + 1) + yearLength (y + 1) := by
  have h4 : (y + 1) / 4 = y / 4 + (if 4 ∣ y + 1 then 1 else 0) := by split <;> omega
  have h100 : (y + 1) / 100 = y / 100 + (if 100 ∣ y + 1 then 1 else 0) := by split <;> omega
  have h400 : (y + 1) / 400 = y / 400 + (if 400 ∣ y + 1 then 1 else 0) := by split <;> omega
  have i1 : 100 ∣ y + 1 → 4 ∣ y + 1 := fun h => Nat.dvd_trans ⟨25, rfl⟩ h
  have i2 : 400 ∣ y + 1 → 100 ∣ y + 1 := fun h => Nat.dvd_trans ⟨4, rfl⟩ h
  have hle : y / 100 ≤ y / 4 := by omega
  unfold yearLength daysBeforeYear Leap
  simp only [Nat.add_sub_cancel, show y + 2 - 1 = y + 1 by omega, h4, h100, h400]
  generalize y / 4 = a at *
  generalize y / 100 = b at *
  generalize y / 400 = c at *
  by_cases d4 : 4 ∣ y + 1 <;> by_cases d100 : 100 ∣ y + 1 <;> by_cases d400 : 400 ∣ y + 1 <;>
    simp only [d4, d100, d400, if_true, if_false, not_true, not_false_eq_true, and_true, and_false, true_or, or_true,
      false_or, or_false] <;>
    first
    | exact absurd (i1 d100) d4
    | exact absurd (i2 d400) d100
    | (clear h4 h100 h400 i1 i2 d4 d100 d400; omega)

theorem daysBeforeYear_eq : ∀ y, daysBeforeYear y = daysOfYearsBefore y
  | 0 => rfl
  | 1 => rfl
  | y + 2 => by rw [daysBeforeYear_succ, daysBeforeYear_eq (y + 1), daysOfYearsBefore]

theorem monthsBefore_eq (y m : Nat) (h1 : 1 ≤ m) (h2 : m ≤ 12) :
    daysBeforeMonthTable m + (if m > 2 && isLeap y then 1 else 0) = daysOfMonthsBefore y m := by
  have h := isLeap_iff y
  have hm : m = 1 ∨ m = 2 ∨ m = 3 ∨ m = 4 ∨ m = 5 ∨ m = 6 ∨ m = 7 ∨ m = 8 ∨ m = 9 ∨ m = 10 ∨ m = 11 ∨ m = 12 := by
    omega
  by_cases hl : Leap y
  · rw [h.2 hl]
    rcases hm with rfl | rfl | rfl | rfl | rfl | rfl | rfl | rfl | rfl | rfl | rfl | rfl <;>
      simp [daysBeforeMonthTable, daysOfMonthsBefore, monthLength, hl]
  · have : isLeap y = false := by cases hh : isLeap y <;> simp_all
    rw [this]
    rcases hm with rfl | rfl | rfl | rfl | rfl | rfl | rfl | rfl | rfl | rfl | rfl | rfl <;>
      simp [daysBeforeMonthTable, daysOfMonthsBefore, monthLength, hl]

theorem daysInMonth_eq (y m : Nat) : daysInMonth y m = monthLength y m := by
  unfold daysInMonth monthLength
  have h := isLeap_iff y
  split
  · subst_vars; simp [← h]
  · split
    · rename_i h; rcases h with rfl | rfl | rfl | rfl <;> rfl
    · split <;> simp_all

theorem ymd2ord_eq {y m d : Nat} (h1 : 1 ≤ m) (h2 : m ≤ 12) : ymd2ord y m d = dayNumber y m d := by
  simp only [ymd2ord, dayNumber, monthsBefore_eq y m h1 h2, daysBeforeYear_eq]

/-- The last part of `ord2ymd`: month and day from the day of the year. -/
def monthDay (leap : Bool) (n : Nat) : Nat × Nat :=
  let month := (n + 50) / 32
  let pre := daysBeforeMonthTable month + (if month > 2 && leap then 1 else 0)
  if pre > n then
    let month := month - 1
    let pre := pre - ((if month = 2 then 28 else if month = 4 ∨ month = 6 ∨ month = 9 ∨ month = 11
      then 30 else 31) + (if month = 2 && leap then 1 else 0))
    (month, n - pre + 1)
  else (month, n - pre + 1)

/-- The month and day within a year, for every day of the year. -/
theorem month_day_table : ∀ leap : Bool, ∀ n : Fin 365,
    (1 ≤ (monthDay leap n).1 ∧ (monthDay leap n).1 ≤ 12) ∧
    (1 ≤ (monthDay leap n).2 ∧ (monthDay leap n).2 ≤
      (if (monthDay leap n).1 = 2 then (if leap then 29 else 28)
      else if (monthDay leap n).1 = 4 ∨ (monthDay leap n).1 = 6 ∨ (monthDay leap n).1 = 9 ∨
        (monthDay leap n).1 = 11 then 30 else 31)) ∧
    daysBeforeMonthTable (monthDay leap n).1 + (if (monthDay leap n).1 > 2 && leap then 1 else 0) +
      (monthDay leap n).2 = n.val + 1 := by
  decide +kernel

theorem ord2ymd_last (year : Nat) (leap : Bool) (n : Nat) :
    (let month := (n + 50) / 32
    let pre := daysBeforeMonthTable month + (if month > 2 && leap then 1 else 0)
    if pre > n then
      let month := month - 1
      let pre := pre - ((if month = 2 then 28 else if month = 4 ∨ month = 6 ∨ month = 9 ∨ month = 11
        then 30 else 31) + (if month = 2 && leap then 1 else 0))
      (year, month, n - pre + 1)
    else (year, month, n - pre + 1)) = (year, monthDay leap n) := by
  simp only [monthDay]
  generalize daysBeforeMonthTable ((n + 50) / 32) + _ = pre
  split <;> rfl

theorem daysBeforeYear_parts {a b c e : Nat} (hb : b ≤ 3) (hc : c ≤ 24) (he : e ≤ 3) :
    daysBeforeYear (a * 400 + 1 + b * 100 + c * 4 + e) = 146097 * a + 36524 * b + 1461 * c + 365 * e := by
  unfold daysBeforeYear
  have hp : a * 400 + 1 + b * 100 + c * 4 + e - 1 = a * 400 + b * 100 + c * 4 + e := by omega
  have h4 : (a * 400 + b * 100 + c * 4 + e) / 4 = 100 * a + 25 * b + c := by omega
  have h100 : (a * 400 + b * 100 + c * 4 + e) / 100 = 4 * a + b := by omega
  have h400 : (a * 400 + b * 100 + c * 4 + e) / 400 = a := by omega
  simp only [hp, h4, h100, h400]
  omega

theorem isLeap_parts {a b c e : Nat} (hb : b ≤ 3) (hc : c ≤ 24) (he : e ≤ 3) :
    isLeap (a * 400 + 1 + b * 100 + c * 4 + e) = (e == 3 && (c != 24 || b == 3)) := by
  have h4 : (a * 400 + 1 + b * 100 + c * 4 + e) % 4 = (1 + e) % 4 := by omega
  have h100 : (a * 400 + 1 + b * 100 + c * 4 + e) % 100 = (1 + c * 4 + e) % 100 := by omega
  have h400 : (a * 400 + 1 + b * 100 + c * 4 + e) % 400 = (1 + b * 100 + c * 4 + e) % 400 := by omega
  rw [Bool.eq_iff_iff]
  simp only [isLeap, h4, h100, h400, Bool.and_eq_true, Bool.or_eq_true, beq_iff_eq, bne_iff_ne, ne_eq]
  omega

/-- A correct calendar date. -/
def GoodYmd (y m d : Nat) : Prop := 1 ≤ y ∧ 1 ≤ m ∧ m ≤ 12 ∧ 1 ≤ d ∧ d ≤ daysInMonth y m

theorem ord2ymd_spec (n : Nat) (hn : 1 ≤ n) :
    GoodYmd (ord2ymd n).1 (ord2ymd n).2.1 (ord2ymd n).2.2 ∧
      ymd2ord (ord2ymd n).1 (ord2ymd n).2.1 (ord2ymd n).2.2 = n := by
  obtain ⟨N, rfl⟩ : ∃ N, n = N + 1 := ⟨n - 1, by omega⟩
  unfold ord2ymd
  simp only [Nat.add_sub_cancel]
  obtain ⟨a, ha⟩ : ∃ a, a = N / 146097 := ⟨_, rfl⟩
  obtain ⟨r1, hr1⟩ : ∃ r, r = N % 146097 := ⟨_, rfl⟩
  have e1 : N = 146097 * a + r1 := by omega
  have b1 : r1 < 146097 := by omega
  obtain ⟨b, hb⟩ : ∃ b, b = r1 / 36524 := ⟨_, rfl⟩
  obtain ⟨r2, hr2⟩ : ∃ r, r = r1 % 36524 := ⟨_, rfl⟩
  have e2 : r1 = 36524 * b + r2 := by omega
  have b2 : r2 < 36524 := by omega
  obtain ⟨c, hc⟩ : ∃ c, c = r2 / 1461 := ⟨_, rfl⟩
  obtain ⟨r3, hr3⟩ : ∃ r, r = r2 % 1461 := ⟨_, rfl⟩
  have e3 : r2 = 1461 * c + r3 := by omega
  have b3 : r3 < 1461 := by omega
  obtain ⟨e, he⟩ : ∃ e, e = r3 / 365 := ⟨_, rfl⟩
  obtain ⟨r4, hr4⟩ : ∃ r, r = r3 % 365 := ⟨_, rfl⟩
  have e4 : r3 = 365 * e + r4 := by omega
  have b4 : r4 < 365 := by omega
  rw [← ha, ← hr1, ← hb, ← hr2, ← hc, ← hr3, ← he, ← hr4]
  clear ha hr1 hb hr2 hc hr3 he hr4
  split
  · rename_i h
    have key : ∃ b' c', b' ≤ 3 ∧ c' ≤ 24 ∧ (c' ≠ 24 ∨ b' = 3) ∧
        a * 400 + 1 + b * 100 + c * 4 + e - 1 = a * 400 + 1 + b' * 100 + c' * 4 + 3 ∧
        N + 1 = 146097 * a + 36524 * b' + 1461 * c' + 365 * 3 + 366 := by
      by_cases hb4 : b = 4
      · exact ⟨3, 24, by omega, by omega, .inr rfl, by omega, by omega⟩
      · exact ⟨b, c, by omega, by omega, .inl (by omega), by omega, by omega⟩
    obtain ⟨b', c', hb', hc', hl', hy, hN⟩ := key
    rw [hy]
    have hleap : isLeap (a * 400 + 1 + b' * 100 + c' * 4 + 3) = true := by
      rw [isLeap_parts hb' hc' (Nat.le_refl 3)]; simp; exact hl'
    have hdby := daysBeforeYear_parts (a := a) hb' hc' (Nat.le_refl 3)
    refine ⟨⟨by simp only; omega, by simp, by simp, by simp, by simp [daysInMonth]⟩, ?_⟩
    simp only [ymd2ord, hdby, hleap, daysBeforeMonthTable]
    simp; omega
  · rename_i h
    have hb3 : b ≤ 3 := by omega
    have he3 : e ≤ 3 := by omega
    have hc24 : c ≤ 24 := by omega
    have hl := isLeap_parts (a := a) hb3 hc24 he3
    have hdby := daysBeforeYear_parts (a := a) hb3 hc24 he3
    rw [← hl]
    obtain ⟨⟨t1, t2⟩, ⟨t3, t4⟩, t5⟩ := month_day_table (isLeap (a * 400 + 1 + b * 100 + c * 4 + e)) ⟨r4, b4⟩
    have hy1 : 1 ≤ a * 400 + 1 + b * 100 + c * 4 + e := by omega
    have hlast := ord2ymd_last (a * 400 + 1 + b * 100 + c * 4 + e)
      (isLeap (a * 400 + 1 + b * 100 + c * 4 + e)) r4
    simp only at hlast t1 t2 t3 t4 t5
    rw [hlast]
    refine ⟨⟨hy1, t1, t2, t3, t4⟩, ?_⟩
    simp only [ymd2ord, hdby]
    omega

theorem month_start_mono {y m m' : Nat} (h : m < m') (h1 : 1 ≤ m) :
    daysOfMonthsBefore y m + monthLength y m ≤ daysOfMonthsBefore y m' := by
  induction m' with
  | zero => omega
  | succ m' ih =>
    obtain ⟨k, rfl⟩ : ∃ k, m' = k + 1 := ⟨m' - 1, by omega⟩
    rw [daysOfMonthsBefore]
    by_cases he : m = k + 1
    · subst he; exact Nat.le_refl _
    · have := ih (by omega); omega

theorem year_start_mono {y y' : Nat} (h : y < y') (h1 : 1 ≤ y) :
    daysOfYearsBefore y + yearLength y ≤ daysOfYearsBefore y' := by
  induction y' with
  | zero => omega
  | succ y' ih =>
    obtain ⟨k, rfl⟩ : ∃ k, y' = k + 1 := ⟨y' - 1, by omega⟩
    rw [daysOfYearsBefore]
    by_cases he : y = k + 1
    · subst he; exact Nat.le_refl _
    · have := ih (by omega); omega

theorem year_end (y : Nat) : daysOfMonthsBefore y 12 + monthLength y 12 = yearLength y := by
  unfold yearLength
  simp only [daysOfMonthsBefore, monthLength]
  split <;> simp

theorem day_in_year {y m d : Nat} (h : GoodYmd y m d) :
    1 ≤ daysOfMonthsBefore y m + d ∧ daysOfMonthsBefore y m + d ≤ yearLength y := by
  obtain ⟨_, h2, h3, h4, h5⟩ := h
  rw [daysInMonth_eq] at h5
  refine ⟨by omega, ?_⟩
  rw [← year_end y]
  by_cases he : m = 12
  · subst he; omega
  · have := month_start_mono (y := y) (show m < 12 by omega) h2
    omega

/-- Different dates have different day numbers. -/
theorem dayNumber_inj {y m d y' m' d' : Nat} (h : GoodYmd y m d) (h' : GoodYmd y' m' d')
    (he : dayNumber y m d = dayNumber y' m' d') : y = y' ∧ m = m' ∧ d = d' := by
  have i := day_in_year h
  have i' := day_in_year h'
  unfold dayNumber at he
  have hy : y = y' := by
    rcases Nat.lt_trichotomy y y' with hl | hl | hl
    · have := year_start_mono hl h.1; omega
    · exact hl
    · have := year_start_mono hl h'.1; omega
  subst hy
  obtain ⟨_, h2, h3, h4, h5⟩ := h
  obtain ⟨_, h2', h3', h4', h5'⟩ := h'
  rw [daysInMonth_eq] at h5 h5'
  have hm : m = m' := by
    rcases Nat.lt_trichotomy m m' with hl | hl | hl
    · have := month_start_mono (y := y) hl h2; omega
    · exact hl
    · have := month_start_mono (y := y) hl h2'; omega
  subst hm
  exact ⟨rfl, rfl, by omega⟩

theorem dateOk_iff {y m d : Nat} : dateOk y m d = true ↔ GoodYmd y m d ∧ y ≤ 9999 := by
  simp only [dateOk, GoodYmd, Bool.and_eq_true, decide_eq_true_eq]
  omega

theorem dayNumber_max : daysOfYearsBefore 10000 = 3652059 := by
  rw [← daysBeforeYear_eq]; rfl

/-- The day number of a representable date lies between 1 and 3652059, and conversely. -/
theorem dayNumber_range {y m d : Nat} (h : GoodYmd y m d) : y ≤ 9999 ↔ dayNumber y m d ≤ 3652059 := by
  have i := day_in_year h
  unfold dayNumber
  constructor
  · intro hy
    have := year_start_mono (y := y) (y' := 10000) (by omega) h.1
    rw [dayNumber_max] at this
    omega
  · intro hd
    apply Classical.byContradiction
    intro hy
    have : daysOfYearsBefore 10000 ≤ daysOfYearsBefore y := by
      by_cases he : y = 10000
      · subst he; exact Nat.le_refl _
      · have := year_start_mono (y := 10000) (y' := y) (by omega) (by omega); omega
    rw [dayNumber_max] at this
    omega

theorem ord2ymd_day (n : Nat) (hn : 1 ≤ n) :
    GoodYmd (ord2ymd n).1 (ord2ymd n).2.1 (ord2ymd n).2.2 ∧
      dayNumber (ord2ymd n).1 (ord2ymd n).2.1 (ord2ymd n).2.2 = n := by
  obtain ⟨h1, h2⟩ := ord2ymd_spec n hn
  exact ⟨h1, by rw [← ymd2ord_eq h1.2.1 h1.2.2.1]; exact h2⟩

/-! ### Digits -/

/-- Value of a digit string, continuing from `acc`. -/
def digitsVal (acc : Nat) (s : Str) : Nat := s.foldl (fun a c => a * 10 + (c.toNat - 48)) acc

theorem isDigit_iff {c : Char} : isDigit c = true ↔ '0' ≤ c ∧ c ≤ '9' := by
  simp [isDigit]

theorem readDigits_append : ∀ (ds : Str) (acc : Nat) (rest : Str), (∀ c ∈ ds, isDigit c = true) →
    readDigits ds.length acc (ds ++ rest) = some (digitsVal acc ds, rest)
  | [], acc, rest, _ => rfl
  | c :: ds, acc, rest, h => by
    have hc := isDigit_iff.1 (h c (List.mem_cons_self ..))
    show readDigits (ds.length + 1) acc (c :: (ds ++ rest)) = _
    rw [readDigits, if_pos hc, readDigits_append ds _ rest (fun x hx => h x (List.mem_cons_of_mem _ hx))]
    rfl

theorem digitChar_val : ∀ d < 10, (digitChar d).toNat - 48 = d := by decide

theorem natStrAux_val : ∀ f n, n < f → digitsVal 0 (natStrAux f n) = n
  | 0, _, h => absurd h (Nat.not_lt_zero _)
  | f + 1, n, h => by
    unfold natStrAux
    split
    · rename_i hn; simp only [digitsVal, List.foldl]; rw [digitChar_val n hn]; omega
    · rename_i hn
      have ih := natStrAux_val f (n / 10) (by omega)
      simp only [digitsVal, List.foldl_append, List.foldl] at ih ⊢
      rw [ih, digitChar_val _ (Nat.mod_lt _ (by decide))]
      omega

theorem natStr_val (n : Nat) : digitsVal 0 (natStr n) = n := natStrAux_val _ _ (Nat.lt_succ_self n)

theorem natStrAux_length : ∀ f n w, n < f → n < 10 ^ (w + 1) → (natStrAux f n).length ≤ w + 1
  | 0, _, _, h, _ => absurd h (Nat.not_lt_zero _)
  | f + 1, n, w, h, hw => by
    unfold natStrAux
    split
    · simp
    · rename_i hn
      cases w with
      | zero => omega
      | succ w =>
        have := natStrAux_length f (n / 10) w (by omega)
          (by rw [Nat.pow_succ] at hw; omega)
        simp; omega

theorem digitsVal_replicate (k : Nat) : digitsVal 0 (List.replicate k '0') = 0 := by
  induction k with
  | zero => rfl
  | succ k ih => rw [List.replicate_succ]; exact ih

theorem padNat_length {w n : Nat} (h : n < 10 ^ (w + 1)) : (padNat (w + 1) n).length = w + 1 := by
  have := natStrAux_length (n + 1) n w (Nat.lt_succ_self n) h
  simp only [padNat, natStr, List.length_append, List.length_replicate]
  omega

theorem padNat_val (w n : Nat) : digitsVal 0 (padNat w n) = n := by
  have h1 := digitsVal_replicate (w - (natStr n).length)
  have h2 := natStr_val n
  simp only [digitsVal, padNat, List.foldl_append] at *
  rw [h1, h2]

theorem readDigits_padNat {w n : Nat} (h : n < 10 ^ (w + 1)) (rest : Str) :
    readDigits (w + 1) 0 (padNat (w + 1) n ++ rest) = some (n, rest) := by
  have := readDigits_append (padNat (w + 1) n) 0 rest (fun c hc => padNat_digits hc)
  rwa [padNat_length h, padNat_val] at this

theorem readText_append (t s : Str) : readText t (t ++ s) = some s := by
  induction t with
  | nil => rfl
  | cons c t ih => simp [readText, ih]

theorem readDate_iso (d : Date) (rest : Str) : readDate (d.iso ++ rest) = some ((d.y, d.m, d.d), rest) := by
  obtain ⟨y, m, dd, ok⟩ := d
  have hg := dateOk_iff.1 ok
  have hy : y < 10 ^ 4 := by have := hg.2; omega
  have hm : m < 10 ^ 2 := by have := hg.1.2.2.1; omega
  have hd : dd < 10 ^ 2 := by
    have := hg.1.2.2.2.2
    unfold daysInMonth at this
    split at this
    · split at this <;> omega
    · split at this <;> omega
  simp only [readDate, Date.iso, List.append_assoc, readDigits_padNat hy, readDigits_padNat hm,
    readDigits_padNat hd, Option.bind_eq_bind, Option.bind_some]
  have e : ∀ s : Str, readText c!"-" (['-'] ++ s) = some s := fun s => readText_append ['-'] s
  simp only [e, Option.bind_some, readDigits_padNat hm, readDigits_padNat hd]

/-- Instant of the fields of a datetime, ignoring its offset. -/
def Datetime.inst (t : Datetime) : Nat := instant t.date.y t.date.m t.date.d t.h t.mi t.s t.us

theorem timeOk_iff {h mi s us : Nat} {tz : Option (Option Int)} (ht : timeOk h mi s us tz = true) :
    h < 24 ∧ mi < 60 ∧ s < 60 ∧ us < 1000000 := by
  simp only [timeOk, Bool.and_eq_true, decide_eq_true_eq] at ht
  obtain ⟨⟨⟨⟨a, b⟩, c⟩, d⟩, _⟩ := ht
  exact ⟨a, b, c, d⟩

theorem date_good (d : Date) : GoodYmd d.y d.m d.d ∧ d.y ≤ 9999 := dateOk_iff.1 d.ok

theorem localMicros_eq (t : Datetime) : t.localMicros = t.inst := by
  have hg := (date_good t.date).1
  unfold Datetime.localMicros Datetime.inst instant
  rw [ymd2ord_eq hg.2.1 hg.2.2.1]
  omega

theorem readTime_iso {h mi s us : Nat} (hh : h < 24) (hmi : mi < 60) (hs : s < 60) (hus : us < 1000000)
    (rest : Str) (hr : rest.head? ≠ some '.') :
    readTime (padNat 2 h ++ ([':'] ++ (padNat 2 mi ++ ([':'] ++ (padNat 2 s ++
      ((if us ≠ 0 then ['.'] ++ padNat 6 us else []) ++ rest)))))) = some ((h, mi, s, us), rest) := by
  have e : ∀ s : Str, readText c!":" ([':'] ++ s) = some s := fun s => readText_append [':'] s
  have h1 : h < 10 ^ 2 := by omega
  have h2 : mi < 10 ^ 2 := by omega
  have h3 : s < 10 ^ 2 := by omega
  have h4 : us < 10 ^ 6 := by omega
  simp only [readTime, readDigits_padNat h1, readDigits_padNat h2, readDigits_padNat h3, e,
    Option.bind_eq_bind, Option.bind_some]
  by_cases hu : us = 0
  · subst hu
    simp only [ne_eq, not_true_eq_false, if_false, List.nil_append]
    split
    · simp at hr
    · rfl
  · simp only [ne_eq, hu, not_false_eq_true, if_true, List.append_assoc, List.cons_append, List.nil_append]
    simp only [readDigits_padNat h4, Option.bind_some]

theorem readDateTimeLit_iso (t : Datetime) (ht : t.tz = none) :
    readDateTimeLit (toDateTimeLit t.iso) = some t.inst := by
  obtain ⟨d, h, mi, s, us, tz, ok⟩ := t
  simp only at ht; subst ht
  obtain ⟨a1, a2, a3, a4⟩ := timeOk_iff ok
  have e : ∀ s : Str, readText c!"T" (['T'] ++ s) = some s := fun s => readText_append ['T'] s
  have hr : (c!"')").head? ≠ some '.' := by decide
  have := readTime_iso a1 a2 a3 a4 c!"')" hr
  simp only [readDateTimeLit, toDateTimeLit, Datetime.iso, List.append_assoc, List.append_nil, List.nil_append,
    readText_append, Option.bind_eq_bind, Option.bind_some, readDate_iso, e, this, if_true, Datetime.inst]

theorem readDateLit_iso (d : Date) : readDateLit (toDateTimeLit d.iso) = some (d.y, d.m, d.d) := by
  simp only [readDateLit, toDateTimeLit, List.append_assoc,
    readText_append, Option.bind_eq_bind, Option.bind_some, readDate_iso, if_true]

theorem readDateLit_datetime (t : Datetime) : readDateLit (toDateTimeLit t.iso) = none := by
  simp only [readDateLit, toDateTimeLit, Datetime.iso, List.append_assoc,
    readText_append, Option.bind_eq_bind, Option.bind_some, readDate_iso]
  rw [if_neg]
  intro h
  injection h with h _
  revert h; decide

/-! ### The shift to UTC -/

theorem minInstant_eq : minInstant = 86400000000 := by decide

theorem maxInstant_eq : maxInstant = 3652059 * 86400000000 + 86399999999 := by
  have : dayNumber 9999 12 31 = 3652059 := by
    rw [← ymd2ord_eq (by decide) (by decide)]; rfl
  unfold maxInstant instant
  rw [this]

theorem ofMicros_ok (n : Nat) (h1 : minInstant ≤ n) (h2 : n ≤ maxInstant) :
    ∃ u, ofMicros n = .ok u ∧ u.tz = none ∧ u.inst = n := by
  rw [minInstant_eq] at h1
  rw [maxInstant_eq] at h2
  have hday : (0 : Int) < (n : Int) / 86400000000 ∧ (n : Int) / 86400000000 ≤ 3652059 := by omega
  have hdn : ((n : Int) / 86400000000).toNat = n / 86400000000 := by omega
  have hrn : ((n : Int) % 86400000000).toNat = n % 86400000000 := by omega
  obtain ⟨hg, hn⟩ := ord2ymd_day (n / 86400000000) (by omega)
  have hdate : dateOk (ord2ymd (n / 86400000000)).1 (ord2ymd (n / 86400000000)).2.1
      (ord2ymd (n / 86400000000)).2.2 = true := by
    rw [dateOk_iff]
    refine ⟨hg, (dayNumber_range hg).2 ?_⟩
    rw [hn]; omega
  have htime : timeOk (n % 86400000000 / 1000000 / 3600) (n % 86400000000 / 1000000 % 3600 / 60)
      (n % 86400000000 / 1000000 % 60) (n % 86400000000 % 1000000) none = true := by
    simp only [timeOk, Bool.and_eq_true, decide_eq_true_eq, and_true]
    omega
  refine ⟨⟨⟨_, _, _, hdate⟩, _, _, _, _, none, htime⟩, ?_, rfl, ?_⟩
  · simp only [ofMicros, hday, hdn, hrn, and_self, if_true, hdate, dite_true, htime]
  · simp only [Datetime.inst, instant, hn]
    have hn : n = n / 86400000000 * 86400000000 + n % 86400000000 := by omega
    generalize n / 86400000000 = q at *
    generalize n % 86400000000 = r at *
    have hr : r = r / 1000000 * 1000000 + r % 1000000 := by omega
    generalize r % 1000000 = us at *
    generalize r / 1000000 = k at *
    have hk : (k / 3600 * 60 + k % 3600 / 60) * 60 + k % 60 = k := by omega
    generalize k / 3600 = a at *
    generalize k % 3600 / 60 = b at *
    generalize k % 60 = c at *
    clear htime hdate hrn hdn hday
    omega

theorem ofMicros_overflow (n : Int) (h : n < minInstant ∨ (maxInstant : Int) < n) :
    ofMicros n = .error .overflowError := by
  rw [minInstant_eq, maxInstant_eq] at h
  have hday : ¬ ((0 : Int) < n / 86400000000 ∧ n / 86400000000 ≤ 3652059) := by omega
  simp only [ofMicros, hday, if_false]

/-- Equal instants: equal fields. -/
theorem inst_inj {t u : Datetime} (ht : t.tz = none) (hu : u.tz = none) (h : t.inst = u.inst) : t = u := by
  obtain ⟨⟨y, m, d, od⟩, hh, mi, s, us, tz, ok⟩ := t
  obtain ⟨⟨y', m', d', od'⟩, hh', mi', s', us', tz', ok'⟩ := u
  simp only at ht hu; subst ht; subst hu
  obtain ⟨a1, a2, a3, a4⟩ := timeOk_iff ok
  obtain ⟨b1, b2, b3, b4⟩ := timeOk_iff ok'
  simp only [Datetime.inst, instant] at h
  have hd : dayNumber y m d = dayNumber y' m' d' := by omega
  obtain ⟨e1, e2, e3⟩ := dayNumber_inj (dateOk_iff.1 od).1 (dateOk_iff.1 od').1 hd
  subst e1; subst e2; subst e3
  obtain ⟨c1, c2, c3, c4⟩ : hh = hh' ∧ mi = mi' ∧ s = s' ∧ us = us' := by omega
  subst c1; subst c2; subst c3; subst c4
  rfl

theorem inst_range (t : Datetime) : minInstant ≤ t.inst ∧ t.inst ≤ maxInstant := by
  obtain ⟨⟨y, m, d, od⟩, hh, mi, s, us, tz, ok⟩ := t
  obtain ⟨a1, a2, a3, a4⟩ := timeOk_iff ok
  obtain ⟨hg, hy⟩ := dateOk_iff.1 od
  have hr := (dayNumber_range hg).1 hy
  have h1 : 1 ≤ dayNumber y m d := by have := hg.2.2.2.1; unfold dayNumber; omega
  rw [minInstant_eq, maxInstant_eq]
  simp only [Datetime.inst, instant]
  omega

end Verif
