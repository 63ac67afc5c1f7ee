import Verif.Lemmas.Scalar

/-!
# C03: scalar literals are unambiguous
-/

namespace Verif
open Spec

/-- What may follow a scalar. -/
def Delim (rest : Str) : Prop := rest = [] ∨ (∃ r, rest = ',' :: r) ∨ (∃ r, rest = ')' :: r)

/-- A text that is not a date, a string or a sequence. -/
structure TokenText (t : Str) : Prop where
  inner : ∀ c ∈ t, c ≠ ',' ∧ c ≠ ')'
  first : ∃ c r, t = c :: r ∧ c ≠ 't' ∧ c ≠ 'a' ∧ c ≠ '\''

theorem readText_ne {p c : Char} {ps s : Str} (h : c ≠ p) : readText (p :: ps) (c :: s) = none := by
  simp [readText, Ne.symm h]

theorem readAtom_token {t rest : Str} (ht : TokenText t) (hr : Delim rest) :
    readAtom (t ++ rest) = (readToken t).map fun v => (v, rest) := by
  obtain ⟨c, r, rfl, h1, h2, h3⟩ := ht.first
  have hin : ∀ x ∈ c :: r, (x != ',' && x != ')') = true := fun x hx => by
    have := ht.inner x hx; simp [this]
  have e1 : ((c :: r) ++ rest).takeWhile (fun c => c != ',' && c != ')') = c :: r := by
    rw [List.takeWhile_append_of_pos hin]
    rcases hr with rfl | ⟨r', rfl⟩ | ⟨r', rfl⟩ <;> simp
  have e2 : ((c :: r) ++ rest).dropWhile (fun c => c != ',' && c != ')') = rest := by
    rw [List.dropWhile_append_of_pos hin]
    rcases hr with rfl | ⟨r', rfl⟩ | ⟨r', rfl⟩ <;> simp
  unfold readAtom
  simp only [e1, e2]
  simp only [List.cons_append, readText_ne h1, readQuoted, h3, if_false]

/-- The text is read as the value, in every context. -/
def ValueText (t : Str) (v : Val) : Prop :=
  t ≠ [] ∧ (∀ r, t ≠ ')' :: r) ∧
  ∀ rest, Delim rest → ∀ f, 2 * t.length + 2 ≤ f → readValue f (t ++ rest) = some (v, rest)

theorem atom_valueText {t : Str} {v : Val} (h0 : t ≠ []) (hp : ∀ r, t ≠ ')' :: r)
    (h1 : ∀ rest, readText c!"array(" (t ++ rest) = none)
    (h2 : ∀ rest, readText c!"tuple(" (t ++ rest) = none)
    (h : ∀ rest, Delim rest → readAtom (t ++ rest) = some (v, rest)) : ValueText t v := by
  refine ⟨h0, hp, fun rest hr f hf => ?_⟩
  obtain ⟨f, rfl⟩ : ∃ g, f = g + 1 := ⟨f - 1, by omega⟩
  rw [readValue, h1, h2]
  exact h rest hr

theorem token_valueText {t : Str} {v : Val} (ht : TokenText t) (h : readToken t = some v) : ValueText t v := by
  obtain ⟨c, r, rfl, h1, h2, _⟩ := ht.first
  refine atom_valueText (by simp) ?_ ?_ ?_ ?_
  · rintro r' ⟨⟩; exact (ht.inner ')' (by simp)).2 rfl
  · intro rest; exact readText_ne h2
  · intro rest; exact readText_ne h1
  · intro rest hr; rw [readAtom_token ht hr, h]; rfl

theorem floatChar_token {t : Str} (h : ∀ c ∈ t, floatChar c = true) : ∀ c ∈ t, c ≠ ',' ∧ c ≠ ')' := by
  intro c hc
  have := h c hc
  exact ⟨by rintro rfl; exact absurd this (by decide), by rintro rfl; exact absurd this (by decide)⟩

theorem float_token (f : PyFloat) : TokenText f.repr := by
  refine ⟨floatChar_token (repr_chars f), ?_⟩
  cases f with
  | fin d =>
    obtain ⟨c, r, hr, hc⟩ := reprAbs_head d
    have hne : ∀ x, isDigit x = false → c ≠ x := by rintro x hx rfl; rw [hc] at hx; cases hx
    simp only [PyFloat.repr, hr]
    cases d.neg with
    | false => exact ⟨c, r, rfl, hne _ (by decide), hne _ (by decide), hne _ (by decide)⟩
    | true => exact ⟨'-', c :: r, rfl, by decide, by decide, by decide⟩
  | inf neg => cases neg <;> exact ⟨_, _, rfl, by decide, by decide, by decide⟩
  | nan => exact ⟨_, _, rfl, by decide, by decide, by decide⟩

theorem int_token (i : Int) : TokenText (intStr i) := by
  refine ⟨fun c hc => ?_, ?_⟩
  · rcases intStr_chars hc with h | rfl
    · exact ⟨by rintro rfl; exact absurd h (by decide), by rintro rfl; exact absurd h (by decide)⟩
    · decide
  · have key : ∀ n, ∃ c r, natStr n = c :: r ∧ isDigit c = true := fun n => by
      have hd : ∀ c ∈ natStr n, isDigit c = true := fun c hc => natStr_digits hc
      have h0 := natStr_ne_nil n
      cases hn : natStr n with
      | nil => exact absurd hn h0
      | cons c r => exact ⟨c, r, rfl, hd c (by rw [hn]; simp)⟩
    cases i with
    | ofNat n =>
      obtain ⟨c, r, hr, hc⟩ := key n
      have hne : ∀ x, isDigit x = false → c ≠ x := by rintro x hx rfl; rw [hc] at hx; cases hx
      exact ⟨c, r, hr, hne _ (by decide), hne _ (by decide), hne _ (by decide)⟩
    | negSucc n => exact ⟨'-', _, rfl, by decide, by decide, by decide⟩

theorem readMoment_date (d : Date) (rest : Str) : readMoment (d.iso ++ (c!"')" ++ rest)) = some (.date d, rest) := by
  have hT : readText c!"T" (c!"')" ++ rest) = none := readText_ne (by decide)
  unfold readMoment
  simp only [readDate_iso, Option.bind_eq_bind, Option.bind_some, d.ok, dif_pos, hT, readText_append]

theorem readMoment_datetime (t : Datetime) (ht : t.tz = none) (rest : Str) :
    readMoment (t.iso ++ (c!"')" ++ rest)) = some (.datetime t, rest) := by
  obtain ⟨d, h, mi, s, us, tz, ok⟩ := t
  simp only at ht; subst ht
  obtain ⟨a1, a2, a3, a4⟩ := timeOk_iff ok
  have e : ∀ s : Str, readText c!"T" (['T'] ++ s) = some s := fun s => readText_append ['T'] s
  have hr : (c!"')" ++ rest).head? ≠ some '.' := by simp
  have := readTime_iso a1 a2 a3 a4 (c!"')" ++ rest) hr
  unfold readMoment
  simp only [Datetime.iso, List.append_assoc, List.append_nil, List.nil_append, readDate_iso, Option.bind_eq_bind,
    Option.bind_some, d.ok, dif_pos, e, this, readText_append, ok]

theorem moment_valueText {iso : Str} {v : Val} (h : ∀ rest, readMoment (iso ++ (c!"')" ++ rest)) = some (v, rest)) :
    ValueText (toDateTimeLit iso) v := by
  unfold toDateTimeLit
  refine atom_valueText (by simp) (by simp) (fun rest => by simp [readText]) (fun rest => by simp [readText]) ?_
  intro rest _
  unfold readAtom
  rw [List.append_assoc, List.append_assoc, readText_append]
  exact h rest

theorem str_valueText (al : Bool) (s : Str) : ValueText (strLit ⟨al, false⟩ s) (.str s) := by
  have hh : ∃ r, strLit ⟨al, false⟩ s = '\'' :: r := ⟨_, rfl⟩
  obtain ⟨r, hr⟩ := hh
  refine atom_valueText (by rw [hr]; simp) (by rw [hr]; simp) (fun rest => by rw [hr]; simp [readText])
    (fun rest => by rw [hr]; simp [readText]) ?_
  intro rest _
  have := read_strLit ⟨al, false⟩ s rest
  have hq : (⟨al, false⟩ : Cfg).quote = '\'' := rfl
  rw [hq] at this
  unfold readAtom
  rw [this]
  rw [hr]
  simp [readText]

/-- Corresponding texts and values. -/
inductive ValueTexts : List Str → List Val → Prop
  | nil : ValueTexts [] []
  | cons (t v ts vs) : ValueText t v → ValueTexts ts vs → ValueTexts (t :: ts) (v :: vs)

/-- The texts after the first one, each after a comma. -/
def commaTail : List Str → Str
  | [] => []
  | t :: ts => c!", " ++ t ++ commaTail ts

theorem joinWith_comma (t : Str) : ∀ ts : List Str, joinWith c!", " (t :: ts) = t ++ commaTail ts
  | [] => by simp [joinWith, commaTail]
  | t' :: ts => by
    rw [joinWith, joinWith_comma t' ts]
    simp [commaTail]

theorem commaTail_delim (ts : List Str) (rest : Str) : Delim (commaTail ts ++ (')' :: rest)) := by
  cases ts with
  | nil => exact .inr (.inr ⟨_, rfl⟩)
  | cons t ts => exact .inr (.inl ⟨_, rfl⟩)

theorem moreItems_spec {ts : List Str} {vs : List Val} (h : ValueTexts ts vs) (rest : Str) :
    ∀ f, 2 * (commaTail ts).length + 1 ≤ f → moreItems f (commaTail ts ++ (')' :: rest)) = some (vs, rest) := by
  induction h with
  | nil =>
    intro f hf
    obtain ⟨f, rfl⟩ : ∃ g, f = g + 1 := ⟨f - 1, by omega⟩
    simp [moreItems, commaTail, readText]
  | cons t v ts vs hv _ ih =>
    intro f hf
    simp only [commaTail, List.length_append, List.length_cons, List.length_nil] at hf
    obtain ⟨f, rfl⟩ : ∃ g, f = g + 1 := ⟨f - 1, by omega⟩
    have e : commaTail (t :: ts) ++ (')' :: rest) = c!", " ++ (t ++ (commaTail ts ++ (')' :: rest))) := by simp [commaTail]
    have hp : readText c!")" (c!", " ++ (t ++ (commaTail ts ++ (')' :: rest)))) = none := readText_ne (by decide)
    rw [e, moreItems, hp]
    simp only [readText_append, Option.bind_eq_bind, Option.bind_some,
      hv.2.2 _ (commaTail_delim ts rest) f (by omega), ih f (by omega)]

theorem readItems_spec {ts : List Str} {vs : List Val} (h : ValueTexts ts vs) (rest : Str) (f : Nat)
    (hf : 2 * (joinWith c!", " ts).length + 3 ≤ f) :
    readItems f (joinWith c!", " ts ++ (')' :: rest)) = some (vs, rest) := by
  obtain ⟨f, rfl⟩ : ∃ g, f = g + 1 := ⟨f - 1, by omega⟩
  cases h with
  | nil => simp [readItems, joinWith, readText]
  | cons t v ts vs hv hvs =>
    rw [joinWith_comma] at hf ⊢
    simp only [List.length_append] at hf
    obtain ⟨c, r, rfl⟩ : ∃ c r, t = c :: r := by
      cases t with
      | nil => exact absurd rfl hv.1
      | cons c r => exact ⟨c, r, rfl⟩
    have hc : c ≠ ')' := by rintro rfl; exact hv.2.1 r rfl
    have hp : readText c!")" (c :: r ++ (commaTail ts ++ (')' :: rest))) = none := readText_ne hc
    rw [List.append_assoc, readItems, hp]
    simp only [Option.bind_eq_bind, Option.bind_some,
      hv.2.2 _ (commaTail_delim ts rest) f (by omega), moreItems_spec hvs rest f (by omega)]

theorem seq_valueText {ts : List Str} {vs : List Val} (h : ValueTexts ts vs) :
    ValueText (c!"array(" ++ joinWith c!", " ts ++ c!")") (.list vs) ∧
    ValueText (c!"tuple(" ++ joinWith c!", " ts ++ c!")") (.tuple vs) := by
  refine ⟨⟨by simp, by simp, fun rest hr f hf => ?_⟩, ⟨by simp, by simp, fun rest hr f hf => ?_⟩⟩
  · simp only [List.length_append, List.length_cons, List.length_nil] at hf
    obtain ⟨f, rfl⟩ : ∃ g, f = g + 1 := ⟨f - 1, by omega⟩
    have e : c!"array(" ++ joinWith c!", " ts ++ c!")" ++ rest = c!"array(" ++ (joinWith c!", " ts ++ (')' :: rest)) := by simp
    rw [e, readValue, readText_append]
    simp only [readItems_spec h rest f (by omega), Option.map_some]
  · simp only [List.length_append, List.length_cons, List.length_nil] at hf
    obtain ⟨f, rfl⟩ : ∃ g, f = g + 1 := ⟨f - 1, by omega⟩
    have e : c!"tuple(" ++ joinWith c!", " ts ++ c!")" ++ rest = c!"tuple(" ++ (joinWith c!", " ts ++ (')' :: rest)) := by simp
    have hn : readText c!"array(" (c!"tuple(" ++ (joinWith c!", " ts ++ (')' :: rest))) = none := readText_ne (by decide)
    rw [e, readValue, hn, readText_append]
    simp only [readItems_spec h rest f (by omega), Option.map_some]

theorem translateAll_valueTexts {cfg : Cfg} : ∀ {xs : List Val} {ps : List Str}, translateAll cfg xs = .ok ps →
    (∀ x ∈ xs, ∀ t, translate cfg x = .ok t → ValueText t x) → ValueTexts ps xs
  | [], ps, h, _ => by cases h; exact .nil
  | x :: xs, ps, h, hx => by
    simp only [translateAll, bind_eq_ok, Except.ok.injEq] at h
    obtain ⟨t, ht, ts, hts, rfl⟩ := h
    exact .cons _ _ _ _ (hx x (by simp) t ht) (translateAll_valueTexts hts fun y hy => hx y (by simp [hy]))

theorem pure_valueText (al : Bool) {v : Val} (hv : Spec.Pure v) : ∀ t, translate ⟨al, false⟩ v = .ok t → ValueText t v := by
  induction hv with
  | none =>
    intro t h; simp only [translate, Except.ok.injEq] at h; subst h
    exact token_valueText ⟨by decide, _, _, rfl, by decide, by decide, by decide⟩ rfl
  | bool b =>
    intro t h; simp only [translate, Except.ok.injEq] at h; subst h
    cases b <;> exact token_valueText ⟨by decide, _, _, rfl, by decide, by decide, by decide⟩ rfl
  | int i =>
    intro t h; simp only [translate, Except.ok.injEq] at h; subst h
    exact token_valueText (int_token i) (readToken_int i)
  | float f =>
    intro t h; simp only [translate, Except.ok.injEq] at h; subst h
    exact token_valueText (float_token f) (readToken_repr f)
  | str s =>
    intro t h; simp only [translate, Except.ok.injEq] at h; subst h
    exact str_valueText al s
  | date d =>
    intro t h; simp only [translate, Except.ok.injEq] at h; subst h
    exact moment_valueText (readMoment_date d)
  | datetime d hd =>
    intro t h
    simp only [translate, Datetime.toNaiveUtc, hd, ok_bind, Except.ok.injEq] at h; subst h
    exact moment_valueText (readMoment_datetime d hd)
  | list xs _ ih =>
    intro t h
    simp only [translate, bind_eq_ok, Except.ok.injEq] at h
    obtain ⟨_, _, ps, hps, rfl⟩ := h
    exact (seq_valueText (translateAll_valueTexts hps ih)).1
  | tuple xs _ ih =>
    intro t h
    simp only [translate, bind_eq_ok, Except.ok.injEq] at h
    obtain ⟨_, _, ps, hps, rfl⟩ := h
    exact (seq_valueText (translateAll_valueTexts hps ih)).2

/-- **C03** (reading back): the text of a scalar is read as that scalar, for any nesting. -/
theorem C03_reads_back (useAliases : Bool) (v : Val) (hv : Spec.Pure v) (t : Str) (h : translate ⟨useAliases, false⟩ v = .ok t) :
    readScalar t = some v := by
  have := (pure_valueText useAliases hv t h).2.2 [] (.inl rfl) (2 * t.length + 2) (Nat.le_refl _)
  rw [List.append_nil] at this
  simp [readScalar, this]

/-- **C03.** Scalars with the same text are the same value. -/
theorem C03_injective (useAliases : Bool) (v w : Val) (hv : Spec.Pure v) (hw : Spec.Pure w) (t : Str)
    (h : translate ⟨useAliases, false⟩ v = .ok t) (h' : translate ⟨useAliases, false⟩ w = .ok t) : v = w := by
  have h1 := C03_reads_back useAliases v hv t h
  have h2 := C03_reads_back useAliases w hw t h'
  rw [h1] at h2
  exact Option.some.inj h2

/-- Every scalar is a scalar for the code, and so is printed. -/
theorem pure_translates (useAliases : Bool) {v : Val} (hv : Spec.Pure v) :
    isScalar v = .ok true ∧ ∃ t, translate ⟨useAliases, false⟩ v = .ok t := by
  have seq : ∀ xs : List Val,
      (∀ x ∈ xs, isScalar x = .ok true ∧ ∃ t, translate ⟨useAliases, false⟩ x = .ok t) →
      allScalar xs = .ok true ∧ ∃ ps, translateAll ⟨useAliases, false⟩ xs = .ok ps := by
    intro xs
    induction xs with
    | nil => intro _; exact ⟨rfl, _, rfl⟩
    | cons x xs ih =>
      intro h
      obtain ⟨h1, t, h2⟩ := h x (by simp)
      obtain ⟨h3, ps, h4⟩ := ih fun y hy => h y (by simp [hy])
      exact ⟨by simp [allScalar, h1, h3], t :: ps, by simp [translateAll, h2, h4]⟩
  induction hv with
  | list xs _ ih =>
    obtain ⟨h1, ps, h2⟩ := seq xs ih
    exact ⟨by simp [isScalar, h1], _, by simp only [translate, h1, h2, ok_bind]; rfl⟩
  | tuple xs _ ih =>
    obtain ⟨h1, ps, h2⟩ := seq xs ih
    exact ⟨by simp [isScalar, h1], _, by simp only [translate, h1, h2, ok_bind]; rfl⟩
  | datetime d hd => exact ⟨rfl, _, by simp only [translate, Datetime.toNaiveUtc, hd, ok_bind]; rfl⟩
  | _ => exact ⟨rfl, _, rfl⟩

/-- **C03** (every scalar has a text): so the two statements above are about all of them. -/
theorem C03_total (useAliases : Bool) (v : Val) (hv : Spec.Pure v) : ∃ t, translate ⟨useAliases, false⟩ v = .ok t :=
  (pure_translates useAliases hv).2

/-- `[(1, None), ["a, (b')", -0.5], (), 2021-03-04T05:06:07]`. -/
def sampleScalar : Val :=
  .list [.tuple [.int 1, .none], .list [.str c!"a, (b')", .float (.fin ⟨true, 1, -1, by decide⟩)], .tuple [],
    .datetime ⟨⟨2021, 3, 4, by decide⟩, 5, 6, 7, 0, none, by decide⟩]

example : translate .snql sampleScalar =
    .ok c!"array(tuple(1, NULL), array('a, (b\\')', -0.5), tuple(), toDateTime('2021-03-04T05:06:07'))" := rfl

theorem sampleScalar_pure : Spec.Pure sampleScalar := by
  refine .list _ ?_
  simp only [List.forall_mem_cons]
  refine ⟨.tuple _ ?_, .list _ ?_, .tuple _ ?_, .datetime _ rfl, ?_⟩
  · simp only [List.forall_mem_cons]; exact ⟨.int _, .none, by simp⟩
  · simp only [List.forall_mem_cons]; exact ⟨.str _, .float _, by simp⟩
  · simp
  · simp

example : readScalar c!"array(tuple(1, NULL), array('a, (b\\')', -0.5), tuple(), toDateTime('2021-03-04T05:06:07'))" =
    some sampleScalar := C03_reads_back true _ sampleScalar_pure _ rfl

/-- The string `array(1)` and the list `[1]` are kept apart. -/
example : translate .snql (.str c!"array(1)") ≠ translate .snql (.list [.int 1]) := by decide

/-- Bytes are outside the statement: `b"a"` and `"a"` have the same text. -/
example : translate .snql (.bytes [0x61]) = translate .snql (.str c!"a") := rfl

/-- Datetimes with a timezone are outside the statement: noon UTC and noon without a timezone have the same text. -/
example : translate .snql (.datetime ⟨⟨2021, 3, 4, by decide⟩, 12, 0, 0, 0, some (some 0), by decide⟩) =
    translate .snql (.datetime ⟨⟨2021, 3, 4, by decide⟩, 12, 0, 0, 0, none, by decide⟩) := by decide +kernel

end Verif
