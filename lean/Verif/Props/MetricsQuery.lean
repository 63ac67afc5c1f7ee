import Verif.Spec.MetricsQuery
import Verif.Lemmas.MqlOutcome
import Verif.Lemmas.Date
import Verif.Props.Formula
import Verif.Props.Construct
import Verif.Props.OrOptimizer
import Verif.Lemmas.MqlReads

/-!
# C35, C36, C42, C51, C52, C53: metrics queries
-/

namespace Verif
open Spec

theorem rollup_validate {r : RollupObj} {u : Unit} : r.validate = .ok u ↔ RollupOk r := by
  have h := C33_rollup_iff r.interval r.totals r.orderby r.granularity r
  simp only [mkRollup, bind_eq_ok, Except.ok.injEq, and_true, true_and] at h
  exact ⟨fun hr => h.1 ⟨u, hr⟩, fun hr => (h.2 hr).elim fun _ h => h⟩

/-! ### C35 -/

section
variable [U : PyUnicode] [S : RegexSpace]

omit U S in
theorem formula_validate {n : Val} {p : MVal} {a f g : Val} (ht : ∀ y, InFormula (.formula n p a f g) y → Typed y) :
    validateFormula n p g = .ok () ↔ FormulaOk n p a f g := by
  rw [C34_validate_iff n p a f g ht]
  exact ⟨fun ⟨h1, h2, h3, h4⟩ => ⟨h1, h2, h3, h4⟩, fun ⟨h1, h2, h3, h4⟩ => ⟨h1, h2, h3, h4⟩⟩

omit U S in
theorem object_validate {x : MVal} (ht : ∀ y, InFormula x y → Typed y) : x.validateQuery = .ok () ↔ ObjectOk x := by
  cases x with
  | ts t =>
    simp only [MVal.validateQuery, timeseries_validate]
    exact ⟨.ts t, fun h => by cases h; assumption⟩
  | formula n p a f g =>
    simp only [MVal.validateQuery, formula_validate ht]
    exact ⟨.formula _ _ _ _ _, fun h => by cases h; assumption⟩
  | _ => exact ⟨fun h => by simp [MVal.validateQuery] at h, fun h => by cases h⟩

theorem parsed_typed {s : Str} {x : MVal} (h : parseMql s = .ok x) : ∀ y, InFormula x y → Typed y :=
  fun y hy => ((parseMql_sound h).1 y hy).wellFormed.typed

theorem checkQuery_iff {x : MVal} (ht : ∀ n p a f g, x = .formula n p a f g → ∀ y, InFormula x y → Typed y) :
    checkQuery x = .ok () ↔ QueryOk x := by
  unfold checkQuery
  split
  · rename_i s
    simp only [parseChecked, bind_eq_ok]
    constructor
    · rintro ⟨x, hx, h⟩
      split at hx
      · rename_i hp
        cases hx
        exact .text _ _ hp ((object_validate (parsed_typed hp)).1 h)
      · cases hx
    · rintro (⟨_, h⟩ | ⟨_, x, hp, h⟩)
      · cases h
      · exact ⟨x, by rw [hp], (object_validate (parsed_typed hp)).2 h⟩
  · rename_i t
    have : ∀ y, InFormula (.ts t) y → Typed y ∨ True := fun _ _ => .inr trivial
    simp only [MVal.validateQuery, timeseries_validate]
    constructor
    · exact fun h => .object _ (.ts _ h)
    · intro h
      cases h with
      | object _ h => cases h; assumption
  · rw [object_validate (ht _ _ _ _ _ rfl)]
    constructor
    · exact fun h => .object _ h
    · intro h
      cases h with
      | object _ h => exact h
  · rename_i h1 h2 h3
    constructor
    · intro h; cases h
    · intro h
      cases h with
      | object _ h =>
        cases h with
        | ts t => exact (h2 _ rfl).elim
        | formula => exact (h3 _ _ _ _ _ rfl).elim
      | text s => exact (h1 _ rfl).elim

omit U S in
theorem checkTime_iff {x : MVal} : checkTime x = .ok () ↔ ∃ t, x = .val (.datetime t) := by
  unfold checkTime
  split
  · exact ⟨fun _ => ⟨_, rfl⟩, fun _ => rfl⟩
  · rename_i h
    exact ⟨(by simp), fun ⟨t, e⟩ => (h _ e).elim⟩

omit U S in
theorem checkRollup_iff {x : MVal} : checkRollup x = .ok () ↔ ∃ r, x = .rollup r ∧ r.granularity ≠ .none ∧ RollupOk r := by
  unfold checkRollup
  split
  · simp only [bind_eq_ok, ensure_eq_ok, given_iff, rollup_validate, MVal.rollup.injEq, exists_eq_left', exists_const]
  · rename_i h
    exact ⟨(by simp), fun ⟨t, e, _⟩ => (h _ e).elim⟩

omit U S in
theorem checkScope_iff {x : MVal} : checkScope x = .ok () ↔ ∃ s, x = .scope s ∧ ScopeOk s := by
  unfold checkScope
  split
  · simp only [scope_validate, MVal.scope.injEq, exists_eq_left']
  · rename_i h
    exact ⟨(by simp), fun ⟨t, e, _⟩ => (h _ e).elim⟩

omit S in
theorem checkLimit_iff {x : MVal} : checkLimit x = .ok () ↔
    Optional (fun x => ∃ n : PyInt, x = .val (.limit n) ∧ 1 ≤ n.toInt ∧ n.toInt ≤ 10000) x := by
  unfold checkLimit
  split
  · exact ⟨fun _ => .none, fun _ => rfl⟩
  · rename_i n
    simp only [Val.validate, ensure_eq_ok, Bool.and_eq_true, Bool.not_eq_true', decide_eq_false_iff_not]
    constructor
    · rintro ⟨h1, h2⟩; exact .some _ ⟨n, rfl, by omega, by omega⟩
    · intro h
      cases h with
      | some _ h => obtain ⟨m, e, h1, h2⟩ := h; cases e; exact ⟨by omega, by omega⟩
  · rename_i h1 h2
    refine ⟨by simp, fun h => ?_⟩
    cases h with
    | none => exact (h1 rfl).elim
    | some _ h => obtain ⟨n, e, _⟩ := h; exact (h2 _ e).elim

omit S in
theorem checkOffset_iff {x : MVal} : checkOffset x = .ok () ↔
    Optional (fun x => ∃ n : PyInt, x = .val (.offset n) ∧ 0 ≤ n.toInt) x := by
  unfold checkOffset
  split
  · exact ⟨fun _ => .none, fun _ => rfl⟩
  · rename_i n
    simp only [Val.validate, ensure_eq_ok, Bool.not_eq_true', decide_eq_false_iff_not]
    constructor
    · intro h1; exact .some _ ⟨n, rfl, by omega⟩
    · intro h
      cases h with
      | some _ h => obtain ⟨m, e, h1⟩ := h; cases e; omega
  · rename_i h1 h2
    refine ⟨by simp, fun h => ?_⟩
    cases h with
    | none => exact (h1 rfl).elim
    | some _ h => obtain ⟨n, e, _⟩ := h; exact (h2 _ e).elim

omit S in
theorem checkExtrapolate_iff {x : MVal} : checkExtrapolate x = .ok () ↔
    Optional (fun x => ∃ b, x = .val (.extrapolate b)) x := by
  unfold checkExtrapolate
  split
  · exact ⟨fun _ => .none, fun _ => rfl⟩
  · exact ⟨fun _ => .some _ ⟨_, rfl⟩, fun _ => rfl⟩
  · rename_i h1 h2
    refine ⟨by simp, fun h => ?_⟩
    cases h with
    | none => exact (h1 rfl).elim
    | some _ h => obtain ⟨n, e⟩ := h; exact (h2 _ e).elim

omit U S in
theorem checkMappings_iff {x : MVal} : checkMappings x = .ok () ↔
    Optional (fun x => ∃ kvs, x = .data (.dict kvs)) x := by
  unfold checkMappings
  split
  · exact ⟨fun _ => .none, fun _ => rfl⟩
  · exact ⟨fun _ => .some _ ⟨_, rfl⟩, fun _ => rfl⟩
  · rename_i h1 h2
    refine ⟨by simp, fun h => ?_⟩
    cases h with
    | none => exact (h1 rfl).elim
    | some _ h => obtain ⟨n, e⟩ := h; exact (h2 _ e).elim

theorem metricsQuery_parts {q : MetricsQueryObj} : q.validate = .ok () ↔
    checkQuery q.query = .ok () ∧ checkTime q.start = .ok () ∧ checkTime q.end_ = .ok () ∧ checkRollup q.rollup = .ok () ∧
    checkScope q.scope = .ok () ∧ checkLimit q.limit = .ok () ∧ checkOffset q.offset = .ok () ∧
    checkExtrapolate q.extrapolate = .ok () ∧ checkMappings q.indexerMappings = .ok () := by
  simp only [MetricsQueryObj.validate, bind_eq_ok]
  constructor
  · rintro ⟨_, h1, _, h2, _, h3, _, h4, _, h5, _, h6, _, h7, _, h8, h9⟩
    exact ⟨h1, h2, h3, h4, h5, h6, h7, h8, h9⟩
  · rintro ⟨h1, h2, h3, h4, h5, h6, h7, h8, h9⟩
    exact ⟨_, h1, _, h2, _, h3, _, h4, _, h5, _, h6, _, h7, _, h8, h9⟩

/-- **C35.** A metrics query whose formula, if it holds one, is typed as annotated validates exactly when it has a query (an
object or a string the parser accepts), two datetimes, a rollup with a granularity and a scope, all of them valid, and its
limit, offset, extrapolation and mappings are absent or valid. For strings no typing is assumed. -/
theorem C35_validate_iff (q : MetricsQueryObj)
    (ht : ∀ n p a f g, q.query = .formula n p a f g → ∀ y, InFormula q.query y → Typed y) :
    q.validate = .ok () ↔ MetricsQueryOk q := by
  rw [metricsQuery_parts, checkQuery_iff ht, checkTime_iff, checkTime_iff, checkRollup_iff, checkScope_iff, checkLimit_iff,
    checkOffset_iff, checkExtrapolate_iff, checkMappings_iff]
  exact ⟨fun ⟨h1, h2, h3, h4, h5, h6, h7, h8, h9⟩ => ⟨h1, h2, h3, h4, h5, h6, h7, h8, h9⟩,
    fun ⟨h1, h2, h3, h4, h5, h6, h7, h8, h9⟩ => ⟨h1, h2, h3, h4, h5, h6, h7, h8, h9⟩⟩

/-- **C35** (missing parts): without a query, start, end, rollup, granularity or scope the error is
`InvalidMetricsQueryError`, provided the parts before it are valid. -/
theorem C35_missing (q : MetricsQueryObj) :
    (q.query = .val .none → q.validate = .error .invalidMetricsQuery) ∧
    (checkQuery q.query = .ok () → q.start = .val .none → q.validate = .error .invalidMetricsQuery) ∧
    (checkQuery q.query = .ok () → (∃ t, q.start = .val (.datetime t)) → q.end_ = .val .none →
      q.validate = .error .invalidMetricsQuery) ∧
    (checkQuery q.query = .ok () → (∃ t, q.start = .val (.datetime t)) → (∃ t, q.end_ = .val (.datetime t)) →
      (q.rollup = .val .none ∨ ∃ r, q.rollup = .rollup r ∧ r.granularity = .none) → q.validate = .error .invalidMetricsQuery) ∧
    (checkQuery q.query = .ok () → (∃ t, q.start = .val (.datetime t)) → (∃ t, q.end_ = .val (.datetime t)) →
      (∃ r, q.rollup = .rollup r ∧ r.granularity ≠ .none ∧ RollupOk r) → q.scope = .val .none →
      q.validate = .error .invalidMetricsQuery) := by
  unfold MetricsQueryObj.validate
  refine ⟨fun h => ?_, fun h1 h => ?_, fun h1 ⟨t, h2⟩ h => ?_, fun h1 ⟨t, h2⟩ ⟨t', h3⟩ h => ?_, fun h1 ⟨t, h2⟩ ⟨t', h3⟩ h4 h => ?_⟩
  · rw [h]; rfl
  · rw [h1, h]; rfl
  · rw [h1, h2, h]; rfl
  · rw [h1, h2, h3]
    rcases h with h | ⟨r, h, hr⟩
    · rw [h]; rfl
    · rw [h]; simp [checkTime, checkRollup, hr, Val.given, ensure, error_bind]
  · rw [h1, h2, h3, checkRollup_iff.2 h4, h]; rfl

end

/-! ### C36 -/

theorem optional_iff {P : MVal → Prop} {x : MVal} : Optional P x ↔ x = .val .none ∨ P x := by
  constructor
  · rintro (_ | ⟨_, h⟩)
    · exact .inl rfl
    · exact .inr h
  · rintro (rfl | h)
    · exact .none
    · exact .some _ h

theorem unwrapped_inj {w : PyInt → Val} {x x' : MVal} {v : Val} (h : Unwrapped w x v) (h' : Unwrapped w x' v) : x = x' := by
  rcases h with ⟨rfl, rfl⟩ | ⟨n, rfl, h⟩
  · rcases h' with ⟨rfl, _⟩ | ⟨n, rfl, h⟩
    · rfl
    · cases h
  · rcases h' with ⟨_, rfl⟩ | ⟨n', rfl, h'⟩
    · cases h
    · cases h <;> cases h' <;> rfl

theorem unwrappedBool_inj {x x' : MVal} {v : Val} (h : UnwrappedBool x v) (h' : UnwrappedBool x' v) : x = x' := by
  rcases h with ⟨rfl, rfl⟩ | ⟨n, rfl, rfl⟩
  · rcases h' with ⟨rfl, _⟩ | ⟨n, _, h⟩
    · rfl
    · cases h
  · rcases h' with ⟨_, h⟩ | ⟨n', rfl, h'⟩
    · cases h
    · cases h'; rfl

theorem readOffset_plus (s : Str) : readOffset ('+' :: s) = (readOffsetBody s).map fun (n : Nat) => some (n : Int) := by
  unfold readOffset; split <;> simp_all

theorem readOffset_minus (s : Str) : readOffset ('-' :: s) = (readOffsetBody s).map fun (n : Nat) => some (-(n : Int)) := by
  unfold readOffset; split <;> simp_all

theorem offset_parts {off : Int} (h1 : -86400000000 < off) (h2 : off < 86400000000) :
    readOffset (formatOffset off) = some (some off) := by
  have hb : readOffsetBody (padNat 2 (off.natAbs / 1000000 / 3600) ++ ([':'] ++ (padNat 2 (off.natAbs / 1000000 % 3600 / 60) ++
      (if off.natAbs / 1000000 % 60 ≠ 0 ∨ off.natAbs % 1000000 ≠ 0 then
        [':'] ++ padNat 2 (off.natAbs / 1000000 % 60) ++ (if off.natAbs % 1000000 ≠ 0 then ['.'] ++ padNat 6 (off.natAbs % 1000000) else [])
       else [])))) = some off.natAbs := by
    have ha : off.natAbs < 86400000000 := by omega
    generalize off.natAbs = a at ha
    have e : ∀ s : Str, readText c!":" ([':'] ++ s) = some s := fun s => readText_append [':'] s
    have b1 : a / 1000000 / 3600 < 10 ^ 2 := by omega
    have b2 : a / 1000000 % 3600 / 60 < 10 ^ 2 := by omega
    have b3 : a / 1000000 % 60 < 10 ^ 2 := by omega
    have b4 : a % 1000000 < 10 ^ 6 := by omega
    have hs : readOffsetSeconds (if a / 1000000 % 60 ≠ 0 ∨ a % 1000000 ≠ 0 then
        [':'] ++ padNat 2 (a / 1000000 % 60) ++ (if a % 1000000 ≠ 0 then ['.'] ++ padNat 6 (a % 1000000) else [])
       else []) = some (a / 1000000 % 60 * 1000000 + a % 1000000) := by
      by_cases hu : a % 1000000 = 0
      · by_cases hs : a / 1000000 % 60 = 0
        · simp [hu, hs, readOffsetSeconds]
        · simp only [hu, hs, ne_eq, not_false_eq_true, not_true_eq_false, or_false, if_true, if_false, List.cons_append,
            List.nil_append, readOffsetSeconds, readDigits_padNat b3, Option.bind_eq_bind, Option.bind_some, readFraction]
      · have r := readDigits_padNat b4 []
        rw [List.append_nil] at r
        simp only [hu, ne_eq, not_false_eq_true, or_true, if_true, List.cons_append,
          List.nil_append, readOffsetSeconds, readDigits_padNat b3, Option.bind_eq_bind, Option.bind_some, readFraction, r]
    simp only [readOffsetBody, readDigits_padNat b1, readDigits_padNat b2, e, hs, Option.bind_eq_bind, Option.bind_some]
    congr 1
    omega
  unfold formatOffset
  simp only [List.append_assoc, List.cons_append, List.nil_append] at hb ⊢
  by_cases hn : off < 0
  · simp only [hn, if_true, List.cons_append, List.nil_append]
    rw [readOffset_minus, hb]
    simp only [Option.map_some, Option.some.injEq]
    omega
  · simp only [hn, if_false, List.cons_append, List.nil_append]
    rw [readOffset_plus, hb]
    simp only [Option.map_some, Option.some.injEq]
    omega

/-- The ISO text of a datetime tells its date, its time and its offset. -/
theorem readIsoMoment_iso (t : Datetime) : readIsoMoment t.iso = some (isoMomentOf t) := by
  obtain ⟨d, h, mi, s, us, tz, ok⟩ := t
  obtain ⟨a1, a2, a3, a4⟩ := timeOk_iff ok
  have e : ∀ s : Str, readText c!"T" (['T'] ++ s) = some s := fun s => readText_append ['T'] s
  have key : ∀ z : Str, z.head? ≠ some '.' → readOffset z = some tz.join →
      readIsoMoment (d.iso ++ (['T'] ++ (padNat 2 h ++ ([':'] ++ (padNat 2 mi ++ ([':'] ++ (padNat 2 s ++
        ((if us ≠ 0 then ['.'] ++ padNat 6 us else []) ++ z)))))))) = some (isoMomentOf ⟨d, h, mi, s, us, tz, ok⟩) := by
    intro z hz hr
    simp only [readIsoMoment, readDate_iso, e, readTime_iso a1 a2 a3 a4 z hz, hr, Option.bind_eq_bind, Option.bind_some, isoMomentOf]
  unfold Datetime.iso
  simp only [List.append_assoc]
  match tz, ok, key with
  | none, _, key => exact key [] (by simp) rfl
  | some none, _, key => exact key [] (by simp) rfl
  | some (some off), ok, key =>
    simp only [timeOk, Bool.and_eq_true, decide_eq_true_eq] at ok
    refine key _ ?_ (offset_parts ok.2.1 ok.2.2)
    unfold formatOffset
    by_cases hn : off < 0 <;> simp [hn]

section
variable [U : PyUnicode] [S : RegexSpace] [R : PyRepr]

theorem print_parts {q : MetricsQueryObj} {d : Data} : q.print = .ok d ↔
    ∃ text start end_ rollup scope limit offset extrapolate mappings,
      queryMql q.query = .ok text ∧ timeMql q.start = .ok start ∧ timeMql q.end_ = .ok end_ ∧ rollupMql q.rollup = .ok rollup ∧
      scopeMql q.scope = .ok scope ∧ limitMql q.limit = .ok limit ∧ offsetMql q.offset = .ok offset ∧
      extrapolateMql q.extrapolate = .ok extrapolate ∧ mappingsMql q.indexerMappings = .ok mappings ∧
      d = .dict [(c!"mql", .val (.str text)), (c!"mql_context", contextDict start end_ rollup scope mappings limit offset extrapolate)] := by
  simp only [MetricsQueryObj.print, bind_eq_ok, Except.ok.injEq]
  constructor
  · rintro ⟨a, h1, b, h2, c, h3, e, h4, f, h5, g, h6, i, h7, j, h8, k, h9, rfl⟩
    exact ⟨a, b, c, e, f, g, i, j, k, h1, h2, h3, h4, h5, h6, h7, h8, h9, rfl⟩
  · rintro ⟨a, b, c, e, f, g, i, j, k, h1, h2, h3, h4, h5, h6, h7, h8, h9, rfl⟩
    exact ⟨a, h1, b, h2, c, h3, e, h4, f, h5, g, h6, i, h7, j, h8, k, h9, rfl⟩

/-- The context of a valid query, read back. -/
theorem context_read {q : MetricsQueryObj} (hv : q.validate = .ok ()) {start end_ rollup scope limit offset extrapolate mappings : Data}
    (h2 : timeMql q.start = .ok start) (h3 : timeMql q.end_ = .ok end_) (h4 : rollupMql q.rollup = .ok rollup)
    (h5 : scopeMql q.scope = .ok scope) (h6 : limitMql q.limit = .ok limit) (h7 : offsetMql q.offset = .ok offset)
    (h8 : extrapolateMql q.extrapolate = .ok extrapolate) (h9 : mappingsMql q.indexerMappings = .ok mappings) :
    ∃ c, readContext (contextDict start end_ rollup scope mappings limit offset extrapolate) = some c ∧ Describes c q := by
  rw [metricsQuery_parts] at hv
  obtain ⟨_, v2, v3, v4, v5, v6, v7, v8, v9⟩ := hv
  rw [checkTime_iff] at v2 v3
  rw [checkRollup_iff] at v4
  rw [checkScope_iff] at v5
  rw [checkLimit_iff] at v6
  rw [checkOffset_iff] at v7
  rw [checkExtrapolate_iff] at v8
  rw [checkMappings_iff] at v9
  obtain ⟨t1, e2⟩ := v2
  obtain ⟨t2, e3⟩ := v3
  obtain ⟨r, e4, _, hr⟩ := v4
  obtain ⟨s, e5, hs⟩ := v5
  rw [e2] at h2; cases h2
  rw [e3] at h3; cases h3
  rw [e5] at h5; cases h5
  rw [e4] at h4
  simp only [rollupMql, bind_eq_ok, Except.ok.injEq] at h4
  obtain ⟨o, ho, rfl⟩ := h4
  have hlim : ∃ v, limit = .val v ∧ Unwrapped .limit q.limit v := by
    rcases optional_iff.1 v6 with hn | ⟨n, hn, _⟩
    · rw [hn] at h6 ⊢; cases h6; exact ⟨_, rfl, .inl ⟨rfl, rfl⟩⟩
    · rw [hn] at h6 ⊢; cases h6
      exact ⟨_, rfl, .inr ⟨n, rfl, by cases n <;> constructor⟩⟩
  have hoff : ∃ v, offset = .val v ∧ Unwrapped .offset q.offset v := by
    rcases optional_iff.1 v7 with hn | ⟨n, hn, _⟩
    · rw [hn] at h7 ⊢; cases h7; exact ⟨_, rfl, .inl ⟨rfl, rfl⟩⟩
    · rw [hn] at h7 ⊢; cases h7
      exact ⟨_, rfl, .inr ⟨n, rfl, by cases n <;> constructor⟩⟩
  have hext : ∃ v, extrapolate = .val v ∧ UnwrappedBool q.extrapolate v := by
    rcases optional_iff.1 v8 with hn | ⟨n, hn⟩
    · rw [hn] at h8 ⊢; cases h8; exact ⟨_, rfl, .inl ⟨rfl, rfl⟩⟩
    · rw [hn] at h8 ⊢; cases h8; exact ⟨_, rfl, .inr ⟨n, rfl, rfl⟩⟩
  have hmap : q.indexerMappings = .data mappings := by
    rcases optional_iff.1 v9 with hn | ⟨n, hn⟩
    · rw [hn] at h9; cases h9
    · rw [hn] at h9 ⊢; cases h9; rfl
  have hord : ∃ a, directionField o = some a ∧
      r.orderby = match a with | none => .none | some true => .direction .asc | some false => .direction .desc := by
    rcases hr.orderby with he | ⟨d, he⟩
    · rw [he] at ho; cases ho; exact ⟨none, rfl, he⟩
    · rw [he] at ho; cases ho
      cases d
      · exact ⟨some true, rfl, he⟩
      · exact ⟨some false, rfl, he⟩
  have htot : ∃ a, totalsField (totalsText r.totals) = some a ∧ r.totals = match a with | none => .none | some b => .bool b := by
    rcases hr.totals with he | ⟨b, he⟩
    · rw [he]; exact ⟨none, rfl, rfl⟩
    · rw [he]; exact ⟨some b, by cases b <;> rfl, rfl⟩
  obtain ⟨vl, rfl, hlim⟩ := hlim
  obtain ⟨vo, rfl, hoff⟩ := hoff
  obtain ⟨ve, rfl, hext⟩ := hext
  obtain ⟨a, ha, hord⟩ := hord
  obtain ⟨b, hb, htot⟩ := htot
  have f1 : momentField (.val (.str t1.iso)) = some (isoMomentOf t1) := readIsoMoment_iso t1
  have f2 : momentField (.val (.str t2.iso)) = some (isoMomentOf t2) := readIsoMoment_iso t2
  refine ⟨⟨isoMomentOf t1, isoMomentOf t2, a, r.granularity, r.interval, b, s.orgIds, s.projectIds, s.useCaseId, vl, vo, ve, mappings⟩, ?_, ?_⟩
  · have look : ∀ {α : Type} (k k' : Str) (x : α) (l : List (Str × α)), ((k, x) :: l).lookup k' = if k' = k then some x else l.lookup k' := by
      intro α k k' x l
      by_cases h : k' = k
      · subst h; simp [List.lookup]
      · have : (k' == k) = false := by simpa using h
        simp [List.lookup, this, h]
    simp only [readContext, contextDict, entries, field, look, Option.bind_eq_bind, Option.bind_some, if_true]
    simp (decide := true) only [if_false, if_true, f1, f2, ha, hb, Option.bind_some, entries, look, plainVal]
  · exact ⟨⟨t1, e2, rfl⟩, ⟨t2, e3, rfl⟩, ⟨r, e4, rfl, rfl, htot, hord⟩, ⟨s, e5, rfl, rfl, rfl⟩, hlim, hoff, hext, hmap⟩

/-- **C36.** A valid metrics query that can be printed is sent as its MQL text and a context. The context has exactly the eight
keys, and an independent reader finds under each of them what the query holds: the two moments with their offsets, the four
values of the rollup, the three of the scope, limit, offset, extrapolation, and the mappings. -/
theorem C36_context (q : MetricsQueryObj) (d : Data) (hv : q.validate = .ok ()) (hp : q.print = .ok d) :
    ∃ text kvs c, queryMql q.query = .ok text ∧ d = .dict [(c!"mql", .val (.str text)), (c!"mql_context", .dict kvs)] ∧
      kvs.map Prod.fst = [c!"start", c!"end", c!"rollup", c!"scope", c!"indexer_mappings", c!"limit", c!"offset", c!"extrapolate"] ∧
      readContext (.dict kvs) = some c ∧ Describes c q := by
  obtain ⟨text, start, end_, rollup, scope, limit, offset, extrapolate, mappings, h1, h2, h3, h4, h5, h6, h7, h8, h9, rfl⟩ := print_parts.1 hp
  obtain ⟨c, hc, hd⟩ := context_read hv h2 h3 h4 h5 h6 h7 h8 h9
  exact ⟨text, _, c, h1, rfl, rfl, hc, hd⟩

/-- **C36** (nothing is lost): valid queries with the same context have the same rollup, scope, limit, offset, extrapolation and
mappings, and starts and ends with the same date, time and offset. -/
theorem C36_injective (q q' : MetricsQueryObj) (x x' y : Data) (hv : q.validate = .ok ()) (hv' : q'.validate = .ok ())
    (hp : q.print = .ok (.dict [(c!"mql", x), (c!"mql_context", y)])) (hp' : q'.print = .ok (.dict [(c!"mql", x'), (c!"mql_context", y)])) :
    q.rollup = q'.rollup ∧ q.scope = q'.scope ∧ q.limit = q'.limit ∧ q.offset = q'.offset ∧ q.extrapolate = q'.extrapolate ∧
      q.indexerMappings = q'.indexerMappings ∧
      (∃ t t', q.start = .val (.datetime t) ∧ q'.start = .val (.datetime t') ∧ isoMomentOf t = isoMomentOf t') ∧
      ∃ t t', q.end_ = .val (.datetime t) ∧ q'.end_ = .val (.datetime t') ∧ isoMomentOf t = isoMomentOf t' := by
  obtain ⟨_, kvs, c, _, e, _, hr, hd⟩ := C36_context q _ hv hp
  obtain ⟨_, kvs', c', _, e', _, hr', hd'⟩ := C36_context q' _ hv' hp'
  cases e
  cases e'
  rw [hr] at hr'
  cases hr'
  obtain ⟨t, h1, h1'⟩ := hd.start
  obtain ⟨t', h2, h2'⟩ := hd'.start
  obtain ⟨u, h3, h3'⟩ := hd.end_
  obtain ⟨u', h4, h4'⟩ := hd'.end_
  obtain ⟨r, h5, g1, g2, g3, g4⟩ := hd.rollup
  obtain ⟨r', h6, g1', g2', g3', g4'⟩ := hd'.rollup
  obtain ⟨s, h7, k1, k2, k3⟩ := hd.scope
  obtain ⟨s', h8, k1', k2', k3'⟩ := hd'.scope
  have hrr : r = r' := by
    cases r; cases r'
    simp only [RollupObj.mk.injEq]
    exact ⟨g2.symm.trans g2', g3.trans g3'.symm, g4.trans g4'.symm, g1.symm.trans g1'⟩
  have hss : s = s' := by
    cases s; cases s'
    simp only [ScopeObj.mk.injEq]
    exact ⟨k1.symm.trans k1', k2.symm.trans k2', k3.symm.trans k3'⟩
  exact ⟨by rw [h5, h6, hrr], by rw [h7, h8, hss], unwrapped_inj hd.limit hd'.limit, unwrapped_inj hd.offset hd'.offset,
    unwrappedBool_inj hd.extrapolate hd'.extrapolate, hd.mappings.trans hd'.mappings.symm,
    ⟨t, t', h1, h2, h1'.symm.trans h2'⟩, ⟨u, u', h3, h4, h3'.symm.trans h4'⟩⟩

/-- **C36** (what can be sent): a valid metrics query can be printed exactly when its query can and it has mappings. -/
theorem C36_prints_iff (q : MetricsQueryObj) (hv : q.validate = .ok ()) :
    (∃ d, q.print = .ok d) ↔ (∃ text, queryMql q.query = .ok text) ∧ q.indexerMappings ≠ .val .none := by
  rw [metricsQuery_parts, checkTime_iff, checkTime_iff, checkRollup_iff, checkScope_iff, checkLimit_iff, checkOffset_iff,
    checkExtrapolate_iff, checkMappings_iff] at hv
  obtain ⟨_, ⟨t1, e2⟩, ⟨t2, e3⟩, ⟨r, e4, _, hr⟩, ⟨s, e5, hs⟩, v6, v7, v8, v9⟩ := hv
  constructor
  · rintro ⟨d, hd⟩
    obtain ⟨text, _, _, _, _, _, _, _, _, h1, _, _, _, _, _, _, _, h9, _⟩ := print_parts.1 hd
    refine ⟨⟨text, h1⟩, ?_⟩
    intro hn
    rw [hn] at h9
    cases h9
  · rintro ⟨⟨text, h1⟩, hm⟩
    have h4 : ∃ x, rollupMql q.rollup = .ok x := by
      rw [e4]
      rcases hr.orderby with he | ⟨d, he⟩ <;> exact ⟨_, by simp only [rollupMql, he, orderbyValue]; rfl⟩
    have h6 : ∃ x, limitMql q.limit = .ok x := by
      rcases optional_iff.1 v6 with h | ⟨n, h, _⟩ <;> rw [h] <;> exact ⟨_, rfl⟩
    have h7 : ∃ x, offsetMql q.offset = .ok x := by
      rcases optional_iff.1 v7 with h | ⟨n, h, _⟩ <;> rw [h] <;> exact ⟨_, rfl⟩
    have h8 : ∃ x, extrapolateMql q.extrapolate = .ok x := by
      rcases optional_iff.1 v8 with h | ⟨n, h⟩ <;> rw [h] <;> exact ⟨_, rfl⟩
    have h9 : ∃ x, mappingsMql q.indexerMappings = .ok x := by
      rcases optional_iff.1 v9 with h | ⟨n, h⟩
      · exact (hm h).elim
      · rw [h]; exact ⟨_, rfl⟩
    obtain ⟨x4, h4⟩ := h4
    obtain ⟨x6, h6⟩ := h6
    obtain ⟨x7, h7⟩ := h7
    obtain ⟨x8, h8⟩ := h8
    obtain ⟨x9, h9⟩ := h9
    exact ⟨_, print_parts.2 ⟨text, _, _, x4, _, x6, x7, x8, x9, h1, by rw [e2]; rfl, by rw [e3]; rfl, h4, by rw [e5]; rfl,
      h6, h7, h8, h9, rfl⟩⟩

/-! ### C42 -/

omit U S R in
theorem optimizeCondition_result {c n : Val} (h : optimizeCondition c = .ok (some n)) : optimizeCondition n = .ok none := by
  unfold optimizeCondition at h
  split at h
  · split at h
    · split at h
      · cases h
      · simp only [bind_eq_ok] at h
        obtain ⟨m, hm, h⟩ := h
        cases h
        simp only [mkCondition, bind_eq_ok] at hm
        obtain ⟨o, _, hm⟩ := hm
        cases hm
        rfl
    · cases h
  · cases h

omit U S R in
theorem optimizeLoop_again : ∀ {xs new : List Val} {b : Bool}, optimizeLoop xs = .ok (new, b) → optimizeLoop new = .ok (new, false)
  | [], new, b, h => by cases h; rfl
  | c :: cs, new, b, h => by
    simp only [optimizeLoop, bind_eq_ok] at h
    obtain ⟨res, hres, ⟨rest, opt⟩, hrest, h⟩ := h
    have ih := optimizeLoop_again hrest
    cases res with
    | none => cases h; simp [optimizeLoop, hres, ih]
    | some n => cases h; simp [optimizeLoop, optimizeCondition_result hres, ih]

omit U S R in
theorem optimizeFilters_again {f v : Val} (h : optimizeFilters f = .ok (some v)) : optimizeFilters v = .ok none := by
  unfold optimizeFilters at h
  split at h
  · simp only [bind_eq_ok] at h
    obtain ⟨xs, hxs, r, hr, h⟩ := h
    simp only [optimize, bind_eq_ok] at hr
    obtain ⟨⟨new, b⟩, hn, hr⟩ := hr
    cases b
    · cases hr; cases h
    · cases hr; cases h
      simp [optimizeFilters, Val.given, iterItems, Val.seq?, optimize, optimizeLoop_again hn]
  · cases h

omit R in
/-- Optimising a valid query gives a valid query that is not changed by optimising it again. -/
theorem optimizeQuery_again {x v : MVal} (hc : checkQuery x = .ok ()) (h : optimizeQuery x = .ok v) :
    checkQuery v = .ok () ∧ optimizeQuery v = .ok v := by
  unfold optimizeQuery at h
  split at h
  · rename_i t
    simp only [bind_eq_ok] at h
    obtain ⟨r, hr, t', ht', h⟩ := h
    cases h
    cases r with
    | none =>
      cases ht'
      exact ⟨hc, by simp [optimizeQuery, hr, TimeseriesObj.replaceFilters]⟩
    | some f =>
      obtain ⟨m, hm, rfl, hok⟩ := (C32_timeseries_iff _ _ _ _ _ _).1 ht'
      cases hm
      exact ⟨timeseries_validate.2 hok, by simp [optimizeQuery, optimizeFilters_again hr, TimeseriesObj.replaceFilters]⟩
  · simp only [bind_eq_ok] at h
    obtain ⟨r, hr, h⟩ := h
    cases h
    refine ⟨hc, ?_⟩
    cases r with
    | none => simp [optimizeQuery, hr]
    | some f => simp [optimizeQuery, optimizeFilters_again hr]
  · rename_i h1 h2
    cases h
    refine ⟨hc, ?_⟩
    unfold optimizeQuery
    split
    · exact (h1 _ rfl).elim
    · exact (h2 _ _ _ _ _ rfl).elim
    · rfl

end

/-- A call of a method of a metrics query: those that look at it, and those that make a new one. -/
inductive MetricsCall where
  | validate
  | print
  | serialize
  | setQuery (v : MVal)
  | setStart (v : MVal)
  | setEnd (v : MVal)
  | setRollup (v : MVal)
  | setScope (v : MVal)
  | setLimit (v : Val)
  | setOffset (v : Val)
  | setExtrapolate (v : Val)
  | setIndexerMappings (v : MVal)

/-- The call only looks at the query. -/
def MetricsCall.looks : MetricsCall → Bool
  | .validate | .print | .serialize => true
  | _ => false

section
variable [U : PyUnicode] [S : RegexSpace] [R : PyRepr]

/-- The query after a call. Errors of calls that look are caught by the caller; a failing setter ends the sequence. -/
def MetricsCall.after (q : MetricsQueryObj) : MetricsCall → Except Err MetricsQueryObj
  | .validate => .ok q
  | .print => .ok q
  | .serialize => .ok q.serialize.2
  | .setQuery v => q.setQuery v
  | .setStart v => q.setStart v
  | .setEnd v => q.setEnd v
  | .setRollup v => q.setRollup v
  | .setScope v => q.setScope v
  | .setLimit v => q.setLimit v
  | .setOffset v => q.setOffset v
  | .setExtrapolate v => q.setExtrapolate v
  | .setIndexerMappings v => .ok (q.setIndexerMappings v)

/-- The query after a sequence of calls. -/
def afterCalls : MetricsQueryObj → List MetricsCall → Except Err MetricsQueryObj
  | q, [] => .ok q
  | q, c :: cs =>
    match c.after q with
    | .error e => .error e
    | .ok q => afterCalls q cs

omit R in
/-- `q'` is `q`, or `q` with its valid query optimised. -/
def Rewrites (q q' : MetricsQueryObj) : Prop :=
  q' = q ∨ ∃ v, checkQuery q.query = .ok () ∧ optimizeQuery q.query = .ok v ∧ q' = { q with query := v }

omit R in
theorem Rewrites.validate {q q' : MetricsQueryObj} (h : Rewrites q q') : q'.validate = q.validate := by
  rcases h with rfl | ⟨v, hc, ho, rfl⟩
  · rfl
  · unfold MetricsQueryObj.validate
    rw [hc, (optimizeQuery_again hc ho).1]

omit R in
theorem checkQuery_of_validate {q : MetricsQueryObj} {u : Unit} (h : q.validate = .ok u) : checkQuery q.query = .ok () :=
  (metricsQuery_parts.1 h).1

theorem Rewrites.serialize {q q' : MetricsQueryObj} (h : Rewrites q q') :
    q'.serialize.1 = q.serialize.1 ∧ Rewrites q q'.serialize.2 := by
  have hv := h.validate
  unfold MetricsQueryObj.serialize
  rw [hv]
  cases he : q.validate with
  | error e => exact ⟨rfl, h⟩
  | ok u =>
    have hq := checkQuery_of_validate he
    rcases h with rfl | ⟨v, hc, ho, rfl⟩
    · cases ho : optimizeQuery q'.query with
      | error e => exact ⟨by simp, .inl rfl⟩
      | ok v => exact ⟨by simp, .inr ⟨v, hq, ho, rfl⟩⟩
    · simp only [ho, (optimizeQuery_again hc ho).2]
      exact ⟨trivial, .inr ⟨v, hc, ho, rfl⟩⟩

/-- Calls that look keep the relation. -/
theorem Rewrites.look {q q' r : MetricsQueryObj} {c : MetricsCall} (h : Rewrites q q') (hc : c.looks = true) (hr : c.after q' = .ok r) :
    Rewrites q r := by
  cases c with
  | validate => cases hr; exact h
  | print => cases hr; exact h
  | serialize => cases hr; exact h.serialize.2
  | _ => cases hc

omit U S R in
theorem after_look [U : PyUnicode] [S : RegexSpace] [R : PyRepr] {q : MetricsQueryObj} {c : MetricsCall} (hc : c.looks = true) :
    ∃ r, c.after q = .ok r := by
  cases c <;> first | exact ⟨_, rfl⟩ | cases hc

/-- Setters do the same on both sides. -/
theorem Rewrites.set {q q' : MetricsQueryObj} {c : MetricsCall} (h : Rewrites q q') (hc : c.looks = false) :
    (∃ e, c.after q = .error e ∧ c.after q' = .error e) ∨ ∃ r r', c.after q = .ok r ∧ c.after q' = .ok r' ∧ Rewrites r r' := by
  rcases h with rfl | ⟨v, hq, ho, rfl⟩
  · cases hr : c.after q' with
    | error e => exact .inl ⟨e, rfl, rfl⟩
    | ok r => exact .inr ⟨r, r, rfl, rfl, .inl rfl⟩
  · cases c with
    | validate => cases hc
    | print => cases hc
    | serialize => cases hc
    | setQuery x =>
      simp only [MetricsCall.after, MetricsQueryObj.setQuery]
      split
      · exact .inr ⟨_, _, rfl, rfl, .inl rfl⟩
      · exact .inr ⟨_, _, rfl, rfl, .inl rfl⟩
      · exact .inr ⟨_, _, rfl, rfl, .inl rfl⟩
      · exact .inl ⟨_, rfl, rfl⟩
    | setStart x =>
      simp only [MetricsCall.after, MetricsQueryObj.setStart]
      split
      · exact .inr ⟨_, _, rfl, rfl, .inr ⟨v, hq, ho, rfl⟩⟩
      · exact .inl ⟨_, rfl, rfl⟩
    | setEnd x =>
      simp only [MetricsCall.after, MetricsQueryObj.setEnd]
      split
      · exact .inr ⟨_, _, rfl, rfl, .inr ⟨v, hq, ho, rfl⟩⟩
      · exact .inl ⟨_, rfl, rfl⟩
    | setRollup x =>
      simp only [MetricsCall.after, MetricsQueryObj.setRollup]
      split
      · exact .inr ⟨_, _, rfl, rfl, .inr ⟨v, hq, ho, rfl⟩⟩
      · exact .inl ⟨_, rfl, rfl⟩
    | setScope x =>
      simp only [MetricsCall.after, MetricsQueryObj.setScope]
      split
      · exact .inr ⟨_, _, rfl, rfl, .inr ⟨v, hq, ho, rfl⟩⟩
      · exact .inl ⟨_, rfl, rfl⟩
    | setLimit x =>
      simp only [MetricsCall.after, MetricsQueryObj.setLimit]
      cases mkLimit x with
      | error e => exact .inl ⟨_, rfl, rfl⟩
      | ok l => exact .inr ⟨_, _, rfl, rfl, .inr ⟨v, hq, ho, rfl⟩⟩
    | setOffset x =>
      simp only [MetricsCall.after, MetricsQueryObj.setOffset]
      cases mkOffset x with
      | error e => exact .inl ⟨_, rfl, rfl⟩
      | ok l => exact .inr ⟨_, _, rfl, rfl, .inr ⟨v, hq, ho, rfl⟩⟩
    | setExtrapolate x =>
      simp only [MetricsCall.after, MetricsQueryObj.setExtrapolate]
      cases mkExtrapolate x with
      | error e => exact .inl ⟨_, rfl, rfl⟩
      | ok l => exact .inr ⟨_, _, rfl, rfl, .inr ⟨v, hq, ho, rfl⟩⟩
    | setIndexerMappings x => exact .inr ⟨_, _, rfl, rfl, .inr ⟨v, hq, ho, rfl⟩⟩

theorem afterCalls_erase : ∀ (cs : List MetricsCall) {q q' : MetricsQueryObj}, Rewrites q q' →
    (∃ e, afterCalls q' cs = .error e ∧ afterCalls q (cs.filter fun c => !c.looks) = .error e) ∨
    ∃ r r', afterCalls q' cs = .ok r' ∧ afterCalls q (cs.filter fun c => !c.looks) = .ok r ∧ Rewrites r r'
  | [], q, q', h => .inr ⟨q, q', rfl, rfl, h⟩
  | c :: cs, q, q', h => by
    cases hc : c.looks with
    | true =>
      obtain ⟨r, hr⟩ := after_look (q := q') hc
      simp only [afterCalls, hr, List.filter_cons, hc, Bool.not_true]
      exact afterCalls_erase cs (h.look hc hr)
    | false =>
      simp only [List.filter_cons, hc, Bool.not_false, if_true, afterCalls]
      rcases h.set hc with ⟨e, h1, h2⟩ | ⟨r, r', h1, h2, h'⟩
      · rw [h1, h2]; exact .inl ⟨e, rfl, rfl⟩
      · rw [h1, h2]; exact afterCalls_erase cs h'

/-- **C42.** After any sequence of calls that validate, print and serialise the query and set its fields, the result of
serialising (and of validating) is the same as if only the fields had been set: looking at a query, which may rewrite its
filters, has no influence on what is sent later. -/
theorem C42_looking_is_harmless (q : MetricsQueryObj) (cs : List MetricsCall) :
    (∃ e, afterCalls q cs = .error e ∧ afterCalls q (cs.filter fun c => !c.looks) = .error e) ∨
    ∃ r r', afterCalls q cs = .ok r' ∧ afterCalls q (cs.filter fun c => !c.looks) = .ok r ∧
      r'.serialize.1 = r.serialize.1 ∧ r'.validate = r.validate := by
  rcases afterCalls_erase cs (.inl rfl : Rewrites q q) with h | ⟨r, r', h1, h2, h⟩
  · exact .inl h
  · exact .inr ⟨r, r', h1, h2, h.serialize.1, h.validate⟩

/-- **C42** (repetition): serialising any number of times, with validations and prints in between, gives the result of the
first time. -/
theorem C42_same_every_time (q r : MetricsQueryObj) (cs : List MetricsCall) (hl : ∀ c ∈ cs, c.looks = true)
    (h : afterCalls q cs = .ok r) : r.serialize.1 = q.serialize.1 := by
  have hf : cs.filter (fun c => !c.looks) = [] := by
    rw [List.filter_eq_nil_iff]
    intro c hc; simp [hl c hc]
  rcases C42_looking_is_harmless q cs with ⟨e, h1, _⟩ | ⟨r1, r2, h1, h2, h3, _⟩
  · rw [h] at h1; cases h1
  · rw [h] at h1; cases h1
    rw [hf] at h2; cases h2
    exact h3

/-- **C42** (what changes): serialising leaves every field but the query as it is, and the query only loses mergeable ORs. -/
theorem C42_only_the_query_changes (q : MetricsQueryObj) :
    ∃ v, q.serialize.2 = { q with query := v } ∧ (v = q.query ∨ optimizeQuery q.query = .ok v) := by
  unfold MetricsQueryObj.serialize
  split
  · exact ⟨q.query, rfl, .inl rfl⟩
  · split
    · exact ⟨q.query, rfl, .inl rfl⟩
    · rename_i v hv; exact ⟨v, rfl, .inr hv⟩

/-! ### C51, C52 -/

omit R in
/-- **C52.** Whatever text the parser accepts, the result is a timeseries or a formula. Its parts are timeseries of a metric with one
name, two operands joined by an operator, negations of queries, functions called with at least one parameter, numbers and strings.
The names of metrics, functions and columns are as the grammar spells them. Filters compare columns with strings, with patterns
`prefix*` and with lists of strings, groupings are columns, lists of both are never empty, and the parameters of aggregates are
strings and floats without a sign. They are well-formed: each timeseries passes its validation, and filters and columns are made
with the constructors of the SDK. -/
theorem C52_parsed_well_formed (mql : Str) (x : MVal) (h : parseMql mql = .ok x) :
    ((∃ t, x = .ts t) ∨ ∃ n ps a f g, x = .formula n (.list ps) a f g) ∧
    (∀ y, InFormula x y → ParsedPart y ∧ WellFormed y) ∧ ∀ t, InFormula x (.ts t) → t.validate = .ok () := by
  obtain ⟨hs, hq⟩ := parseMql_sound h
  refine ⟨?_, fun y hy => ⟨hs y hy, (hs y hy).wellFormed⟩, fun t ht => ?_⟩
  · cases hs.part with
    | ts => exact .inl ⟨_, rfl⟩
    | arithmetic | negation | call => exact .inr ⟨_, _, _, _, _, rfl⟩
    | _ => cases hq
  · cases (hs _ ht).wellFormed with
    | ts _ h => exact timeseries_validate.2 h
    | other _ _ h => exact (h _ rfl).elim

omit R in
/-- **C52** (formulas): the formula in a parsed query is consistent exactly when its validation passes; no typing has to be
assumed. -/
theorem C52_parsed_validate_iff (mql : Str) (x : MVal) (h : parseMql mql = .ok x) : x.validateQuery = .ok () ↔ ObjectOk x :=
  object_validate (parsed_typed h)

omit R in
theorem parsed_isQuery {s : Str} {x : MVal} (h : parseMql s = .ok x) : x.isQuery = true := (parseMql_sound h).2

omit R in
theorem checkQuery_parsed {s : Str} {x : MVal} (h : parseMql s = .ok x) : checkQuery x = checkQuery (.val (.str s)) := by
  have hq := parsed_isQuery h
  have : checkQuery (.val (.str s)) = x.validateQuery := by
    simp only [checkQuery, parseChecked, h, ok_bind]
  rw [this]
  cases x <;> first | rfl | cases hq

theorem queryMql_parsed {s : Str} {x : MVal} (h : parseMql s = .ok x) : queryMql x = queryMql (.val (.str s)) := by
  have hq := parsed_isQuery h
  have : queryMql (.val (.str s)) = paramMql x := by
    simp only [queryMql, h, ok_bind]
  rw [this]
  cases x with
  | ts t => simp only [queryMql, paramMql]
  | formula => simp only [queryMql]
  | _ => cases hq

/-- The list of filters of a query, and the query with another one. -/
inductive Spec.WithFilters : MVal → Val → MVal → Val → Prop
  | ts (t f) : WithFilters (.ts t) t.filters (.ts { t with filters := f }) f
  | formula (n p a g f f') : WithFilters (.formula n p a f g) f (.formula n p a f' g) f'

/-- **C51** (validation and printing): a query given as a string the parser accepts validates and prints exactly like one given
as the parsed object; a string it rejects is an invalid metrics query. -/
theorem C51_validate_and_print (q : MetricsQueryObj) (s : Str) :
    (∀ x, parseMql s = .ok x →
      ({ q with query := .val (.str s) } : MetricsQueryObj).validate = ({ q with query := x } : MetricsQueryObj).validate ∧
      ({ q with query := .val (.str s) } : MetricsQueryObj).printed = ({ q with query := x } : MetricsQueryObj).printed) ∧
    ((∀ x, parseMql s ≠ .ok x) →
      ({ q with query := .val (.str s) } : MetricsQueryObj).validate = .error .invalidMetricsQuery) := by
  constructor
  · intro x h
    have hv : ({ q with query := .val (.str s) } : MetricsQueryObj).validate = ({ q with query := x } : MetricsQueryObj).validate := by
      simp only [MetricsQueryObj.validate, checkQuery_parsed h]
    refine ⟨hv, ?_⟩
    simp only [MetricsQueryObj.printed, hv, MetricsQueryObj.print, queryMql_parsed h]
  · intro h
    cases hp : parseMql s with
    | ok x => exact absurd hp (h x)
    | error e => simp only [MetricsQueryObj.validate, checkQuery, parseChecked, hp, error_bind]

/-- **C51** (strings): a query given as a string serialises to what the parsed object prints, and stays a string. -/
theorem C51_serialize_text (q : MetricsQueryObj) (s : Str) (x : MVal) (h : parseMql s = .ok x) :
    ({ q with query := .val (.str s) } : MetricsQueryObj).serialize =
      (({ q with query := x } : MetricsQueryObj).printed, { q with query := .val (.str s) }) := by
  rw [← ((C51_validate_and_print q s).1 x h).2]
  unfold MetricsQueryObj.serialize MetricsQueryObj.printed
  cases hv : ({ q with query := .val (.str s) } : MetricsQueryObj).validate with
  | error e => rfl
  | ok u => simp only [optimizeQuery, ok_bind]

omit R in
/-- The optimisation of a parsed query: only the top filters may change, each of them to what the optimiser makes of it. -/
theorem optimizeQuery_parsed {s : Str} {x : MVal} (h : parseMql s = .ok x) :
    ∃ f, OptList MadeCond f ∧ (f = .none → optimizeQuery x = .ok x) ∧ ∀ xs, f = .list xs →
      ∃ ys x', optimizeQuery x = .ok x' ∧ Paired Rewritten xs ys ∧ WithFilters x f x' (.list ys) ∧
        ((¬ ∃ c ∈ xs, ∃ l rs, Mergeable c l rs) → x' = x) := by
  obtain ⟨hs, hq⟩ := parseMql_sound h
  have refl : ∀ {xs : List Val}, (¬ ∃ c ∈ xs, ∃ l rs, Mergeable c l rs) → Paired Rewritten xs xs := by
    intro xs hn
    induction xs with
    | nil => exact .nil
    | cons c cs ih =>
      refine .cons _ _ _ _ (.inr ⟨fun ⟨l, rs, hm⟩ => hn ⟨c, by simp, l, rs, hm⟩, rfl⟩) (ih ?_)
      rintro ⟨d, hd, hm⟩; exact hn ⟨d, by simp [hd], hm⟩
  cases x with
  | ts t =>
    have ht := hs.ts
    refine ⟨t.filters, ht.2.1, ?_, ?_⟩
    · intro hf
      simp [optimizeQuery, hf, optimizeFilters, Val.given, TimeseriesObj.replaceFilters]
    · intro xs hf
      have hm := ht.2.1
      rw [hf] at hm
      have hb : ∀ c ∈ xs, Built c := by cases hm with | list _ h => exact fun c hc => (h c hc).built
      obtain ⟨r, hr, hnone⟩ := C30_total_and_none_iff xs hb
      have ho : optimizeFilters t.filters = .ok (r.map .list) := by
        simp [hf, optimizeFilters, Val.given, iterItems, Val.seq?, hr]
      cases r with
      | none =>
        refine ⟨xs, .ts t, by simp [optimizeQuery, ho, TimeseriesObj.replaceFilters], refl (hnone.1 rfl), ?_, fun _ => rfl⟩
        have e : ({ t with filters := .list xs } : TimeseriesObj) = t := by rw [← hf]
        have w := WithFilters.ts t (.list xs)
        rwa [e] at w
      | some ys =>
        obtain ⟨hp, hmem⟩ := optimize_some hb hr
        have hcond : OptList Cond (.list ys) := by
          refine .list _ fun c hc => ?_
          rcases hmem c hc with hc | ⟨l, rs, rfl, _⟩
          · cases hm with | list _ h => exact (h c hc).cond
          · constructor
        have hmk : mkTimeseries (.metric t.metric) t.aggregate t.aggregateParams (.list ys) t.groupby =
            .ok { t with filters := .list ys } :=
          (C32_timeseries_iff _ _ _ _ _ _).2 ⟨_, rfl, rfl, ht.1.metric, ht.1.aggregate, ht.1.aggregateParams, hcond, ht.1.groupby⟩
        refine ⟨ys, .ts { t with filters := .list ys }, by simp [optimizeQuery, ho, TimeseriesObj.replaceFilters, hmk], hp, ?_, ?_⟩
        · exact WithFilters.ts t _
        · intro hn; exact absurd (hnone.2 hn) (by simp)
  | formula n p a f g =>
    have ht : OptList MadeCond f := by
      obtain ⟨_, _, _, hf, _⟩ := hs.formula
      exact hf.opt.imp fun _ h => h.made
    refine ⟨f, ht, ?_, ?_⟩
    · intro hf
      simp [optimizeQuery, hf, optimizeFilters, Val.given]
    · intro xs hf
      have hm := ht
      rw [hf] at hm
      have hb : ∀ c ∈ xs, Built c := by cases hm with | list _ h => exact fun c hc => (h c hc).built
      obtain ⟨r, hr, hnone⟩ := C30_total_and_none_iff xs hb
      have ho : optimizeFilters f = .ok (r.map .list) := by
        simp [hf, optimizeFilters, Val.given, iterItems, Val.seq?, hr]
      cases r with
      | none =>
        subst hf
        exact ⟨xs, _, by simp [optimizeQuery, ho], refl (hnone.1 rfl), .formula _ _ _ _ _ _, fun _ => rfl⟩
      | some ys =>
        obtain ⟨hp, hmem⟩ := optimize_some hb hr
        refine ⟨ys, .formula n p a (.list ys) g, by simp [optimizeQuery, ho], hp, .formula _ _ _ _ _ _, ?_⟩
        intro hn; exact absurd (hnone.2 hn) (by simp)
  | _ => cases hq

/-- **C51** (objects): the parsed object serialises to what it prints after its top filters have been optimised, and nothing
else about it changes. If no top filter is a mergeable OR, the results of the string and of the object are the same. -/
theorem C51_serialize_object (q : MetricsQueryObj) (s : Str) (x : MVal) (h : parseMql s = .ok x) :
    ∃ f x', OptList MadeCond f ∧ optimizeQuery x = .ok x' ∧
      (f = .none → x' = x) ∧ (∀ xs, f = .list xs → ∃ ys, Paired Rewritten xs ys ∧ WithFilters x f x' (.list ys) ∧
        ((¬ ∃ c ∈ xs, ∃ l rs, Mergeable c l rs) → x' = x)) ∧
      ({ q with query := x } : MetricsQueryObj).serialize.1 = ({ q with query := x' } : MetricsQueryObj).printed ∧
      (x' = x → ({ q with query := x } : MetricsQueryObj).serialize.1 =
        ({ q with query := .val (.str s) } : MetricsQueryObj).serialize.1) := by
  obtain ⟨f, hf, hn, hl⟩ := optimizeQuery_parsed h
  have ho : ∃ x', optimizeQuery x = .ok x' ∧ (f = .none → x' = x) ∧
      (∀ xs, f = .list xs → ∃ ys, Paired Rewritten xs ys ∧ WithFilters x f x' (.list ys) ∧
        ((¬ ∃ c ∈ xs, ∃ l rs, Mergeable c l rs) → x' = x)) := by
    cases hf with
    | none => exact ⟨x, hn rfl, fun _ => rfl, by simp⟩
    | list xs _ =>
      obtain ⟨ys, x', h1, h2, h3, h4⟩ := hl xs rfl
      exact ⟨x', h1, by simp, fun zs hz => by cases hz; exact ⟨ys, h2, h3, h4⟩⟩
  obtain ⟨x', h1, h2, h3⟩ := ho
  have hser : ({ q with query := x } : MetricsQueryObj).serialize.1 = ({ q with query := x' } : MetricsQueryObj).printed := by
    unfold MetricsQueryObj.serialize MetricsQueryObj.printed
    cases hv : ({ q with query := x } : MetricsQueryObj).validate with
    | error e =>
      have hv' : ({ q with query := x' } : MetricsQueryObj).validate = .error e := by
        cases hc : checkQuery x with
        | ok u =>
          rw [← hv]
          simp only [MetricsQueryObj.validate, hc, (optimizeQuery_again hc h1).1]
        | error e' =>
          have he : e' = e := by
            simp only [MetricsQueryObj.validate, hc, error_bind] at hv
            cases hv; rfl
          have hc' : checkQuery x' = .error e' := by
            cases x with
            | ts t =>
              have hok : TimeseriesOk t := (parseMql_sound h).1.ts.1
              simp only [checkQuery, MVal.validateQuery, timeseries_validate.2 hok] at hc
              cases hc
            | formula n p a f g =>
              simp only [optimizeQuery, bind_eq_ok] at h1
              obtain ⟨_, _, h1⟩ := h1
              cases h1
              exact hc
            | _ => exact absurd (parsed_isQuery h) (by simp [MVal.isQuery])
          simp only [MetricsQueryObj.validate, hc', error_bind, he]
      simp [hv']
    | ok u =>
      have hc := checkQuery_of_validate hv
      have hr : Rewrites ({ q with query := x } : MetricsQueryObj) { q with query := x' } := .inr ⟨x', hc, h1, rfl⟩
      simp only [h1, hr.validate, hv, ok_bind]
  refine ⟨f, x', hf, h1, h2, h3, hser, ?_⟩
  rintro rfl
  rw [hser, C51_serialize_text q s _ h]

omit U S R in
/-- **C51** (meaning): the filters of the object that is sent have the same meaning as those of the string. -/
theorem C51_same_meaning {D : Type} (I : Interp D) (xs ys : List Val) (h : Paired Rewritten xs ys) (ha : EqualSidesAgree I xs) :
    I.evalAll ys = I.evalAll xs := paired_evalAll I h ha

end

/-! ### C53 -/

/-- **C53** (setters that take an object): each accepts objects of its class only and changes its own field only. -/
theorem C53_object_setters (q r : MetricsQueryObj) (v : MVal) :
    (q.setQuery v = .ok r ↔ ((∃ t, v = .ts t) ∨ (∃ n p a f g, v = .formula n p a f g) ∨ ∃ s, v = .val (.str s)) ∧
      r = { q with query := v }) ∧
    (q.setStart v = .ok r ↔ (∃ t, v = .val (.datetime t)) ∧ r = { q with start := v }) ∧
    (q.setEnd v = .ok r ↔ (∃ t, v = .val (.datetime t)) ∧ r = { q with end_ := v }) ∧
    (q.setRollup v = .ok r ↔ (∃ x, v = .rollup x) ∧ r = { q with rollup := v }) ∧
    (q.setScope v = .ok r ↔ (∃ x, v = .scope x) ∧ r = { q with scope := v }) ∧
    q.setIndexerMappings v = { q with indexerMappings := v } := by
  refine ⟨?_, ?_, ?_, ?_, ?_, rfl⟩
  · unfold MetricsQueryObj.setQuery
    split
    · exact ⟨fun h => by cases h; exact ⟨.inr (.inl ⟨_, _, _, _, _, rfl⟩), rfl⟩, fun ⟨_, h⟩ => by rw [h]⟩
    · exact ⟨fun h => by cases h; exact ⟨.inl ⟨_, rfl⟩, rfl⟩, fun ⟨_, h⟩ => by rw [h]⟩
    · exact ⟨fun h => by cases h; exact ⟨.inr (.inr ⟨_, rfl⟩), rfl⟩, fun ⟨_, h⟩ => by rw [h]⟩
    · rename_i h1 h2 h3
      refine ⟨by simp, ?_⟩
      rintro ⟨⟨t, h⟩ | ⟨n, p, a, f, g, h⟩ | ⟨s, h⟩, _⟩
      · exact (h2 _ h).elim
      · exact (h1 _ _ _ _ _ h).elim
      · exact (h3 _ h).elim
  · unfold MetricsQueryObj.setStart
    split
    · exact ⟨fun h => by cases h; exact ⟨⟨_, rfl⟩, rfl⟩, fun ⟨_, h⟩ => by rw [h]⟩
    · rename_i h1; exact ⟨(by simp), fun ⟨⟨t, h⟩, _⟩ => (h1 _ h).elim⟩
  · unfold MetricsQueryObj.setEnd
    split
    · exact ⟨fun h => by cases h; exact ⟨⟨_, rfl⟩, rfl⟩, fun ⟨_, h⟩ => by rw [h]⟩
    · rename_i h1; exact ⟨(by simp), fun ⟨⟨t, h⟩, _⟩ => (h1 _ h).elim⟩
  · unfold MetricsQueryObj.setRollup
    split
    · exact ⟨fun h => by cases h; exact ⟨⟨_, rfl⟩, rfl⟩, fun ⟨_, h⟩ => by rw [h]⟩
    · rename_i h1; exact ⟨(by simp), fun ⟨⟨t, h⟩, _⟩ => (h1 _ h).elim⟩
  · unfold MetricsQueryObj.setScope
    split
    · exact ⟨fun h => by cases h; exact ⟨⟨_, rfl⟩, rfl⟩, fun ⟨_, h⟩ => by rw [h]⟩
    · rename_i h1; exact ⟨(by simp), fun ⟨⟨t, h⟩, _⟩ => (h1 _ h).elim⟩

/-- **C53** (setters that take a number or bool): the value is wrapped and checked, and only the own field changes. -/
theorem C53_number_setters (q r : MetricsQueryObj) (v : Val) :
    (q.setLimit v = .ok r ↔ ∃ n, IntLike v n ∧ 1 ≤ n.toInt ∧ n.toInt ≤ 10000 ∧ r = { q with limit := .val (.limit n) }) ∧
    (q.setOffset v = .ok r ↔ ∃ n, IntLike v n ∧ 0 ≤ n.toInt ∧ r = { q with offset := .val (.offset n) }) ∧
    (q.setExtrapolate v = .ok r ↔ ∃ b, v = .bool b ∧ r = { q with extrapolate := .val (.extrapolate b) }) := by
  refine ⟨?_, ?_, ?_⟩
  · simp only [MetricsQueryObj.setLimit, bind_eq_ok, C07_limit_accepts_iff, Except.ok.injEq]
    constructor
    · rintro ⟨_, ⟨n, h1, h2, h3, rfl⟩, rfl⟩; exact ⟨n, h1, h2, h3, rfl⟩
    · rintro ⟨n, h1, h2, h3, rfl⟩; exact ⟨_, ⟨n, h1, h2, h3, rfl⟩, rfl⟩
  · simp only [MetricsQueryObj.setOffset, bind_eq_ok, C07_offset_accepts_iff, Except.ok.injEq]
    constructor
    · rintro ⟨_, ⟨n, h1, h2, rfl⟩, rfl⟩; exact ⟨n, h1, h2, rfl⟩
    · rintro ⟨n, h1, h2, rfl⟩; exact ⟨_, ⟨n, h1, h2, rfl⟩, rfl⟩
  · simp only [MetricsQueryObj.setExtrapolate, bind_eq_ok, (C07_totals_extrapolate_accept_iff _ _).2, Except.ok.injEq]
    constructor
    · rintro ⟨_, ⟨n, h1, rfl⟩, rfl⟩; exact ⟨n, h1, rfl⟩
    · rintro ⟨n, h1, rfl⟩; exact ⟨_, ⟨n, h1, rfl⟩, rfl⟩

/-! ### Concrete cases -/

section Examples
local instance exMetricsUnicode : PyUnicode := asciiUnicode
local instance exMetricsSpace : RegexSpace := pySpace
local instance exMetricsRepr : PyRepr := ⟨fun _ => []⟩

/-- 2024-02-29 12:30:05.000007, in a zone five and a half hours behind UTC. -/
def exMetricsStart : Datetime := ⟨⟨2024, 2, 29, rfl⟩, 12, 30, 5, 7, some (some (-19800000000)), rfl⟩

/-- 2024-03-01 00:00:00 without a zone. -/
def exMetricsEnd : Datetime := ⟨⟨2024, 3, 1, rfl⟩, 0, 0, 0, 0, none, rfl⟩

/-- A complete metrics query with the given query. -/
def exMetricsQuery (x : MVal) : MetricsQueryObj :=
  { query := x
    start := .val (.datetime exMetricsStart)
    end_ := .val (.datetime exMetricsEnd)
    rollup := .rollup ⟨.int 3600, .bool true, .none, .int 60⟩
    scope := .scope ⟨.list [.int 1], .list [.int 2, .int 3], .str c!"transactions"⟩
    limit := .val (.limit (.int 100))
    indexerMappings := .data (.dict [(c!"m", .val (.int 7))]) }

/-- An OR of two conditions on one tag. -/
def exOrText : Str := c!"sum(m){a:1 OR a:2}"

/-- The parsed object. -/
def exOrObject : MVal :=
  .ts ⟨⟨.str c!"m", .none, .none⟩, .str c!"sum", .none,
    .list [.boolCond .or .or .list [.cond (keyColumn c!"a") .eq (.str c!"1"), .cond (keyColumn c!"a") .eq (.str c!"2")]], .none⟩

theorem exOr_parsed : parseMql exOrText = .ok exOrObject := rfl

/-- C35: as text, as object, and with parts missing or wrong. -/
example : (exMetricsQuery (.val (.str exOrText))).validate = .ok () := rfl
example : (exMetricsQuery exOrObject).validate = .ok () := rfl
example : MetricsQueryOk (exMetricsQuery (.val (.str exOrText))) := (C35_validate_iff _ (by intro n p a f g h; cases h)).1 rfl
example : (exMetricsQuery (.val .none)).validate = .error .invalidMetricsQuery := rfl
example : (exMetricsQuery (.val (.str c!"sum("))).validate = .error .invalidMetricsQuery := rfl
example : { exMetricsQuery exOrObject with rollup := .rollup ⟨.int 3600, .none, .none, .none⟩ : MetricsQueryObj }.validate =
    .error .invalidMetricsQuery := rfl
example : { exMetricsQuery exOrObject with limit := .val (.int 100) : MetricsQueryObj }.validate = .error .invalidMetricsQuery := rfl

/-- The context of the query. -/
def exMetricsContext : Data :=
  .dict [(c!"start", .val (.str c!"2024-02-29T12:30:05.000007-05:30")), (c!"end", .val (.str c!"2024-03-01T00:00:00")),
    (c!"rollup", .dict [(c!"orderby", .val .none), (c!"granularity", .val (.int 60)), (c!"interval", .val (.int 3600)),
      (c!"with_totals", .val (.str c!"True"))]),
    (c!"scope", .dict [(c!"org_ids", .val (.list [.int 1])), (c!"project_ids", .val (.list [.int 2, .int 3])),
      (c!"use_case_id", .val (.str c!"transactions"))]),
    (c!"indexer_mappings", .dict [(c!"m", .val (.int 7))]), (c!"limit", .val (.int 100)), (c!"offset", .val .none),
    (c!"extrapolate", .val .none)]

/-- C36: what is printed. -/
example : (exMetricsQuery exOrObject).print =
    .ok (.dict [(c!"mql", .val (.str c!"sum(m){(a:\"1\" OR a:\"2\")}")), (c!"mql_context", exMetricsContext)]) := rfl

/-- **C36**: a query without mappings passes validation and cannot be printed. -/
theorem C36_valid_but_not_printable :
    ({ exMetricsQuery exOrObject with indexerMappings := .val .none } : MetricsQueryObj).validate = .ok () ∧
    ({ exMetricsQuery exOrObject with indexerMappings := .val .none } : MetricsQueryObj).print = .error .invalidMetricsQuery := ⟨rfl, rfl⟩

/-- **C42**: the text that `print` returns does change once the query has been serialised. -/
theorem C42_print_differs_after_serialize :
    (exMetricsQuery exOrObject).printed =
      .ok (.dict [(c!"mql", .val (.str c!"sum(m){(a:\"1\" OR a:\"2\")}")), (c!"mql_context", exMetricsContext)]) ∧
    (exMetricsQuery exOrObject).serialize.2.printed =
      .ok (.dict [(c!"mql", .val (.str c!"sum(m){a:[\"1\", \"2\"]}")), (c!"mql_context", exMetricsContext)]) := ⟨rfl, rfl⟩

/-- C42: three times the same. -/
example : (exMetricsQuery exOrObject).serialize.2.serialize.2.serialize.1 = (exMetricsQuery exOrObject).serialize.1 :=
  C42_same_every_time _ _ [.serialize, .validate, .print, .serialize] (by simp [MetricsCall.looks]) rfl

/-- **C51**: for an OR of conditions on one tag, the string and the object are sent differently. -/
theorem C51_text_and_object_differ :
    (exMetricsQuery (.val (.str exOrText))).serialize.1 =
      .ok (.dict [(c!"mql", .val (.str c!"sum(m){(a:\"1\" OR a:\"2\")}")), (c!"mql_context", exMetricsContext)]) ∧
    (exMetricsQuery exOrObject).serialize.1 =
      .ok (.dict [(c!"mql", .val (.str c!"sum(m){a:[\"1\", \"2\"]}")), (c!"mql_context", exMetricsContext)]) := ⟨rfl, rfl⟩

/-- C51, C52: the theorems apply to the text. -/
example := C51_serialize_object (exMetricsQuery (.val .none)) exOrText exOrObject exOr_parsed
example := C52_parsed_well_formed exOrText exOrObject exOr_parsed

/-- C53. -/
example : (exMetricsQuery exOrObject).setLimit (.int 0) = .error .invalidExpression := rfl
example : (exMetricsQuery exOrObject).setLimit (.int 10) = .ok { exMetricsQuery exOrObject with limit := .val (.limit (.int 10)) } := rfl
example : (exMetricsQuery exOrObject).setStart (.val (.str c!"now")) = .error .invalidQuery := rfl

end Examples

end Verif
