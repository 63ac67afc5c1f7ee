import Verif.Spec.Request
import Verif.Props.MetricsQuery

/-!
# C43, C44, C45: flags, payloads, deletions
-/

namespace Verif
open Spec

/-! ### C43: flags -/

theorem checkFlag_iff {v : Val} : checkFlag v = .ok () ↔ v = .none ∨ ∃ b, v = .bool b := by
  unfold checkFlag
  split <;> simp_all

theorem checkFlag_error {v : Val} {e : Err} (h : checkFlag v = .error e) : e = .invalidFlag := by
  unfold checkFlag at h
  split at h <;> cases h
  rfl

theorem checkFlags_iff {fs : List (Str × Val)} : checkFlags fs = .ok () ↔ ∀ p ∈ fs, p.2 = .none ∨ ∃ b, p.2 = .bool b := by
  induction fs with
  | nil => simp [checkFlags]
  | cons p fs ih =>
    obtain ⟨k, v⟩ := p
    simp only [checkFlags, bind_eq_ok, List.mem_cons, forall_eq_or_imp]
    rw [← ih, ← checkFlag_iff]
    exact ⟨fun ⟨_, h1, h2⟩ => ⟨h1, h2⟩, fun ⟨h1, h2⟩ => ⟨(), h1, h2⟩⟩

theorem checkFlags_error {fs : List (Str × Val)} {e : Err} (h : checkFlags fs = .error e) : e = .invalidFlag := by
  induction fs with
  | nil => cases h
  | cons p fs ih =>
    obtain ⟨k, v⟩ := p
    simp only [checkFlags, bind_eq_error] at h
    rcases h with h | ⟨_, _, h⟩
    · exact checkFlag_error h
    · exact ih h

theorem flagOf_iff {f : FlagsObj} {k : Str} {v : Val} : FlagOf f k v ↔ (k, v) ∈ f.fields := by
  simp only [FlagsObj.fields, List.mem_cons, Prod.mk.injEq, List.not_mem_nil, or_false]
  constructor
  · rintro (_ | _) <;> simp
  · rintro (⟨rfl, rfl⟩ | ⟨rfl, rfl⟩ | ⟨rfl, rfl⟩ | ⟨rfl, rfl⟩ | ⟨rfl, rfl⟩ | ⟨rfl, rfl⟩)
    · exact .totals
    · exact .consistent
    · exact .turbo
    · exact .debug
    · exact .dryRun
    · exact .legacy

/-- **C43** (validation): flags are accepted exactly when each is absent or a bool. -/
theorem C43_validate_iff (f : FlagsObj) : f.validate = .ok () ↔ FlagsOk f := by
  unfold FlagsObj.validate FlagsOk
  rw [checkFlags_iff]
  exact ⟨fun h k v hk => h (k, v) (flagOf_iff.1 hk), fun h p hp => h p.1 p.2 (flagOf_iff.2 hp)⟩

/-- **C43** (errors): other flags are refused with `InvalidFlagError`. -/
theorem C43_error (f : FlagsObj) (h : ¬ FlagsOk f) : f.validate = .error .invalidFlag := by
  cases hv : f.validate with
  | ok u => exact absurd ((C43_validate_iff f).1 hv) h
  | error e => rw [checkFlags_error hv]

theorem setFlags_mem {fs : List (Str × Val)} {k : Str} {d : Data} : (k, d) ∈ setFlags fs ↔ ∃ v, (k, v) ∈ fs ∧ v ≠ .none ∧ d = .val v := by
  induction fs with
  | nil => simp [setFlags]
  | cons p fs ih =>
    obtain ⟨k', v'⟩ := p
    unfold setFlags
    have hg : v'.given = true ↔ v' ≠ .none := by cases v' <;> simp [Val.given]
    split
    · rename_i h
      rw [hg] at h
      simp only [List.mem_cons, ih, Prod.mk.injEq]
      constructor
      · rintro (⟨rfl, rfl⟩ | ⟨v, h1, h2, h3⟩)
        · exact ⟨v', .inl ⟨rfl, rfl⟩, h, rfl⟩
        · exact ⟨v, .inr h1, h2, h3⟩
      · rintro ⟨v, ⟨rfl, rfl⟩ | h1, h2, h3⟩
        · exact .inl ⟨rfl, h3⟩
        · exact .inr ⟨v, h1, h2, h3⟩
    · rename_i h
      rw [hg] at h
      simp only [List.mem_cons, ih, Prod.mk.injEq]
      constructor
      · rintro ⟨v, h1, h2, h3⟩; exact ⟨v, .inr h1, h2, h3⟩
      · rintro ⟨v, ⟨rfl, rfl⟩ | h1, h2, h3⟩
        · exact absurd h2 h
        · exact ⟨v, h1, h2, h3⟩

theorem setFlags_sublist (fs : List (Str × Val)) : ((setFlags fs).map (·.1)).Sublist (fs.map (·.1)) := by
  induction fs with
  | nil => exact .slnil
  | cons p fs ih =>
    obtain ⟨k, v⟩ := p
    unfold setFlags
    split
    · exact ih.cons_cons _
    · exact ih.cons _

theorem flagNames_nodup (f : FlagsObj) : (f.fields.map (·.1)).Nodup := by
  have : f.fields.map (·.1) = [c!"totals", c!"consistent", c!"turbo", c!"debug", c!"dry_run", c!"legacy"] := rfl
  rw [this]
  decide

/-- **C43** (dictionary): `to_dict` succeeds exactly for valid flags; the result has the flags that are set, with their values,
in the order of their declaration, and nothing else. -/
theorem C43_to_dict (f : FlagsObj) (kvs : List (Str × Data)) :
    (f.toDict = .ok kvs → FlagsOk f ∧ (∀ k d, (k, d) ∈ kvs ↔ ∃ b, FlagSet f k b ∧ d = .val (.bool b)) ∧
      (kvs.map (·.1)).Sublist [c!"totals", c!"consistent", c!"turbo", c!"debug", c!"dry_run", c!"legacy"]) ∧
    (FlagsOk f → ∃ kvs, f.toDict = .ok kvs) := by
  unfold FlagsObj.toDict
  simp only [bind_eq_ok, Except.ok.injEq]
  constructor
  · rintro ⟨u, h, rfl⟩
    have hok := (C43_validate_iff f).1 h
    refine ⟨hok, fun k d => ?_, setFlags_sublist f.fields⟩
    rw [setFlags_mem]
    constructor
    · rintro ⟨v, h1, h2, rfl⟩
      rcases hok k v (flagOf_iff.2 h1) with h3 | ⟨b, rfl⟩
      · exact absurd h3 h2
      · exact ⟨b, flagOf_iff.2 h1, rfl⟩
    · rintro ⟨b, h1, rfl⟩
      exact ⟨.bool b, flagOf_iff.1 h1, by simp, rfl⟩
  · intro h
    exact ⟨_, (), (C43_validate_iff f).2 h, rfl⟩

/-! ### C45: deletions -/

theorem len_ok {d : Data} {n : Nat} (h : d.len = .ok n) : n ≠ 0 ↔ SomeValues d := by
  unfold Data.len at h
  split at h <;> cases h
  all_goals rename_i xs
  all_goals
    cases xs with
    | nil => simp; intro h; cases h
    | cons x xs => simp; constructor

theorem someValues_len {d : Data} (h : SomeValues d) : ∃ n, d.len = .ok n ∧ n ≠ 0 := by
  cases h <;> exact ⟨_, rfl, by simp⟩

theorem checkColumns_iff {kvs : List (Str × Data)} : checkColumns kvs = .ok () ↔ ∀ p ∈ kvs, SomeValues p.2 := by
  induction kvs with
  | nil => simp [checkColumns]
  | cons p kvs ih =>
    obtain ⟨k, v⟩ := p
    simp only [checkColumns, bind_eq_ok, ensure_eq_ok, List.mem_cons, forall_eq_or_imp, ← ih]
    constructor
    · rintro ⟨n, h1, _, h2, h3⟩
      exact ⟨(len_ok h1).1 (by simpa using h2), h3⟩
    · rintro ⟨h1, h2⟩
      obtain ⟨n, hn, h0⟩ := someValues_len h1
      exact ⟨n, hn, (), by simpa using h0, h2⟩

/-- **C45** (validation): a deletion is accepted exactly when it has a condition and every condition has a value. -/
theorem C45_validate_iff (d : DeleteObj) : d.validate = .ok () ↔ DeleteOk d := by
  unfold DeleteObj.validate DeleteOk
  split
  · rename_i h; simp [h]
  · rename_i kvs hne h
    rw [checkColumns_iff, h]
    constructor
    · intro h1; exact ⟨kvs, rfl, by rintro rfl; exact hne rfl, h1⟩
    · rintro ⟨_, e, _, h1⟩; cases e; exact h1
  · rename_i h1 h2
    simp only [reduceCtorEq, false_iff]
    rintro ⟨kvs, h, _⟩
    exact h2 _ h

/-- **C45.** A deletion serialises exactly when it has at least one column condition and every condition has at least
one value, and then the body is the given mapping under `columns`. -/
theorem C45_serialize_iff (d : DeleteObj) (x : Data) :
    d.serialize = .ok x ↔ DeleteOk d ∧ x = .dict [(c!"columns", d.columnConditions)] := by
  unfold DeleteObj.serialize
  simp only [bind_eq_ok, Except.ok.injEq, ← C45_validate_iff]
  exact ⟨fun ⟨_, h1, h2⟩ => ⟨h1, h2.symm⟩, fun ⟨h1, h2⟩ => ⟨(), h1, h2.symm⟩⟩

/-- **C45** (errors): if the conditions are a mapping from names to lists, the only error is `InvalidDeleteQueryError`. -/
theorem C45_error (d : DeleteObj) (kvs : List (Str × Data)) (e : Err) (h : d.columnConditions = .dict kvs)
    (hl : ∀ p ∈ kvs, ∃ xs, p.2 = .list xs ∨ ∃ vs, p.2 = .val (.list vs)) (he : d.serialize = .error e) : e = .invalidDelete := by
  have key : ∀ kvs : List (Str × Data), (∀ p ∈ kvs, ∃ xs, p.2 = .list xs ∨ ∃ vs, p.2 = .val (.list vs)) →
      checkColumns kvs = .error e → e = .invalidDelete := by
    intro kvs hl he
    induction kvs with
    | nil => cases he
    | cons p kvs ih =>
      obtain ⟨k, v⟩ := p
      simp only [checkColumns, bind_eq_error, ensure_eq_error] at he
      rcases he with he | ⟨n, _, he | ⟨_, _, he⟩⟩
      · obtain ⟨xs, h | ⟨vs, h⟩⟩ := hl (k, v) (List.mem_cons_self ..) <;> (simp only at h; subst h; cases he)
      · exact he.2.symm
      · exact ih (fun p hp => hl p (List.mem_cons_of_mem _ hp)) he
  simp only [DeleteObj.serialize, bind_eq_error, reduceCtorEq, and_false, exists_const, or_false] at he
  unfold DeleteObj.validate at he
  rw [h] at he
  cases kvs with
  | nil => cases he; rfl
  | cons p kvs => exact key _ hl he

/-! ### C44: payloads -/

theorem flagChar_iff {c : Char} : flagChar c = true ↔ RequestChar c := by
  simp only [flagChar, isAlpha, isDigit, RequestChar, Bool.or_eq_true, Bool.and_eq_true, decide_eq_true_eq, beq_iff_eq,
    List.mem_cons, List.not_mem_nil, or_false]
  simp only [or_assoc]

theorem FLAG_RE_iff {s : Str} : FLAG_RE.matches s = true ↔ OptNewline (fun b => ∀ c ∈ b, RequestChar c) s := by
  rw [matches_iff, optNewline_iff]
  simp only [FLAG_RE, mem_run_seq, mem_run_star (OneChar.cls _), mem_run_eol, flagChar_iff]
  constructor
  · rintro ⟨t, _, ⟨u, rfl, hu⟩, rfl, he⟩; exact ⟨u, _, hu, rfl, he⟩
  · rintro ⟨u, t, hu, rfl, he⟩; exact ⟨t, t, ⟨u, rfl, hu⟩, rfl, he⟩

theorem checkName_iff {d : Data} : checkName d = .ok () ↔ RequestName d := by
  unfold checkName RequestName
  split
  · rename_i s
    split
    · rename_i h
      simp only [List.isEmpty_iff] at h
      subst h
      simp
    · rename_i h
      simp only [List.isEmpty_iff] at h
      simp only [ensure_eq_ok, FLAG_RE_iff]
      constructor
      · intro h1; exact ⟨s, rfl, h, h1⟩
      · rintro ⟨_, e, _, h1⟩; cases e; exact h1
  · rename_i h
    simp only [reduceCtorEq, false_iff]
    rintro ⟨s, e, _⟩
    exact h s e

theorem checkParent_iff {d : Data} : checkParent d = .ok () ↔ ∃ s, d = .val (.str s) ∧ s ≠ [] := by
  unfold checkParent
  split
  · rename_i s
    split
    · rename_i h
      simp only [List.isEmpty_iff] at h
      subst h
      simp
    · rename_i h
      simp only [List.isEmpty_iff] at h
      simpa using h
  · rename_i h
    simp only [reduceCtorEq, false_iff]
    rintro ⟨s, e, _⟩
    exact h s e

theorem checkTenants_iff {d : Data} : checkTenants d = .ok () ↔ ∃ kvs, d = .dict kvs := by
  unfold checkTenants
  split <;> simp_all

section
variable [U : PyUnicode] [S : RegexSpace]

/-- **C44** (validation): what a valid request is. -/
theorem C44_validate_iff (r : RequestObj) : r.validate = .ok () ↔ RequestOk r := by
  have hf : validateFlags r.flags = .ok () ↔ ∀ f, r.flags = some f → FlagsOk f := by
    cases r.flags with
    | none => simp [validateFlags]
    | some f => simp [validateFlags, C43_validate_iff]
  unfold RequestObj.validate
  simp only [bind_eq_ok]
  constructor
  · rintro ⟨_, h1, _, h2, _, h3, _, h4, _, h5, h6⟩
    exact ⟨checkName_iff.1 h1, checkName_iff.1 h2, checkParent_iff.1 h3, checkTenants_iff.1 h4, h5, hf.1 h6⟩
  · rintro ⟨h1, h2, h3, h4, h5, h6⟩
    exact ⟨(), checkName_iff.2 h1, (), checkName_iff.2 h2, (), checkParent_iff.2 h3, (), checkTenants_iff.2 h4, (), h5, hf.2 h6⟩

/-- The names of the other entries of a request. -/
def reserved : List Str := [c!"query", c!"dataset", c!"app_id", c!"tenant_ids", c!"parent_api", c!"mql_context"]

omit U S in
theorem flagsDict_spec {fo : Option FlagsObj} {kvs : List (Str × Data)} (h : flagsDict fo = .ok kvs) :
    (∀ k d, (k, d) ∈ kvs ↔ ∃ f b, fo = some f ∧ FlagSet f k b ∧ d = .val (.bool b)) ∧ (kvs.map (·.1)).Nodup ∧
      ∀ k ∈ kvs.map (·.1), k ∉ reserved := by
  cases fo with
  | none => cases h; simp
  | some f =>
    obtain ⟨h1, h2, h3⟩ := (C43_to_dict f kvs).1 h
    refine ⟨fun k d => ?_, h3.nodup (by decide), fun k hk => ?_⟩
    · rw [h2]; simp
    · have := h3.subset hk
      have : ∀ k ∈ [c!"totals", c!"consistent", c!"turbo", c!"debug", c!"dry_run", c!"legacy"], k ∉ reserved := by decide
      exact this k (h3.subset hk)

omit U S in
theorem dictSet_new {k : Str} {v : Data} {kvs : List (Str × Data)} (h : k ∉ kvs.map (·.1)) : dictSet k v kvs = kvs ++ [(k, v)] := by
  induction kvs with
  | nil => rfl
  | cons p kvs ih =>
    obtain ⟨k', v'⟩ := p
    simp only [List.map_cons, List.mem_cons, not_or] at h
    unfold dictSet
    rw [if_neg (fun e => h.1 e.symm), ih h.2]
    rfl

omit U S in
theorem dictSetAll_new {more : List (Str × Data)} : ∀ {kvs : List (Str × Data)}, (kvs.map (·.1) ++ more.map (·.1)).Nodup →
    dictSetAll kvs more = kvs ++ more := by
  induction more with
  | nil => intro kvs _; simp [dictSetAll]
  | cons p more ih =>
    obtain ⟨k, v⟩ := p
    intro kvs h
    have hk : k ∉ kvs.map (·.1) := by
      intro hk
      rw [List.nodup_append] at h
      exact h.2.2 k hk k (by simp) rfl
    rw [dictSetAll, dictSet_new hk, ih (by simpa using h)]
    simp

omit U S in
theorem nodup_reserved {flags more : List (Str × Data)} (h1 : (flags.map (·.1)).Nodup) (h2 : ∀ k ∈ flags.map (·.1), k ∉ reserved)
    (h3 : (more.map (·.1)).Nodup) (h4 : ∀ k ∈ more.map (·.1), k ∈ reserved) : (flags.map (·.1) ++ more.map (·.1)).Nodup := by
  rw [List.nodup_append]
  refine ⟨h1, h3, ?_⟩
  rintro a ha b hb rfl
  exact h2 a ha (h4 a hb)

/-- The entries of a request that is no deletion, after the flags. -/
def plainEntries (r : RequestObj) (text : Str) : List (Str × Data) :=
  [(c!"query", .val (.str text)), (c!"dataset", r.dataset), (c!"app_id", r.appId), (c!"tenant_ids", r.tenantIds),
    (c!"parent_api", r.parentApi)]

omit U S in
theorem dict_eq {r : RequestObj} {flags : List (Str × Data)} {text : Str} (h1 : (flags.map (·.1)).Nodup)
    (h2 : ∀ k ∈ flags.map (·.1), k ∉ reserved) : r.dict flags text = flags ++ plainEntries r text :=
  dictSetAll_new (nodup_reserved h1 h2 (by simp only [List.map_cons, List.map_nil]; decide) (by simp only [List.map_cons, List.map_nil]; decide))

omit U S in
theorem deletion_eq {r : RequestObj} {flags : List (Str × Data)} {body : Data} (h1 : (flags.map (·.1)).Nodup)
    (h2 : ∀ k ∈ flags.map (·.1), k ∉ reserved) :
    r.deletion flags body = flags ++ [(c!"query", body), (c!"app_id", r.appId), (c!"tenant_ids", r.tenantIds), (c!"parent_api", r.parentApi)] :=
  dictSetAll_new (nodup_reserved h1 h2 (by simp only [List.map_cons, List.map_nil]; decide) (by simp only [List.map_cons, List.map_nil]; decide))

omit U S in
theorem context_eq {r : RequestObj} {flags : List (Str × Data)} {text : Str} {c : Data} (hc : c ≠ .val .none)
    (h1 : (flags.map (·.1)).Nodup) (h2 : ∀ k ∈ flags.map (·.1), k ∉ reserved) :
    addContext c (r.dict flags text) = flags ++ (plainEntries r text ++ [(c!"mql_context", c)]) := by
  have hn : c!"mql_context" ∉ (r.dict flags text).map (·.1) := by
    rw [dict_eq h1 h2, List.map_append]
    intro h
    rcases List.mem_append.1 h with h | h
    · exact h2 _ h (by decide)
    · revert h; simp [plainEntries]
  unfold addContext
  split
  · exact absurd rfl hc
  · rw [dictSet_new hn, dict_eq h1 h2, List.append_assoc]

variable [R : PyRepr]

theorem metrics_serialize_shape {q : MetricsQueryObj} {d : Data} (h : q.serialize.1 = .ok d) :
    ∃ t c, d = .dict [(c!"mql", .val (.str t)), (c!"mql_context", .dict c)] := by
  unfold MetricsQueryObj.serialize at h
  split at h
  · cases h
  · split at h
    · cases h
    · obtain ⟨text, start, end_, rollup, scope, limit, offset, extrapolate, mappings, _, _, _, _, _, _, _, _, _, rfl⟩ := print_parts.1 h
      exact ⟨text, _, rfl⟩

/-- What `build` returns. -/
theorem build_ok {r : RequestObj} {flags : List (Str × Data)} {d : Data} (hf : flagsDict r.flags = .ok flags)
    (h : (r.build flags).1 = .ok d) : ∃ kvs, d = .dict kvs ∧ Payload r kvs := by
  obtain ⟨f1, f2, f3⟩ := flagsDict_spec hf
  have fl : ∀ k x, (k, x) ∈ flags → Entry r k x := by
    intro k x hk
    obtain ⟨f, b, h1, h2, rfl⟩ := (f1 k x).1 hk
    exact .flag f k b h1 h2
  have fl' : ∀ f k b, r.flags = some f → FlagSet f k b → (k, Data.val (.bool b)) ∈ flags :=
    fun f k b h1 h2 => (f1 k _).2 ⟨f, b, h1, h2, rfl⟩
  unfold RequestObj.build at h
  split at h
  · rename_i q hq
    split at h
    · cases h
    · rename_i d' q' hs
      have hs1 : q.serialize.1 = .ok d' := by rw [hs]
      obtain ⟨t, c, rfl⟩ := metrics_serialize_shape hs1
      have e : r.metricsDict flags (.dict [(c!"mql", .val (.str t)), (c!"mql_context", .dict c)]) =
          .ok (.dict (addContext (.dict c) (r.dict flags t))) := rfl
      simp only at h
      rw [e, context_eq (by simp) f2 f3] at h
      cases h
      refine ⟨_, rfl, ⟨fun k x => ⟨fun hk => ?_, fun hk => ?_⟩, ?_⟩⟩
      · rcases List.mem_append.1 hk with hk | hk
        · exact fl k x hk
        · simp only [plainEntries, List.cons_append, List.nil_append, List.mem_cons, Prod.mk.injEq, List.not_mem_nil, or_false] at hk
          rcases hk with ⟨rfl, rfl⟩ | ⟨rfl, rfl⟩ | ⟨rfl, rfl⟩ | ⟨rfl, rfl⟩ | ⟨rfl, rfl⟩ | ⟨rfl, rfl⟩
          · exact .query _ (hq ▸ .metrics q _ _ hs1 (by simp))
          · exact .dataset (by rw [hq]; simp)
          · exact .appId
          · exact .tenantIds
          · exact .parentApi
          · exact .context q _ _ hq hs1 (by simp)
      · rw [List.mem_append]
        cases hk with
        | query _ hk =>
          rw [hq] at hk
          cases hk with
          | metrics _ kvs _ h1 h2 => rw [hs1] at h1; cases h1; simp at h2; simp [plainEntries, h2]
        | dataset => simp [plainEntries]
        | appId => simp [plainEntries]
        | tenantIds => simp [plainEntries]
        | parentApi => simp [plainEntries]
        | context q2 kvs _ h1 h2 h3 => rw [hq] at h1; cases h1; rw [hs1] at h2; cases h2; simp at h3; simp [plainEntries, h3]
        | flag f _ b h1 h2 => exact .inl (fl' f k b h1 h2)
      · rw [List.map_append]
        exact nodup_reserved f2 f3 (by simp only [plainEntries, List.map_cons, List.map_append, List.map_nil]; decide)
          (by simp only [plainEntries, List.map_cons, List.map_append, List.map_nil]; decide)
  · rename_i q hq
    split at h
    · cases h
    · rename_i d' hs
      simp only at h
      rw [deletion_eq f2 f3] at h
      cases h
      refine ⟨_, rfl, ⟨fun k x => ⟨fun hk => ?_, fun hk => ?_⟩, ?_⟩⟩
      · rcases List.mem_append.1 hk with hk | hk
        · exact fl k x hk
        · simp only [List.mem_cons, Prod.mk.injEq, List.not_mem_nil, or_false] at hk
          rcases hk with ⟨rfl, rfl⟩ | ⟨rfl, rfl⟩ | ⟨rfl, rfl⟩ | ⟨rfl, rfl⟩
          · exact .query _ (hq ▸ .delete q _ hs)
          · exact .appId
          · exact .tenantIds
          · exact .parentApi
      · rw [List.mem_append]
        cases hk with
        | query _ hk =>
          rw [hq] at hk
          cases hk with
          | delete _ _ h1 => rw [hs] at h1; cases h1; simp
        | dataset hn => exact absurd hq (hn q)
        | appId => simp
        | tenantIds => simp
        | parentApi => simp
        | context q2 kvs _ h1 h2 h3 => rw [hq] at h1; cases h1
        | flag f _ b h1 h2 => exact .inl (fl' f k b h1 h2)
      · rw [List.map_append]
        exact nodup_reserved f2 f3 (by simp only [List.map_cons, List.map_nil]; decide)
          (by simp only [List.map_cons, List.map_nil]; decide)
  · rename_i q hq
    split at h
    · cases h
    · rename_i t hs
      simp only at h
      rw [dict_eq f2 f3] at h
      cases h
      refine ⟨_, rfl, ⟨fun k x => ⟨fun hk => ?_, fun hk => ?_⟩, ?_⟩⟩
      · rcases List.mem_append.1 hk with hk | hk
        · exact fl k x hk
        · simp only [plainEntries, List.mem_cons, Prod.mk.injEq, List.not_mem_nil, or_false] at hk
          rcases hk with ⟨rfl, rfl⟩ | ⟨rfl, rfl⟩ | ⟨rfl, rfl⟩ | ⟨rfl, rfl⟩ | ⟨rfl, rfl⟩
          · exact .query _ (hq ▸ .snql q _ hs)
          · exact .dataset (by rw [hq]; simp)
          · exact .appId
          · exact .tenantIds
          · exact .parentApi
      · rw [List.mem_append]
        cases hk with
        | query _ hk =>
          rw [hq] at hk
          cases hk with
          | snql _ _ h1 => rw [hs] at h1; cases h1; simp [plainEntries]
        | dataset => simp [plainEntries]
        | appId => simp [plainEntries]
        | tenantIds => simp [plainEntries]
        | parentApi => simp [plainEntries]
        | context q2 kvs _ h1 h2 h3 => rw [hq] at h1; cases h1
        | flag f _ b h1 h2 => exact .inl (fl' f k b h1 h2)
      · rw [List.map_append]
        exact nodup_reserved f2 f3 (by simp only [plainEntries, List.map_cons, List.map_nil]; decide)
          (by simp only [plainEntries, List.map_cons, List.map_nil]; decide)

omit U S R in
theorem flagsDict_ok {r : RequestObj} (h : ∀ f, r.flags = some f → FlagsOk f) : ∃ flags, flagsDict r.flags = .ok flags := by
  cases hf : r.flags with
  | none => exact ⟨[], rfl⟩
  | some f => exact (C43_to_dict f []).2 (h f hf)

/-- **C44.** If `to_dict` succeeds, the request is valid, and the result is a dictionary with exactly these entries, each key
once: the serialised query, `app_id`, `tenant_ids`, `parent_api` and the flags that are set, `dataset` unless it is a deletion, and
`mql_context` for metrics queries. -/
theorem C44_to_dict (r : RequestObj) (d : Data) (h : r.toDict.1 = .ok d) : RequestOk r ∧ ∃ kvs, d = .dict kvs ∧ Payload r kvs := by
  unfold RequestObj.toDict at h
  split at h
  · cases h
  · rename_i u hv
    refine ⟨(C44_validate_iff r).1 hv, ?_⟩
    split at h
    · cases h
    · rename_i flags hf
      exact build_ok hf h

/-- **C44** (success): `to_dict` succeeds exactly for valid requests whose query can be serialised. -/
theorem C44_succeeds_iff (r : RequestObj) : (∃ d, r.toDict.1 = .ok d) ↔ RequestOk r ∧ ∃ x, QueryEntry r.query x := by
  constructor
  · rintro ⟨d, hd⟩
    obtain ⟨hr, kvs, rfl, hp⟩ := C44_to_dict r d hd
    refine ⟨hr, ?_⟩
    unfold RequestObj.toDict at hd
    split at hd
    · cases hd
    · split at hd
      · cases hd
      · unfold RequestObj.build at hd
        split at hd
        · rename_i q hq
          split at hd
          · cases hd
          · rename_i d' q' hs
            have hs1 : q.serialize.1 = .ok d' := by rw [hs]
            obtain ⟨t, c, rfl⟩ := metrics_serialize_shape hs1
            rw [hq]
            exact ⟨_, .metrics q _ _ hs1 (List.mem_cons_self ..)⟩
        · rename_i q hq
          split at hd
          · cases hd
          · rename_i hs
            rw [hq]
            exact ⟨_, .delete _ _ hs⟩
        · rename_i q hq
          split at hd
          · cases hd
          · rename_i hs
            rw [hq]
            exact ⟨_, .snql _ _ hs⟩
  · rintro ⟨hr, x, hx⟩
    obtain ⟨flags, hf⟩ := flagsDict_ok hr.flags
    have hv := (C44_validate_iff r).2 hr
    unfold RequestObj.toDict
    rw [hv]
    simp only
    rw [hf]
    simp only
    unfold RequestObj.build
    generalize r.query = y at hx
    cases hx with
    | snql q t hs => simp only; rw [hs]; exact ⟨_, rfl⟩
    | delete q t hs => simp only; rw [hs]; exact ⟨_, rfl⟩
    | metrics q kvs x hs _ =>
      simp only
      obtain ⟨t, c, e⟩ := metrics_serialize_shape hs
      cases hq : q.serialize with
      | mk d q' =>
        rw [hq] at hs
        simp only at hs
        subst hs
        rw [e]
        exact ⟨_, rfl⟩

/-- **C44** (keys): `dataset` is there exactly if the query is not a deletion, `mql_context` exactly if it is a metrics query. -/
theorem C44_keys (r : RequestObj) (kvs : List (Str × Data)) (h : r.toDict.1 = .ok (.dict kvs)) :
    (c!"dataset" ∈ kvs.map (·.1) ↔ ∀ q, r.query ≠ .delete q) ∧ (c!"mql_context" ∈ kvs.map (·.1) ↔ ∃ q, r.query = .metrics q) := by
  obtain ⟨hr, kvs', e, hp⟩ := C44_to_dict r _ h
  cases e
  have noflag : ∀ k f b, k ∈ reserved → FlagSet f k b → False := by
    intro k f b hk hs
    have : k ∈ [c!"totals", c!"consistent", c!"turbo", c!"debug", c!"dry_run", c!"legacy"] := by
      have := List.mem_map_of_mem (f := (·.1)) (flagOf_iff.1 hs)
      exact this
    exact (by decide : ∀ k ∈ [c!"totals", c!"consistent", c!"turbo", c!"debug", c!"dry_run", c!"legacy"], k ∉ reserved) k this hk
  simp only [List.mem_map, Prod.exists, exists_and_right, exists_eq_right, hp.entries]
  refine ⟨⟨?_, fun h => ⟨_, .dataset h⟩⟩, ⟨?_, ?_⟩⟩
  · rintro ⟨x, hx⟩
    generalize hk : c!"dataset" = k at hx
    cases hx with
    | dataset h => exact h
    | flag f _ b h1 h2 => exact absurd h2 (fun h => noflag k f b (hk ▸ by decide) h)
    | _ => cases hk
  · rintro ⟨x, hx⟩
    generalize hk : c!"mql_context" = k at hx
    cases hx with
    | context q _ _ h => exact ⟨q, h⟩
    | flag f _ b h1 h2 => exact absurd h2 (fun h => noflag k f b (hk ▸ by decide) h)
    | _ => cases hk
  · rintro ⟨q, hq⟩
    obtain ⟨_, x, hx⟩ := (C44_succeeds_iff r).1 ⟨_, h⟩
    rw [hq] at hx
    cases hx with
    | metrics _ kvs' _ h1 _ =>
      obtain ⟨t, c, e⟩ := metrics_serialize_shape h1
      cases e
      exact ⟨_, .context q _ _ hq h1 (by simp; rfl)⟩

/-- **C44** (changes): `to_dict` changes nothing but a metrics query, and that as its own `serialize` does. -/
theorem C44_only_the_query_changes (r : RequestObj) :
    r.toDict.2 = r ∨ ∃ q, r.query = .metrics q ∧ r.toDict.2 = { r with query := .metrics q.serialize.2 } := by
  unfold RequestObj.toDict
  split
  · exact .inl rfl
  · split
    · exact .inl rfl
    · unfold RequestObj.build
      split
      · rename_i q hq
        right
        refine ⟨q, hq, ?_⟩
        split <;> (rename_i hs; rw [hs])
      · left
        split <;> rfl
      · left
        split <;> rfl

/-- **C43** (no override): whatever the flags are, the entries of a request that are not flags are the same as without flags, and
the flags are there with their values. -/
theorem C43_no_override (r : RequestObj) (f : FlagsObj) (kvs : List (Str × Data)) (hf : r.flags = some f)
    (h : r.toDict.1 = .ok (.dict kvs)) :
    ∃ kvs', ({ r with flags := none } : RequestObj).toDict.1 = .ok (.dict kvs') ∧
      (∀ k x, (k, x) ∈ kvs ↔ (k, x) ∈ kvs' ∨ ∃ b, FlagSet f k b ∧ x = .val (.bool b)) ∧
      (∀ k b, FlagSet f k b → k ∉ kvs'.map (·.1)) ∧ (kvs.map (·.1)).Nodup := by
  obtain ⟨hr, _, e, hp⟩ := C44_to_dict r _ h
  cases e
  obtain ⟨_, x, hx⟩ := (C44_succeeds_iff r).1 ⟨_, h⟩
  have hr' : RequestOk ({ r with flags := none } : RequestObj) := ⟨hr.dataset, hr.appId, hr.parentApi, hr.tenantIds, hr.query, by simp⟩
  obtain ⟨d, hd⟩ := (C44_succeeds_iff ({ r with flags := none } : RequestObj)).2 ⟨hr', x, hx⟩
  obtain ⟨_, kvs', rfl, hp'⟩ := C44_to_dict _ _ hd
  have he : ∀ k x, Entry r k x ↔ Entry ({ r with flags := none } : RequestObj) k x ∨ ∃ b, FlagSet f k b ∧ x = .val (.bool b) := by
    intro k x
    constructor
    · intro h
      cases h with
      | query _ h => exact .inl (.query _ h)
      | dataset h => exact .inl (.dataset h)
      | appId => exact .inl .appId
      | tenantIds => exact .inl .tenantIds
      | parentApi => exact .inl .parentApi
      | context q kvs _ h1 h2 h3 => exact .inl (.context q kvs _ h1 h2 h3)
      | flag f' _ b h1 h2 => rw [hf] at h1; cases h1; exact .inr ⟨b, h2, rfl⟩
    · rintro (h | ⟨b, h, rfl⟩)
      · cases h with
        | query _ h => exact .query _ h
        | dataset h => exact .dataset h
        | appId => exact .appId
        | tenantIds => exact .tenantIds
        | parentApi => exact .parentApi
        | context q kvs _ h1 h2 h3 => exact .context q kvs _ h1 h2 h3
        | flag f' _ b h1 h2 => cases h1
      · exact .flag f k b hf h
  refine ⟨kvs', hd, fun k x => ?_, fun k b hk hm => ?_, hp.nodup⟩
  · rw [hp.entries, hp'.entries, he]
  · have hk1 : k ∈ [c!"totals", c!"consistent", c!"turbo", c!"debug", c!"dry_run", c!"legacy"] :=
      List.mem_map_of_mem (f := (·.1)) (flagOf_iff.1 hk)
    have : ∀ k ∈ [c!"totals", c!"consistent", c!"turbo", c!"debug", c!"dry_run", c!"legacy"], k ∉ reserved := by decide
    apply this k hk1
    simp only [List.mem_map, Prod.exists, exists_and_right, exists_eq_right, hp'.entries] at hm
    obtain ⟨x, hx⟩ := hm
    cases hx with
    | flag f' _ b h1 h2 => cases h1
    | _ => decide

theorem serialize_twice (q : MetricsQueryObj) : q.serialize.2.serialize.1 = q.serialize.1 ∧ q.serialize.2.validate = q.validate := by
  rcases C42_looking_is_harmless q [.serialize] with ⟨e, h, _⟩ | ⟨r, r', h1, h2, h3, h4⟩
  · cases h
  · cases h1
    cases h2
    exact ⟨h3, h4⟩

/-- **C44** (repetition): a second `to_dict` gives the same result as the first. -/
theorem C44_same_every_time (r : RequestObj) : r.toDict.2.toDict.1 = r.toDict.1 := by
  rcases C44_only_the_query_changes r with h | ⟨q, hq, h⟩
  · rw [h]
  · rw [h]
    obtain ⟨h1, h2⟩ := serialize_twice q
    have hv : ({ r with query := .metrics q.serialize.2 } : RequestObj).validate = r.validate := by
      unfold RequestObj.validate
      rw [hq]
      simp only [AnyQuery.validate, h2]
    unfold RequestObj.toDict
    rw [hv]
    cases r.validate with
    | error e => rfl
    | ok u =>
      simp only
      cases flagsDict r.flags with
      | error e => rfl
      | ok flags =>
        simp only
        unfold RequestObj.build
        rw [hq]
        simp only
        cases e1 : q.serialize with
        | mk x q' =>
          rw [e1] at h1
          simp only at h1
          cases e2 : q'.serialize with
          | mk y q'' =>
            rw [e2] at h1
            simp only at h1
            subst h1
            cases y <;> rfl

end

/-! ### Examples -/

section Examples
local instance exRequestUnicode : PyUnicode := asciiUnicode
local instance exRequestSpace : RegexSpace := pySpace
local instance exRequestRepr : PyRepr := ⟨fun _ => []⟩

/-- Two flags that are set, the others absent. -/
def exFlags : FlagsObj := { debug := .bool true, legacy := .bool false }

/-- C43: valid flags, and what is sent. -/
example : exFlags.toDict = .ok [(c!"debug", .val (.bool true)), (c!"legacy", .val (.bool false))] := rfl
example : FlagsOk exFlags := (C43_validate_iff exFlags).1 rfl
example : FlagSet exFlags c!"legacy" false := .legacy
example : ({ exFlags with turbo := .int 1 } : FlagsObj).validate = .error .invalidFlag :=
  C43_error _ (fun h => by rcases h _ _ .turbo with h | ⟨b, h⟩ <;> cases h)

/-- A deletion with two conditions. -/
def exDelete : DeleteObj :=
  ⟨.val (.str c!"search_issues"), .dict [(c!"id", .list [.val (.int 1), .val (.int 2)]), (c!"status", .list [.val (.str c!"failed")])]⟩

/-- C45: it serialises; without conditions, or with an empty one, it does not. -/
example : DeleteOk exDelete := (C45_validate_iff exDelete).1 rfl
example : exDelete.serialize = .ok (.dict [(c!"columns", exDelete.columnConditions)]) :=
  (C45_serialize_iff _ _).2 ⟨(C45_validate_iff exDelete).1 rfl, rfl⟩
example : ({ exDelete with columnConditions := .dict [] } : DeleteObj).serialize = .error .invalidDelete := rfl
example : ({ exDelete with columnConditions := .dict [(c!"id", .list [.val (.int 1)]), (c!"status", .list [])] } : DeleteObj).serialize =
    .error .invalidDelete := rfl

/-- A SnQL query. -/
def exSnql : Query := .base (.entity ⟨c!"events", none, none, none⟩) { select := .list [.column ⟨c!"title", none, none, none⟩] }

/-- A request around a query. -/
def exRequest (q : AnyQuery) : RequestObj :=
  { dataset := .val (.str c!"events")
    appId := .val (.str c!"app")
    query := q
    flags := some exFlags
    parentApi := .val (.str c!"/api/0/é")
    tenantIds := .dict [(c!"organization_id", .val (.int 1))] }

/-- C44: the payloads of a SnQL query, a deletion and a metrics query. -/
example : (exRequest (.snql exSnql)).toDict.1 = .ok (.dict [(c!"debug", .val (.bool true)), (c!"legacy", .val (.bool false)),
    (c!"query", .val (.str c!"MATCH (events) SELECT title")), (c!"dataset", .val (.str c!"events")), (c!"app_id", .val (.str c!"app")),
    (c!"tenant_ids", .dict [(c!"organization_id", .val (.int 1))]), (c!"parent_api", .val (.str c!"/api/0/é"))]) := rfl
example : (exRequest (.delete exDelete)).toDict.1 = .ok (.dict [(c!"debug", .val (.bool true)), (c!"legacy", .val (.bool false)),
    (c!"query", .dict [(c!"columns", exDelete.columnConditions)]), (c!"app_id", .val (.str c!"app")),
    (c!"tenant_ids", .dict [(c!"organization_id", .val (.int 1))]), (c!"parent_api", .val (.str c!"/api/0/é"))]) := rfl
example : (exRequest (.metrics (exMetricsQuery exOrObject))).toDict.1 = .ok (.dict [(c!"debug", .val (.bool true)),
    (c!"legacy", .val (.bool false)), (c!"query", .val (.str c!"sum(m){a:[\"1\", \"2\"]}")), (c!"dataset", .val (.str c!"events")),
    (c!"app_id", .val (.str c!"app")), (c!"tenant_ids", .dict [(c!"organization_id", .val (.int 1))]),
    (c!"parent_api", .val (.str c!"/api/0/é")), (c!"mql_context", exMetricsContext)]) := rfl
example := C44_keys (exRequest (.metrics (exMetricsQuery exOrObject))) _ rfl
example := C43_no_override (exRequest (.delete exDelete)) exFlags _ rfl rfl

/-- C44: invalid requests. -/
example : ({ exRequest (.snql exSnql) with dataset := .val (.str c!"my events") } : RequestObj).toDict.1 = .error .invalidRequest := rfl
example : ({ exRequest (.snql exSnql) with tenantIds := .list [] } : RequestObj).toDict.1 = .error .invalidRequest := rfl

end Examples

end Verif
