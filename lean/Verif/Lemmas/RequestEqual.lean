import Verif.Spec.RequestEqual
import Verif.Lemmas.MetricsSame
import Verif.Props.Request

/-!
# Lemmas: equal requests
-/

namespace Verif
open Spec

/-! ### What can be encoded -/

/-- The encoder accepts the structure. -/
def Jsonable (d : Data) : Prop := ∃ j, d.toJson = .ok j

theorem jsonable_vals : ∀ {xs : List Val}, (∃ js, toJsonVals xs = .ok js) ↔ ∀ x ∈ xs, Jsonable (.val x)
  | [] => by simp [toJsonVals]
  | x :: xs => by
    simp only [toJsonVals, bind_eq_ok, List.mem_cons, forall_eq_or_imp]
    rw [← jsonable_vals (xs := xs)]
    constructor
    · rintro ⟨js, j, h1, js', h2, _⟩
      exact ⟨⟨j, h1⟩, js', h2⟩
    · rintro ⟨⟨j, h1⟩, js', h2⟩
      exact ⟨_, j, h1, js', h2, rfl⟩

theorem jsonable_items : ∀ {xs : List Data}, (∃ js, toJsonList xs = .ok js) ↔ ∀ x ∈ xs, Jsonable x
  | [] => by simp [toJsonList]
  | x :: xs => by
    simp only [toJsonList, bind_eq_ok, List.mem_cons, forall_eq_or_imp]
    rw [← jsonable_items (xs := xs)]
    constructor
    · rintro ⟨js, j, h1, js', h2, _⟩
      exact ⟨⟨j, h1⟩, js', h2⟩
    · rintro ⟨⟨j, h1⟩, js', h2⟩
      exact ⟨_, j, h1, js', h2, rfl⟩

theorem jsonable_entries : ∀ {kvs : List (Str × Data)}, (∃ js, toJsonEntries kvs = .ok js) ↔ ∀ p ∈ kvs, Jsonable p.2
  | [] => by simp [toJsonEntries]
  | (k, x) :: kvs => by
    simp only [toJsonEntries, bind_eq_ok, List.mem_cons, forall_eq_or_imp]
    rw [← jsonable_entries (kvs := kvs)]
    constructor
    · rintro ⟨js, j, h1, js', h2, _⟩
      exact ⟨⟨j, h1⟩, js', h2⟩
    · rintro ⟨⟨j, h1⟩, js', h2⟩
      exact ⟨_, j, h1, js', h2, rfl⟩

theorem jsonable_seq {xs : List Val} : (Jsonable (.val (.list xs)) ↔ ∀ x ∈ xs, Jsonable (.val x)) ∧
    (Jsonable (.val (.tuple xs)) ↔ ∀ x ∈ xs, Jsonable (.val x)) := by
  rw [← jsonable_vals]
  simp only [Jsonable, Data.toJson, Val.toJson, bind_eq_ok]
  exact ⟨⟨fun ⟨_, js, h, _⟩ => ⟨js, h⟩, fun ⟨js, h⟩ => ⟨_, js, h, rfl⟩⟩, ⟨fun ⟨_, js, h, _⟩ => ⟨js, h⟩, fun ⟨js, h⟩ => ⟨_, js, h, rfl⟩⟩⟩

theorem jsonable_list {xs : List Data} : Jsonable (.list xs) ↔ ∀ x ∈ xs, Jsonable x := by
  rw [← jsonable_items]
  simp only [Jsonable, Data.toJson, bind_eq_ok]
  exact ⟨fun ⟨_, js, h, _⟩ => ⟨js, h⟩, fun ⟨js, h⟩ => ⟨_, js, h, rfl⟩⟩

theorem jsonable_dict {kvs : List (Str × Data)} : Jsonable (.dict kvs) ↔ ∀ p ∈ kvs, Jsonable p.2 := by
  rw [← jsonable_entries]
  simp only [Jsonable, Data.toJson, bind_eq_ok]
  exact ⟨fun ⟨_, js, h, _⟩ => ⟨js, h⟩, fun ⟨js, h⟩ => ⟨_, js, h, rfl⟩⟩

theorem vals_json : ∀ {xs ys : List Val}, (∀ x ∈ xs, ∀ y, Verif.pyEq x y = true → (Jsonable (.val x) ↔ Jsonable (.val y))) →
    pyEqList xs ys = true → ((∀ x ∈ xs, Jsonable (.val x)) ↔ ∀ y ∈ ys, Jsonable (.val y))
  | [], [], _, _ => by simp
  | [], _ :: _, _, h => by simp [pyEqList] at h
  | _ :: _, [], _, h => by simp [pyEqList] at h
  | x :: xs, y :: ys, ih, h => by
    simp only [pyEqList, Bool.and_eq_true] at h
    simp only [List.mem_cons, forall_eq_or_imp]
    rw [ih x (by simp) y h.1, vals_json (fun a ha => ih a (by simp [ha])) h.2]

theorem val_json : ∀ v w : Val, Verif.pyEq v w = true → (Jsonable (.val v) ↔ Jsonable (.val w)) := by
  intro v
  induction v using Val.childInd with
  | _ v ih =>
    intro w h
    by_cases hs : ∃ xs, v = .list xs ∨ v = .tuple xs
    · obtain ⟨xs, rfl | rfl⟩ := hs <;> cases w <;> first | exact Bool.noConfusion h | skip
      · simp only [Verif.pyEq] at h
        rw [jsonable_seq.1, jsonable_seq.1]
        exact vals_json ih h
      · simp only [Verif.pyEq] at h
        rw [jsonable_seq.2, jsonable_seq.2]
        exact vals_json ih h
    · clear ih
      cases v <;> cases w <;> first
        | exact Bool.noConfusion h
        | exact (hs ⟨_, .inl rfl⟩).elim
        | exact (hs ⟨_, .inr rfl⟩).elim
        | exact ⟨fun _ => ⟨_, rfl⟩, fun _ => ⟨_, rfl⟩⟩
        | exact ⟨fun ⟨_, h⟩ => (by cases h), fun ⟨_, h⟩ => (by cases h)⟩

theorem datas_json : ∀ {xs ys : List Data}, (∀ x ∈ xs, ∀ y ∈ ys, x.pyEq y = true → (Jsonable x ↔ Jsonable y)) →
    dataEqAll xs ys = true → ((∀ x ∈ xs, Jsonable x) ↔ ∀ y ∈ ys, Jsonable y)
  | [], [], _, _ => by simp
  | [], _ :: _, _, h => by simp [dataEqAll] at h
  | _ :: _, [], _, h => by simp [dataEqAll] at h
  | x :: xs, y :: ys, ih, h => by
    simp only [dataEqAll, Bool.and_eq_true] at h
    simp only [List.mem_cons, forall_eq_or_imp]
    rw [ih x (by simp) y (by simp) h.1, datas_json (fun a ha b hb => ih a (by simp [ha]) b (by simp [hb])) h.2]

/-- The entries of equal dictionaries correspond to each other. -/
theorem dict_match {kvs kvs' : List (Str × Data)} (h : (Data.dict kvs).pyEq (.dict kvs') = true) (hk : (kvs.map Prod.fst).Nodup) :
    (∀ p ∈ kvs, ∃ q ∈ kvs', p.1 = q.1 ∧ p.2.pyEq q.2 = true) ∧
    ((kvs'.map Prod.fst).Nodup → ∀ q ∈ kvs', ∃ p ∈ kvs, p.1 = q.1 ∧ p.2.pyEq q.2 = true) := by
  simp only [Data.pyEq, Bool.and_eq_true, beq_iff_eq, dictWithin_iff] at h
  obtain ⟨hl, hw⟩ := h
  have h1 : ∀ p ∈ kvs, ∃ q ∈ kvs', p.1 = q.1 ∧ p.2.pyEq q.2 = true := by
    intro p hp
    obtain ⟨y, e, hy⟩ := hw p.1 p.2 hp
    exact ⟨(p.1, y), lookup_mem e, rfl, hy⟩
  refine ⟨h1, fun hk' q hq => ?_⟩
  have hs : ∀ k ∈ kvs.map Prod.fst, k ∈ kvs'.map Prod.fst := by
    intro k hk
    obtain ⟨p, hp, rfl⟩ := List.mem_map.1 hk
    obtain ⟨q, hq, e, _⟩ := h1 p hp
    exact List.mem_map.2 ⟨q, hq, e.symm⟩
  have := subset_of_length hk hs (by simp [hl]) q.1 (List.mem_map.2 ⟨q, hq, rfl⟩)
  obtain ⟨p, hp, e⟩ := List.mem_map.1 this
  obtain ⟨y, e', hy⟩ := hw p.1 p.2 hp
  refine ⟨p, hp, e, ?_⟩
  rw [e, mem_lookup hk' (k := q.1) (x := q.2) hq] at e'
  cases e'; exact hy

theorem data_json : ∀ d e : Data, KeysOnce d → KeysOnce e → d.pyEq e = true → (Jsonable d ↔ Jsonable e) := by
  intro d
  induction d using Data.ind with
  | val v =>
    intro e _ _ h
    cases e with
    | val w => exact val_json v w h
    | _ => simp [Data.pyEq] at h
  | list xs ih =>
    intro e hd he h
    cases e with
    | list ys =>
      rw [jsonable_list, jsonable_list]
      exact datas_json (fun x hx y hy => ih x hx y (fun kvs hv => hd kvs (.item _ _ _ hx hv)) fun kvs hv => he kvs (.item _ _ _ hy hv)) h
    | _ => simp [Data.pyEq] at h
  | dict kvs ih =>
    intro e hd he h
    cases e with
    | dict kvs' =>
      have key : ∀ p ∈ kvs, ∀ q ∈ kvs', p.2.pyEq q.2 = true → (Jsonable p.2 ↔ Jsonable q.2) := fun p hp q hq =>
        ih p.1 p.2 hp q.2 (fun kvs hv => hd kvs (.entry _ _ _ _ hp hv)) fun kvs hv => he kvs (.entry _ _ _ _ hq hv)
      obtain ⟨h1, h2⟩ := dict_match h (hd _ (.self _))
      rw [jsonable_dict, jsonable_dict]
      constructor
      · intro hj q hq
        obtain ⟨p, hp, _, e⟩ := h2 (he _ (.self _)) q hq
        exact (key p hp q hq e).1 (hj p hp)
      · intro hj p hp
        obtain ⟨q, hq, _, e⟩ := h1 p hp
        exact (key p hp q hq e).2 (hj q hq)
    | _ => simp [Data.pyEq] at h

/-! ### Metrics queries -/

variable {m : Bool}

section
variable [U : PyUnicode] [S : RegexSpace] [R : PyRepr]

omit U S in
theorem jsonable_rollup {r : RollupObj} {x : Data} (h : rollupMql (.rollup r) = .ok x) :
    Jsonable x ↔ Jsonable (.val r.granularity) ∧ Jsonable (.val r.interval) := by
  have h1 : ∀ {v y}, orderbyValue v = .ok y → Jsonable y := by
    intro v y h
    unfold orderbyValue at h
    split at h
    · cases h; exact ⟨_, rfl⟩
    · split at h <;> cases h
      exact ⟨_, rfl⟩
  have h2 : Jsonable (totalsText r.totals) := by
    unfold totalsText
    split <;> exact ⟨_, rfl⟩
  simp only [rollupMql, bind_eq_ok, Except.ok.injEq] at h
  obtain ⟨o, ho, rfl⟩ := h
  rw [jsonable_dict]
  simp only [List.mem_cons, List.not_mem_nil, or_false, forall_eq_or_imp, forall_eq, h1 ho, h2, true_and, and_true]

omit U S R in
theorem jsonable_scope {s : ScopeObj} {x : Data} (h : scopeMql (.scope s) = .ok x) :
    Jsonable x ↔ Jsonable (.val s.orgIds) ∧ Jsonable (.val s.projectIds) ∧ Jsonable (.val s.useCaseId) := by
  cases h
  rw [jsonable_dict]
  simp only [List.mem_cons, List.not_mem_nil, or_false, forall_eq_or_imp, forall_eq]

/-- What is sent of equal metrics queries can be encoded, or not, for both. -/
theorem print_json {q r : MetricsQueryObj} (h : q.pyEq r = true) (hq : Keyed q.indexerMappings) (hr : Keyed r.indexerMappings) {d e : Data}
    (vq : q.validate = .ok ()) (vr : r.validate = .ok ()) {v w : MVal}
    (hd : ({ q with query := v } : MetricsQueryObj).print = .ok d) (he : ({ r with query := w } : MetricsQueryObj).print = .ok e) :
    Jsonable d ↔ Jsonable e := by
  have f := fields_iff.1 h
  rw [metricsQuery_parts, checkTime_iff, checkTime_iff, checkRollup_iff, checkScope_iff] at vq vr
  obtain ⟨_, ⟨_, e1⟩, ⟨_, e2⟩, ⟨a, e3, _⟩, ⟨b, e4, _⟩, _⟩ := vq
  obtain ⟨_, ⟨_, e1'⟩, ⟨_, e2'⟩, ⟨a', e3', _⟩, ⟨b', e4', _⟩, _⟩ := vr
  obtain ⟨t, x1, x2, x3, x4, x5, x6, x7, x8, _, g1, g2, g3, g4, g5, g6, g7, g8, rfl⟩ := print_parts.1 hd
  obtain ⟨t', y1, y2, y3, y4, y5, y6, y7, y8, _, k1, k2, k3, k4, k5, k6, k7, k8, rfl⟩ := print_parts.1 he
  simp only at g1 g2 g3 g4 g5 g6 g7 g8 k1 k2 k3 k4 k5 k6 k7 k8
  have time : ∀ {x y}, timeMql x = .ok y → Jsonable y := by
    intro x y h
    unfold timeMql at h
    split at h <;> cases h <;> exact ⟨_, rfl⟩
  have lim : ∀ {x y}, limitMql x = .ok y → Jsonable y := by
    intro x y h
    unfold limitMql at h
    split at h <;> cases h
    · exact ⟨_, rfl⟩
    · rename_i n; cases n <;> exact ⟨_, rfl⟩
  have off : ∀ {x y}, offsetMql x = .ok y → Jsonable y := by
    intro x y h
    unfold offsetMql at h
    split at h <;> cases h
    · exact ⟨_, rfl⟩
    · rename_i n; cases n <;> exact ⟨_, rfl⟩
  have ext : ∀ {x y}, extrapolateMql x = .ok y → Jsonable y := by
    intro x y h
    unfold extrapolateMql at h
    split at h <;> cases h <;> exact ⟨_, rfl⟩
  have maps : Jsonable x8 ↔ Jsonable y8 := by
    have fm := f.mappings
    revert g8 k8 fm hq hr
    cases q.indexerMappings <;> cases r.indexerMappings <;> intro hq hr g8 k8 fm <;> first
      | exact Bool.noConfusion fm
      | (cases g8; done)
      | skip
    · rename_i v w
      simp only [MVal.pyEq] at fm
      have hx : ∀ {v x}, mappingsMql (.val v) = .ok x → x = .val v := by
        intro v x h
        cases v <;> first | (cases h; done) | (cases h; rfl)
      rw [hx g8, hx k8]
      exact val_json _ _ fm
    · simp only [MVal.pyEq] at fm
      cases g8; cases k8
      exact data_json _ _ (fun kvs hk => hq kvs (.data _ _ hk)) (fun kvs hk => hr kvs (.data _ _ hk)) fm
  have text : ∀ s : Str, Jsonable (.val (.str s)) := fun s => ⟨_, rfl⟩
  have fr := f.rollup
  have fs := f.scope
  rw [e3] at g3 fr
  rw [e3'] at k3 fr
  rw [e4] at g4 fs
  rw [e4'] at k4 fs
  simp only [MVal.pyEq, RollupObj.pyEq, ScopeObj.pyEq, Bool.and_eq_true] at fr fs
  have roll : Jsonable x3 ↔ Jsonable y3 := by
    rw [jsonable_rollup g3, jsonable_rollup k3, val_json _ _ fr.2, val_json _ _ fr.1.1.1]
  have scope : Jsonable x4 ↔ Jsonable y4 := by
    rw [jsonable_scope g4, jsonable_scope k4, val_json _ _ fs.1.1, val_json _ _ fs.1.2, val_json _ _ fs.2]
  simp only [contextDict, jsonable_dict, List.mem_cons, List.not_mem_nil, or_false, forall_eq_or_imp, forall_eq, text, time g1, time g2, time k1,
    time k2, lim g5, lim k5, off g6, off k6, ext g7, ext k7, true_and, and_true, roll, scope, maps]

/-- The same for `serialize`. -/
theorem serialize_json {q r : MetricsQueryObj} (h : q.pyEq r = true) (hq : Keyed q.indexerMappings) (hr : Keyed r.indexerMappings) {d e : Data}
    (hd : q.serialize.1 = .ok d) (he : r.serialize.1 = .ok e) : Jsonable d ↔ Jsonable e := by
  unfold MetricsQueryObj.serialize at hd he
  cases h1 : q.validate with
  | error e => simp only [h1] at hd; cases hd
  | ok u =>
    cases h2 : r.validate with
    | error e => simp only [h2] at he; cases he
    | ok u' =>
      simp only [h1] at hd
      simp only [h2] at he
      split at hd
      · cases hd
      · split at he
        · cases he
        · exact print_json h hq hr h1 h2 hd he

/-! ### Flags -/

omit U S R in
theorem flag_eq {v w : Val} (h : Verif.pyEq v w = true) (hv : NoNumber v) (hw : NoNumber w) :
    checkFlag v = checkFlag w ∧ (checkFlag v = .ok () → v = w) := by
  cases v <;> cases w <;> first
    | exact Bool.noConfusion h
    | exact (hv.1 _ rfl).elim
    | exact (hw.1 _ rfl).elim
    | exact (hv.2 _ rfl).elim
    | exact (hw.2 _ rfl).elim
    | exact ⟨rfl, fun _ => rfl⟩
    | (refine ⟨rfl, fun h => ?_⟩; cases h; done)
    | skip
  rename_i a b
  cases a <;> cases b <;> first | exact ⟨rfl, fun _ => rfl⟩ | (simp [Verif.pyEq] at h; done)

omit U S R in
theorem flags_eq {f g : FlagsObj} (h : f.pyEq g = true) (hf : ∀ v ∈ flagValues f, NoNumber v) (hg : ∀ v ∈ flagValues g, NoNumber v) :
    f.validate = g.validate ∧ f.toDict = g.toDict := by
  simp only [FlagsObj.pyEq, Bool.and_eq_true] at h
  simp only [flagValues, List.mem_cons, List.not_mem_nil, or_false, forall_eq_or_imp, forall_eq] at hf hg
  obtain ⟨⟨⟨⟨⟨h1, h2⟩, h3⟩, h4⟩, h5⟩, h6⟩ := h
  obtain ⟨f1, f2, f3, f4, f5, f6⟩ := hf
  obtain ⟨g1, g2, g3, g4, g5, g6⟩ := hg
  have hv : f.validate = g.validate := by
    simp only [FlagsObj.validate, FlagsObj.fields, checkFlags, (flag_eq h1 f1 g1).1, (flag_eq h2 f2 g2).1, (flag_eq h3 f3 g3).1,
      (flag_eq h4 f4 g4).1, (flag_eq h5 f5 g5).1, (flag_eq h6 f6 g6).1]
  refine ⟨hv, ?_⟩
  simp only [FlagsObj.toDict, hv]
  cases hg : g.validate with
  | error e => rfl
  | ok u =>
    rw [hg] at hv
    have hv : checkFlags f.fields = .ok () := hv
    simp only [FlagsObj.fields, checkFlags_iff, ← checkFlag_iff, List.mem_cons, List.not_mem_nil, or_false, forall_eq_or_imp,
      forall_eq] at hv
    obtain ⟨v1, v2, v3, v4, v5, v6⟩ := hv
    have : f.fields = g.fields := by
      simp only [FlagsObj.fields, (flag_eq h1 f1 g1).2 v1, (flag_eq h2 f2 g2).2 v2, (flag_eq h3 f3 g3).2 v3, (flag_eq h4 f4 g4).2 v4,
        (flag_eq h5 f5 g5).2 v5, (flag_eq h6 f6 g6).2 v6]
    rw [this]

omit U S R in
theorem requestFlags_eq {f g : Option FlagsObj} (h : optEq FlagsObj.pyEq f g = true) (hf : ∀ x, f = some x → ∀ v ∈ flagValues x, NoNumber v)
    (hg : ∀ x, g = some x → ∀ v ∈ flagValues x, NoNumber v) : validateFlags f = validateFlags g ∧ flagsDict f = flagsDict g := by
  cases f <;> cases g <;> first
    | exact ⟨rfl, rfl⟩
    | exact Bool.noConfusion h
    | exact flags_eq h (hf _ rfl) (hg _ rfl)

/-! ### Requests -/

omit U S R in
theorem checkName_eq {d e : Data} (h : d.pyEq e = true) : checkName d = checkName e ∧ (checkName d = .ok () → d = e) ∧
    checkParent d = checkParent e ∧ (checkParent d = .ok () → d = e) := by
  cases d <;> cases e <;> first
    | exact ⟨rfl, nofun, rfl, nofun⟩
    | (simp [Data.pyEq] at h; done)
    | skip
  rename_i v w
  simp only [Data.pyEq] at h
  cases v <;> cases w <;> first
    | exact Bool.noConfusion h
    | exact ⟨rfl, nofun, rfl, nofun⟩
    | skip
  simp only [Verif.pyEq, beq_iff_eq] at h
  subst h
  exact ⟨rfl, fun _ => rfl, rfl, fun _ => rfl⟩

omit U S R in
theorem checkTenants_eq {d e : Data} (h : d.pyEq e = true) : checkTenants d = checkTenants e := by
  cases d <;> cases e <;> first
    | rfl
    | (simp [Data.pyEq] at h; done)

/-- The fields are equal one by one. -/
structure RequestEq (a b : RequestObj) : Prop where
  dataset : a.dataset.pyEq b.dataset = true
  appId : a.appId.pyEq b.appId = true
  query : a.query.pyEq b.query = true
  flags : optEq FlagsObj.pyEq a.flags b.flags = true
  parentApi : a.parentApi.pyEq b.parentApi = true
  tenantIds : a.tenantIds.pyEq b.tenantIds = true

omit U S R in
theorem request_iff {a b : RequestObj} : a.pyEq b = true ↔ RequestEq a b := by
  simp only [RequestObj.pyEq, Bool.and_eq_true]
  exact ⟨fun ⟨⟨⟨⟨⟨h1, h2⟩, h3⟩, h4⟩, h5⟩, h6⟩ => ⟨h1, h2, h3, h4, h5, h6⟩, fun ⟨h1, h2, h3, h4, h5, h6⟩ => ⟨⟨⟨⟨⟨h1, h2⟩, h3⟩, h4⟩, h5⟩, h6⟩⟩

omit U S R in
theorem data_len {d e : Data} (h : d.pyEq e = true) : SomeValues d ↔ SomeValues e := by
  have hl : d.len = e.len := by
    cases d <;> cases e <;> first
      | (simp [Data.pyEq] at h; done)
      | skip
    · rename_i v w
      simp only [Data.pyEq] at h
      have seq : ∀ {xs ys : List Val}, pyEqList xs ys = true → xs.length = ys.length := by
        intro xs
        induction xs with
        | nil => intro ys h; cases ys <;> first | rfl | (simp [pyEqList] at h; done)
        | cons x xs ih =>
          intro ys h
          cases ys with
          | nil => simp [pyEqList] at h
          | cons y ys =>
            simp only [pyEqList, Bool.and_eq_true] at h
            simp [ih h.2]
      cases v <;> cases w <;> first
        | exact Bool.noConfusion h
        | rfl
        | (simp only [Verif.pyEq, beq_iff_eq] at h; simp only [Data.len, h]; done)
        | (simp only [Verif.pyEq] at h; simp only [Data.len, seq h]; done)
    · rename_i xs ys
      have seq : ∀ {xs ys : List Data}, dataEqAll xs ys = true → xs.length = ys.length := by
        intro xs
        induction xs with
        | nil => intro ys h; cases ys <;> first | rfl | (simp [dataEqAll] at h; done)
        | cons x xs ih =>
          intro ys h
          cases ys with
          | nil => simp [dataEqAll] at h
          | cons y ys =>
            simp only [dataEqAll, Bool.and_eq_true] at h
            simp [ih h.2]
      simp only [Data.pyEq] at h
      simp only [Data.len, seq h]
    · simp only [Data.pyEq, Bool.and_eq_true, beq_iff_eq] at h
      simp only [Data.len, h.1]
  constructor
  · intro hs
    obtain ⟨n, h1, h2⟩ := someValues_len hs
    exact (len_ok (hl ▸ h1)).1 h2
  · intro hs
    obtain ⟨n, h1, h2⟩ := someValues_len hs
    exact (len_ok (hl ▸ h1)).1 h2

omit U S R in
/-- Equal deletions are both valid, or neither is. -/
theorem delete_valid {a b : DeleteObj} (h : a.columnConditions.pyEq b.columnConditions = true) (ha : KeysOnce a.columnConditions)
    (hb : KeysOnce b.columnConditions) : a.validate = .ok () ↔ b.validate = .ok () := by
  rw [C45_validate_iff, C45_validate_iff]
  unfold DeleteOk
  constructor
  · rintro ⟨kvs, e, h1, h2⟩
    rw [e] at h ha
    revert h hb
    cases b.columnConditions with
    | dict kvs' =>
      intro hb h
      obtain ⟨m1, m2⟩ := dict_match h (ha _ (.self _))
      refine ⟨kvs', rfl, ?_, fun q hq => ?_⟩
      · rintro rfl
        obtain ⟨p, ps, rfl⟩ := List.exists_cons_of_ne_nil h1
        obtain ⟨q, hq, _⟩ := m1 p (by simp)
        cases hq
      · obtain ⟨p, hp, _, e⟩ := m2 (hb _ (.self _)) q hq
        exact (data_len e).1 (h2 p hp)
    | _ => intro _ h; simp [Data.pyEq] at h
  · rintro ⟨kvs, e, h1, h2⟩
    rw [e] at h hb
    revert h ha
    cases a.columnConditions with
    | dict kvs' =>
      intro ha h
      obtain ⟨m1, m2⟩ := dict_match h (ha _ (.self _))
      refine ⟨kvs', rfl, ?_, fun q hq => ?_⟩
      · rintro rfl
        obtain ⟨p, ps, rfl⟩ := List.exists_cons_of_ne_nil h1
        obtain ⟨q, hq, _⟩ := m2 (hb _ (.self _)) p (by simp)
        cases hq
      · obtain ⟨p, hp, _, e⟩ := m1 q hq
        exact (data_len e).2 (h2 p hp)
    | _ => intro _ h; simp [Data.pyEq] at h

omit R in
theorem query_valid {a b : AnyQuery} (h : a.pyEq b = true) (hc : Comparable a b) (ha : QueryKeyed a) (hb : QueryKeyed b) :
    (a.validate = .ok () ↔ b.validate = .ok ()) ∧ ((∀ d, a ≠ .delete d) → a.validate = b.validate) := by
  have key : a.validate = b.validate → (a.validate = .ok () ↔ b.validate = .ok ()) ∧ ((∀ d, a ≠ .delete d) → a.validate = b.validate) :=
    fun h => ⟨by rw [h], fun _ => h⟩
  cases a <;> cases b <;> first | exact Bool.noConfusion h | skip
  · obtain ⟨h1, h2, h3 | h3⟩ := hc
    · exact key (AlikeQuery.validate (m := true) (alikeQuery_of h (fun v hv => ⟨h1 v hv, h3.1 v hv⟩) fun v hv => ⟨h2 v hv, h3.2 v hv⟩))
    · exact key (AlikeQuery.validate (m := false) (alikeQuery_of h (fun v hv => ⟨h1 v hv, h3.1 v hv⟩) fun v hv => ⟨h2 v hv, h3.2 v hv⟩))
  · obtain ⟨h1, h2, h3 | h3⟩ := hc
    · exact key (AlikeQ.validate (m := true) (alikeQ_of h h1 h2 h3.1 h3.2))
    · exact key (AlikeQ.validate (m := false) (alikeQ_of h h1 h2 h3.1 h3.2))
  · simp only [AnyQuery.pyEq, DeleteObj.pyEq, Bool.and_eq_true] at h
    exact ⟨delete_valid h.2 ha.2 hb.2, fun hn => (hn _ rfl).elim⟩

/-- Equal requests that can be compared. -/
structure AlikeRequest (a b : RequestObj) : Prop where
  eq : RequestEq a b
  comparable : Comparable a.query b.query
  left : RequestKeyed a
  right : RequestKeyed b
  flags : FlagsApart a
  flags' : FlagsApart b

omit R in
theorem request_valid {a b : RequestObj} (h : AlikeRequest a b) :
    (a.validate = .ok () ↔ b.validate = .ok ()) ∧ ((∀ d, a.query ≠ .delete d) → a.validate = b.validate) := by
  have hq := query_valid h.eq.query h.comparable h.left.query h.right.query
  have hf := (requestFlags_eq h.eq.flags h.flags h.flags').1
  constructor
  · simp only [RequestObj.validate, bind_eq_ok, (checkName_eq h.eq.dataset).1, (checkName_eq h.eq.appId).1, (checkName_eq h.eq.parentApi).2.2.1,
      checkTenants_eq h.eq.tenantIds, hf]
    constructor
    · rintro ⟨_, h1, _, h2, _, h3, _, h4, _, h5, h6⟩
      exact ⟨_, h1, _, h2, _, h3, _, h4, (), hq.1.1 h5, h6⟩
    · rintro ⟨_, h1, _, h2, _, h3, _, h4, _, h5, h6⟩
      exact ⟨_, h1, _, h2, _, h3, _, h4, (), hq.1.2 h5, h6⟩
  · intro hn
    simp only [RequestObj.validate, (checkName_eq h.eq.dataset).1, (checkName_eq h.eq.appId).1, (checkName_eq h.eq.parentApi).2.2.1,
      checkTenants_eq h.eq.tenantIds, hf, hq.2 hn]

/-! ### Payloads -/

/-- Two dictionaries with the same keys in the same order, and related values. -/
def MatchedDicts (P : Str → Data → Data → Prop) : List (Str × Data) → List (Str × Data) → Prop
  | [], [] => True
  | (k, x) :: kvs, (k', y) :: kvs' => k = k' ∧ P k x y ∧ MatchedDicts P kvs kvs'
  | _, _ => False

omit U S R in
theorem MatchedDicts.keys {P : Str → Data → Data → Prop} : ∀ {kvs kvs' : List (Str × Data)}, MatchedDicts P kvs kvs' → kvs.map (·.1) = kvs'.map (·.1)
  | [], [], _ => rfl
  | [], _ :: _, h => h.elim
  | _ :: _, [], h => h.elim
  | (k, x) :: kvs, (k', y) :: kvs', ⟨h1, _, h2⟩ => by simp [h1, MatchedDicts.keys h2]

omit U S R in
theorem MatchedDicts.lookup {P : Str → Data → Data → Prop} {k : Str} : ∀ {kvs kvs' : List (Str × Data)}, MatchedDicts P kvs kvs' → ∀ {x y},
    kvs.lookup k = some x → kvs'.lookup k = some y → P k x y
  | [], [], _, _, _, h, _ => by simp at h
  | [], _ :: _, h, _, _, _, _ => h.elim
  | _ :: _, [], h, _, _, _, _ => h.elim
  | (j, x) :: kvs, (j', y) :: kvs', ⟨h1, h2, h3⟩, _, _, hx, hy => by
    subst h1
    simp only [List.lookup] at hx hy
    by_cases e : k = j
    · subst e
      simp only [beq_self_eq_true, Option.some.injEq] at hx hy
      subst hx; subst hy; exact h2
    · simp only [beq_eq_false_iff_ne.2 e] at hx hy
      exact MatchedDicts.lookup h3 hx hy

omit U S R in
theorem MatchedDicts.append {P : Str → Data → Data → Prop} : ∀ {as bs cs ds : List (Str × Data)}, MatchedDicts P as bs → MatchedDicts P cs ds →
    MatchedDicts P (as ++ cs) (bs ++ ds)
  | [], [], _, _, _, h => h
  | [], _ :: _, _, _, h, _ => h.elim
  | _ :: _, [], _, _, h, _ => h.elim
  | (_, _) :: _, (_, _) :: _, _, _, ⟨h1, h2, h3⟩, h => ⟨h1, h2, MatchedDicts.append h3 h⟩

omit U S R in
theorem MatchedDicts.self {P : Str → Data → Data → Prop} : ∀ {as : List (Str × Data)}, (∀ p ∈ as, P p.1 p.2 p.2) → MatchedDicts P as as
  | [], _ => trivial
  | _ :: _, h => ⟨rfl, h _ (by simp), MatchedDicts.self fun p hp => h p (by simp [hp])⟩

omit U S R in
theorem MatchedDicts.json {P : Str → Data → Data → Prop} (hP : ∀ k x y, P k x y → (Jsonable x ↔ Jsonable y)) : ∀ {as bs : List (Str × Data)},
    MatchedDicts P as bs → ((∀ p ∈ as, Jsonable p.2) ↔ ∀ p ∈ bs, Jsonable p.2)
  | [], [], _ => by simp
  | [], _ :: _, h => h.elim
  | _ :: _, [], h => h.elim
  | (_, _) :: _, (_, _) :: _, ⟨_, h2, h3⟩ => by
    simp only [List.mem_cons, forall_eq_or_imp]
    rw [hP _ _ _ h2, MatchedDicts.json hP h3]

/-- Entries of payloads that say the same. -/
def SameEntry (k : Str) (x y : Data) : Prop :=
  (k ≠ c!"mql_context" → x.pyEq y = true) ∧
  (k = c!"mql_context" → ∃ c c', readContext x = some c ∧ readContext y = some c' ∧ SameContext c c') ∧ (Jsonable x ↔ Jsonable y)

/-- Payloads that say the same. -/
def SameDicts (d e : Data) : Prop := ∃ kvs kvs', d = .dict kvs ∧ e = .dict kvs' ∧ SamePayload kvs kvs' ∧ (Jsonable d ↔ Jsonable e)

omit U S R in
theorem sameDicts_of {kvs kvs' : List (Str × Data)} (h : MatchedDicts SameEntry kvs kvs') : SameDicts (.dict kvs) (.dict kvs') := by
  refine ⟨kvs, kvs', rfl, rfl, ⟨h.keys, fun k x y hk hx hy => (h.lookup hx hy).1 hk, fun x y hx hy => (h.lookup hx hy).2.1 rfl⟩, ?_⟩
  rw [jsonable_dict, jsonable_dict]
  exact h.json fun _ _ _ h => h.2.2

omit U S R in
theorem sameEntry_of {k : Str} {x y : Data} (hk : k ≠ c!"mql_context") (h : x.pyEq y = true) (hx : KeysOnce x) (hy : KeysOnce y) :
    SameEntry k x y := ⟨fun _ => h, fun e => (hk e).elim, data_json x y hx hy h⟩

omit U S R in
theorem keysOnce_val (v : Val) : KeysOnce (.val v) := by intro kvs h; cases h

theorem build_same {a b : RequestObj} (h : AlikeRequest a b) (va : a.validate = .ok ()) {flags : List (Str × Data)}
    (hf : flagsDict a.flags = .ok flags) :
    Agree SameDicts (a.build flags).1 (b.build flags).1 ∧ (a.build flags).2.pyEq (b.build flags).2 = true := by
  have vb := (request_valid h).1.1 va
  obtain ⟨f1, f2, f3⟩ := flagsDict_spec hf
  have mf : MatchedDicts SameEntry flags flags := MatchedDicts.self fun p hp => by
    obtain ⟨f, b, _, _, e⟩ := (f1 p.1 p.2).1 hp
    rw [e]
    refine sameEntry_of ?_ (by simp [Data.pyEq, Verif.pyEq]) (keysOnce_val _) (keysOnce_val _)
    intro e
    exact f3 p.1 (List.mem_map.2 ⟨p, hp, rfl⟩) (by rw [e]; decide)
  have e1 := h.eq.dataset
  have e2 := h.eq.appId
  have e3 := h.eq.parentApi
  have e4 := h.eq.tenantIds
  have ka := h.left.fields
  have kb := h.right.fields
  simp only [otherFields, List.mem_cons, List.not_mem_nil, or_false, forall_eq_or_imp, forall_eq] at ka kb
  have mt : SameEntry c!"tenant_ids" a.tenantIds b.tenantIds := sameEntry_of (by decide) e4 ka.2.2.2 kb.2.2.2
  have ma : SameEntry c!"app_id" a.appId b.appId := sameEntry_of (by decide) e2 ka.2.1 kb.2.1
  have mp : SameEntry c!"parent_api" a.parentApi b.parentApi := sameEntry_of (by decide) e3 ka.2.2.1 kb.2.2.1
  have md : SameEntry c!"dataset" a.dataset b.dataset := sameEntry_of (by decide) e1 ka.1 kb.1
  have mq : ∀ t : Str, SameEntry c!"query" (.val (.str t)) (.val (.str t)) := fun t =>
    sameEntry_of (by decide) (by simp [Data.pyEq, Verif.pyEq]) (keysOnce_val _) (keysOnce_val _)
  have mall : ∀ t, MatchedDicts SameEntry (flags ++ plainEntries a t) (flags ++ plainEntries b t) := fun t =>
    mf.append ⟨rfl, mq t, rfl, md, rfl, ma, rfl, mt, rfl, mp, trivial⟩
  have hq := h.eq.query
  have hc := h.comparable
  have kq := h.left.query
  have kr := h.right.query
  have va' : a.query.validate = .ok () := ((C44_validate_iff a).1 va).query
  have vb' : b.query.validate = .ok () := ((C44_validate_iff b).1 vb).query
  unfold RequestObj.build
  cases ea : a.query with
  | snql q =>
    cases eb : b.query <;> rw [ea, eb] at hq hc <;> first | exact Bool.noConfusion hq | skip
    rename_i r
    have hs : q.serialize = r.serialize := by
      obtain ⟨h1, h2, h3 | h3⟩ := hc
      · exact AlikeQuery.serialize (m := true) (alikeQuery_of hq (fun v hv => ⟨h1 v hv, h3.1 v hv⟩) fun v hv => ⟨h2 v hv, h3.2 v hv⟩)
      · exact AlikeQuery.serialize (m := false) (alikeQuery_of hq (fun v hv => ⟨h1 v hv, h3.1 v hv⟩) fun v hv => ⟨h2 v hv, h3.2 v hv⟩)
    simp only [hs]
    cases r.serialize with
    | error e => exact ⟨rfl, request_iff.2 h.eq⟩
    | ok t =>
      refine ⟨?_, request_iff.2 h.eq⟩
      show SameDicts _ _
      rw [dict_eq f2 f3, dict_eq f2 f3]
      exact sameDicts_of (mall t)
  | metrics q =>
    cases eb : b.query <;> rw [ea, eb] at hq hc <;> first | exact Bool.noConfusion hq | skip
    rename_i r
    rw [ea] at kq
    rw [eb] at kr
    have hs : Agree SameSent q.serialize.1 r.serialize.1 ∧ q.serialize.2.pyEq r.serialize.2 = true := by
      obtain ⟨h1, h2, h3 | h3⟩ := hc
      · exact serialize_same (m := true) (alikeQ_of hq h1 h2 h3.1 h3.2)
      · exact serialize_same (m := false) (alikeQ_of hq h1 h2 h3.1 h3.2)
    have hj := fun d e => serialize_json (q := q) (r := r) (d := d) (e := e) hq (kq _ (by simp [fieldsOf])) (kr _ (by simp [fieldsOf]))
    have after : ∀ q' r' : MetricsQueryObj, q'.pyEq r' = true →
        ({ a with query := .metrics q' } : RequestObj).pyEq { b with query := .metrics r' } = true := fun q' r' hqr =>
      request_iff.2 ⟨e1, e2, hqr, h.eq.flags, e3, e4⟩
    simp only
    revert hs hj
    rcases q.serialize with ⟨x, q'⟩
    rcases r.serialize with ⟨y, r'⟩
    rintro ⟨h1, h2⟩ hj
    simp only at h1 h2 hj
    cases x with
    | error e =>
      cases y with
      | error e' => exact ⟨h1, after _ _ h2⟩
      | ok y => exact h1.elim
    | ok x =>
      cases y with
      | error e' => exact h1.elim
      | ok y =>
        refine ⟨?_, after _ _ h2⟩
        have hj := hj x y rfl rfl
        obtain ⟨text, u, v, c, c', rfl, rfl, hc, hc', hs⟩ := h1
        have hu : u ≠ .val .none := by rintro rfl; cases hc
        have hv : v ≠ .val .none := by rintro rfl; cases hc'
        have ht : ∀ s : Str, Jsonable (.val (.str s)) := fun s => ⟨_, rfl⟩
        simp only [jsonable_dict, List.mem_cons, List.not_mem_nil, or_false, forall_eq_or_imp, forall_eq, ht, true_and] at hj
        have hsplit : ∀ w, splitMql (.dict [(c!"mql", .val (.str text)), (c!"mql_context", w)]) = .ok (w, text) := fun w => rfl
        simp only [RequestObj.metricsDict, hsplit, ok_bind]
        show SameDicts _ _
        rw [context_eq hu f2 f3, context_eq hv f2 f3, ← List.append_assoc, ← List.append_assoc]
        exact sameDicts_of ((mall text).append ⟨rfl, ⟨fun hn => (hn rfl).elim, fun _ => ⟨c, c', hc, hc', hs⟩, hj⟩, trivial⟩)
  | delete q =>
    cases eb : b.query <;> rw [ea, eb] at hq hc <;> first | exact Bool.noConfusion hq | skip
    rename_i r
    rw [ea] at kq va'
    rw [eb] at kr vb'
    have va' : q.validate = .ok () := va'
    have vb' : r.validate = .ok () := vb'
    simp only [DeleteObj.serialize, va', vb', ok_bind]
    refine ⟨?_, request_iff.2 h.eq⟩
    show SameDicts _ _
    rw [deletion_eq f2 f3, deletion_eq f2 f3]
    have hcols : (Data.dict [(c!"columns", q.columnConditions)]).pyEq (.dict [(c!"columns", r.columnConditions)]) = true := by
      simp only [AnyQuery.pyEq, DeleteObj.pyEq, Bool.and_eq_true] at hq
      simp [Data.pyEq, dictWithin, hq.2]
    have once : ∀ {d : Data}, KeysOnce d → KeysOnce (.dict [(c!"columns", d)]) := by
      intro d hd kvs hk
      cases hk with
      | self => simp
      | entry _ _ _ _ hx hv =>
        simp only [List.mem_cons, List.not_mem_nil, or_false, Prod.mk.injEq] at hx
        obtain ⟨_, rfl⟩ := hx
        exact hd _ hv
    exact sameDicts_of (mf.append ⟨rfl, sameEntry_of (by decide) hcols (once kq.2) (once kr.2), rfl, ma, rfl, mt, rfl, mp, trivial⟩)

theorem toDict_same {a b : RequestObj} (h : AlikeRequest a b) :
    ((∃ d, a.toDict.1 = .ok d) ↔ ∃ d, b.toDict.1 = .ok d) ∧ (∀ d e, a.toDict.1 = .ok d → b.toDict.1 = .ok e → SameDicts d e) ∧
    ((∀ d, a.query ≠ .delete d) → ∀ e, a.toDict.1 = .error e ↔ b.toDict.1 = .error e) ∧ a.toDict.2.pyEq b.toDict.2 = true := by
  obtain ⟨h1, h2⟩ := request_valid h
  have hf := (requestFlags_eq h.eq.flags h.flags h.flags').2
  simp only [RequestObj.toDict]
  cases va : a.validate with
  | error x =>
    cases vb : b.validate with
    | error y =>
      refine ⟨by simp, by simp, fun hn e => ?_, request_iff.2 h.eq⟩
      rw [va, vb] at h2
      rw [h2 hn]
    | ok u => rw [va, vb] at h1; exact absurd (h1.2 rfl) (by simp)
  | ok u =>
    have vb := h1.1 va
    simp only [vb, ← hf]
    cases hx : flagsDict a.flags with
    | error e => exact ⟨Iff.rfl, by simp, fun _ _ => Iff.rfl, request_iff.2 h.eq⟩
    | ok flags =>
      obtain ⟨h3, h4⟩ := build_same h va hx
      simp only
      revert h3
      cases (a.build flags).1 <;> cases (b.build flags).1 <;> intro h3
      · have h3 : _ = _ := h3
        subst h3
        exact ⟨Iff.rfl, by simp, fun _ _ => Iff.rfl, h4⟩
      · exact h3.elim
      · exact h3.elim
      · exact ⟨⟨fun _ => ⟨_, rfl⟩, fun _ => ⟨_, rfl⟩⟩, fun d e hd he => (by cases hd; cases he; exact h3), fun _ e => (by simp), h4⟩

end

end Verif
