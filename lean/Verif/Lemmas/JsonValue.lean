import Verif.Lemmas.Json

/-!
# Lemmas: the values that are encoded, and their sorted form
-/

namespace Verif
open Spec

theorem zip_cons_all {α β : Type} {P : α × β → Prop} {x : α} {y : β} {xs : List α} {ys : List β} :
    (∀ p ∈ (x :: xs).zip (y :: ys), P p) ↔ P (x, y) ∧ ∀ p ∈ xs.zip ys, P p := by
  simp only [List.zip_cons_cons, List.mem_cons, forall_eq_or_imp]

mutual
theorem Val.toJson_iff : ∀ (v : Val) (j : Json), v.toJson = .ok j ↔ ValueOf v j
  | .none, j => by
    simp only [Val.toJson, Except.ok.injEq]
    exact ⟨fun h => h ▸ .none, fun h => by cases h; rfl⟩
  | .bool b, j => by
    simp only [Val.toJson, Except.ok.injEq]
    exact ⟨fun h => h ▸ .bool b, fun h => by cases h; rfl⟩
  | .int b, j => by
    simp only [Val.toJson, Except.ok.injEq]
    exact ⟨fun h => h ▸ .int b, fun h => by cases h; rfl⟩
  | .float b, j => by
    simp only [Val.toJson, Except.ok.injEq]
    exact ⟨fun h => h ▸ .float b, fun h => by cases h; rfl⟩
  | .str b, j => by
    simp only [Val.toJson, Except.ok.injEq]
    exact ⟨fun h => h ▸ .str b, fun h => by cases h; rfl⟩
  | .list xs, j => by
    simp only [Val.toJson, bind_eq_ok, Except.ok.injEq]
    constructor
    · rintro ⟨js, h, rfl⟩
      have := (toJsonVals_iff xs js).mp h
      exact .list xs js this.1 this.2
    · rintro (_ | _ | _ | _ | _ | ⟨_, js, h1, h2⟩)
      exact ⟨js, (toJsonVals_iff xs js).mpr ⟨h1, h2⟩, rfl⟩
  | .tuple xs, j => by
    simp only [Val.toJson, bind_eq_ok, Except.ok.injEq]
    constructor
    · rintro ⟨js, h, rfl⟩
      have := (toJsonVals_iff xs js).mp h
      exact .tuple xs js this.1 this.2
    · rintro (_ | _ | _ | _ | _ | _ | ⟨_, js, h1, h2⟩)
      exact ⟨js, (toJsonVals_iff xs js).mpr ⟨h1, h2⟩, rfl⟩
  | .bytes _, j | .date _, j | .datetime _, j | .column _, j | .curried .., j | .ident _, j => by
    constructor <;> intro h <;> cases h
  | .lam .., j | .aliased .., j | .cond .., j | .boolCond .., j => by
    constructor <;> intro h <;> cases h
  | .orderby .., j | .limitby .., j | .limit _, j | .offset _, j | .granularity _, j | .totals _, j | .extrapolate _, j => by
    constructor <;> intro h <;> cases h
  | .entity _, j | .storage _, j | .rel _, j | .join .., j | .op _, j | .boolOp _, j | .direction _, j | .dataModel _, j |
    .other _, j => by
    constructor <;> intro h <;> cases h

theorem toJsonVals_iff : ∀ (xs : List Val) (js : List Json),
    toJsonVals xs = .ok js ↔ xs.length = js.length ∧ ∀ p ∈ xs.zip js, ValueOf p.1 p.2
  | [], js => by
    cases js <;> simp [toJsonVals]
  | x :: xs, js => by
    simp only [toJsonVals, bind_eq_ok, Except.ok.injEq]
    cases js with
    | nil => simp
    | cons j js =>
      rw [zip_cons_all]
      constructor
      · rintro ⟨j', hj, js', hjs, h⟩
        injection h with h1 h2
        subst h1 h2
        have := (toJsonVals_iff xs js').mp hjs
        exact ⟨by simp [this.1], (Val.toJson_iff x j').mp hj, this.2⟩
      · rintro ⟨hl, h1, h2⟩
        exact ⟨j, (Val.toJson_iff x j).mpr h1, js, (toJsonVals_iff xs js).mpr ⟨by simpa using hl, h2⟩, rfl⟩
end

mutual
theorem Val.toJson_error : ∀ (v : Val) {e : Err}, v.toJson = .error e → e = .typeError
  | .list xs, e, h => by
    simp only [Val.toJson, bind_eq_error] at h
    rcases h with h | ⟨_, _, h⟩
    · exact toJsonVals_error xs h
    · cases h
  | .tuple xs, e, h => by
    simp only [Val.toJson, bind_eq_error] at h
    rcases h with h | ⟨_, _, h⟩
    · exact toJsonVals_error xs h
    · cases h
  | .none, e, h | .bool _, e, h | .int _, e, h | .float _, e, h | .str _, e, h => by cases h
  | .bytes _, e, h | .date _, e, h | .datetime _, e, h | .column _, e, h | .aliased .., e, h | .ident _, e, h | .lam .., e, h | .curried .., e, h
  | .cond .., e, h | .boolCond .., e, h | .orderby .., e, h | .limitby .., e, h | .limit _, e, h | .offset _, e, h | .granularity _, e, h
  | .totals _, e, h | .extrapolate _, e, h | .entity _, e, h | .storage _, e, h | .rel _, e, h | .join .., e, h | .op _, e, h | .boolOp _, e, h
  | .direction _, e, h | .dataModel _, e, h | .other _, e, h => by cases h; rfl

theorem toJsonVals_error : ∀ (xs : List Val) {e : Err}, toJsonVals xs = .error e → e = .typeError
  | [], e, h => by cases h
  | x :: xs, e, h => by
    simp only [toJsonVals, bind_eq_error] at h
    rcases h with h | ⟨_, _, h | ⟨_, _, h⟩⟩
    · exact Val.toJson_error x h
    · exact toJsonVals_error xs h
    · cases h
end

mutual
theorem Data.toJson_error : ∀ (d : Data) {e : Err}, d.toJson = .error e → e = .typeError
  | .val v, e, h => Val.toJson_error v h
  | .list xs, e, h => by
    simp only [Data.toJson, bind_eq_error] at h
    rcases h with h | ⟨_, _, h⟩
    · exact toJsonList_error xs h
    · cases h
  | .dict kvs, e, h => by
    simp only [Data.toJson, bind_eq_error] at h
    rcases h with h | ⟨_, _, h⟩
    · exact toJsonEntries_error kvs h
    · cases h

theorem toJsonList_error : ∀ (xs : List Data) {e : Err}, toJsonList xs = .error e → e = .typeError
  | [], e, h => by cases h
  | x :: xs, e, h => by
    simp only [toJsonList, bind_eq_error] at h
    rcases h with h | ⟨_, _, h | ⟨_, _, h⟩⟩
    · exact Data.toJson_error x h
    · exact toJsonList_error xs h
    · cases h

theorem toJsonEntries_error : ∀ (kvs : List (Str × Data)) {e : Err}, toJsonEntries kvs = .error e → e = .typeError
  | [], e, h => by cases h
  | (k, x) :: xs, e, h => by
    simp only [toJsonEntries, bind_eq_error] at h
    rcases h with h | ⟨_, _, h | ⟨_, _, h⟩⟩
    · exact Data.toJson_error x h
    · exact toJsonEntries_error xs h
    · cases h
end

mutual
theorem Data.toJson_iff : ∀ (d : Data) (j : Json), d.toJson = .ok j ↔ StandsFor d j
  | .val v, j => by
    rw [Data.toJson, Val.toJson_iff]
    exact ⟨.val v j, fun h => by cases h; assumption⟩
  | .list xs, j => by
    simp only [Data.toJson, bind_eq_ok, Except.ok.injEq]
    constructor
    · rintro ⟨js, h, rfl⟩
      have := (toJsonList_iff xs js).mp h
      exact .list xs js this.1 this.2
    · rintro (_ | ⟨_, js, h1, h2⟩)
      exact ⟨js, (toJsonList_iff xs js).mpr ⟨h1, h2⟩, rfl⟩
  | .dict kvs, j => by
    simp only [Data.toJson, bind_eq_ok, Except.ok.injEq]
    constructor
    · rintro ⟨js, h, rfl⟩
      have := (toJsonEntries_iff kvs js).mp h
      exact .dict kvs js this.1 this.2
    · rintro (_ | _ | ⟨_, js, h1, h2⟩)
      exact ⟨js, (toJsonEntries_iff kvs js).mpr ⟨h1, h2⟩, rfl⟩

theorem toJsonList_iff : ∀ (xs : List Data) (js : List Json),
    toJsonList xs = .ok js ↔ xs.length = js.length ∧ ∀ p ∈ xs.zip js, StandsFor p.1 p.2
  | [], js => by
    cases js <;> simp [toJsonList]
  | x :: xs, js => by
    simp only [toJsonList, bind_eq_ok, Except.ok.injEq]
    cases js with
    | nil => simp
    | cons j js =>
      rw [zip_cons_all]
      constructor
      · rintro ⟨j', hj, js', hjs, h⟩
        injection h with h1 h2
        subst h1 h2
        have := (toJsonList_iff xs js').mp hjs
        exact ⟨by simp [this.1], (Data.toJson_iff x j').mp hj, this.2⟩
      · rintro ⟨hl, h1, h2⟩
        exact ⟨j, (Data.toJson_iff x j).mpr h1, js, (toJsonList_iff xs js).mpr ⟨by simpa using hl, h2⟩, rfl⟩

theorem toJsonEntries_iff : ∀ (kvs : List (Str × Data)) (js : List (Str × Json)),
    toJsonEntries kvs = .ok js ↔ kvs.map (·.1) = js.map (·.1) ∧ ∀ p ∈ kvs.zip js, StandsFor p.1.2 p.2.2
  | [], js => by
    cases js <;> simp [toJsonEntries]
  | (k, x) :: xs, js => by
    simp only [toJsonEntries, bind_eq_ok, Except.ok.injEq]
    cases js with
    | nil => simp
    | cons j js =>
      rw [zip_cons_all]
      constructor
      · rintro ⟨j', hj, js', hjs, h⟩
        injection h with h1 h2
        subst h1 h2
        have := (toJsonEntries_iff xs js').mp hjs
        exact ⟨by simp [this.1], (Data.toJson_iff x j').mp hj, this.2⟩
      · rintro ⟨hl, h1, h2⟩
        obtain ⟨k', j⟩ := j
        simp only [List.map_cons, List.cons.injEq] at hl
        obtain ⟨rfl, hl⟩ := hl
        exact ⟨j, (Data.toJson_iff x j).mpr h1, js, (toJsonEntries_iff xs js).mpr ⟨hl, h2⟩, rfl⟩
end

/-! ### Sorted entries -/

theorem strLt_iff : ∀ a b : Str, strLt a b = true ↔ a.map Char.toNat < b.map Char.toNat
  | a, [] => by cases a <;> simp [strLt]
  | [], b :: bs => by simp [strLt]
  | a :: as, b :: bs => by
    rw [strLt, List.map_cons, List.map_cons, List.cons_lt_cons_iff]
    split
    · rename_i h
      subst h
      rw [strLt_iff as bs]
      simp
    · rename_i h
      have : a.toNat ≠ b.toNat := fun e => h (by rw [← Char.ofNat_toNat a, e, Char.ofNat_toNat])
      simp [this]

theorem insertEntry_perm (k : Str) (j : Json) (kvs : List (Str × Json)) : ((k, j) :: kvs).Perm (insertEntry k j kvs) := by
  induction kvs with
  | nil => exact .refl _
  | cons x xs ih =>
    obtain ⟨k', j'⟩ := x
    unfold insertEntry
    split
    · exact (List.Perm.swap ..).trans (ih.cons _)
    · exact .refl _

theorem insertEntry_sorted (k : Str) (j : Json) (kvs : List (Str × Json)) (h : KeysSorted kvs) : KeysSorted (insertEntry k j kvs) := by
  induction kvs with
  | nil => simp [insertEntry, KeysSorted]
  | cons x xs ih =>
    obtain ⟨k', j'⟩ := x
    unfold KeysSorted at h ih ⊢
    rw [List.pairwise_cons] at h
    unfold insertEntry
    split
    · rename_i hlt
      rw [strLt_iff] at hlt
      rw [List.pairwise_cons]
      refine ⟨?_, ih h.2⟩
      intro p hp
      have := (insertEntry_perm k j xs).mem_iff.mpr hp
      rcases List.mem_cons.mp this with rfl | hp
      · exact List.lt_asymm hlt
      · exact h.1 p hp
    · rename_i hlt
      rw [strLt_iff] at hlt
      rw [List.pairwise_cons, List.pairwise_cons]
      refine ⟨?_, h⟩
      intro p hp
      rcases List.mem_cons.mp hp with rfl | hp
      · exact hlt
      · have h1 := h.1 p hp
        rw [List.not_lt] at hlt h1 ⊢
        exact List.le_trans hlt h1

mutual
theorem Json.sorted_spec : ∀ j : Json, Sorted j j.sorted
  | .null => .null
  | .bool b => .bool b
  | .int i => .int i
  | .float f => .float f
  | .str s => .str s
  | .arr xs => by
    have := sortedList_spec xs
    rw [Json.sorted]
    exact .arr _ _ this.1 this.2
  | .obj kvs => by
    obtain ⟨ms, h1, h2, h3, h4⟩ := sortedEntries_spec kvs
    rw [Json.sorted]
    exact .obj _ ms _ h1 h2 h3 h4

theorem sortedList_spec : ∀ xs : List Json, xs.length = (sortedList xs).length ∧ ∀ p ∈ xs.zip (sortedList xs), Sorted p.1 p.2
  | [] => by simp [sortedList]
  | x :: xs => by
    have := sortedList_spec xs
    rw [sortedList, zip_cons_all]
    exact ⟨by simp [← this.1], Json.sorted_spec x, this.2⟩

theorem sortedEntries_spec : ∀ kvs : List (Str × Json), ∃ ms : List (Str × Json), kvs.map (·.1) = ms.map (·.1) ∧
    (∀ p ∈ kvs.zip ms, Sorted p.1.2 p.2.2) ∧ ms.Perm (sortedEntries kvs) ∧ KeysSorted (sortedEntries kvs)
  | [] => ⟨[], rfl, by simp, .refl _, by simp [sortedEntries, KeysSorted]⟩
  | (k, x) :: xs => by
    obtain ⟨ms, h1, h2, h3, h4⟩ := sortedEntries_spec xs
    refine ⟨(k, x.sorted) :: ms, by simp [h1], ?_, ?_, ?_⟩
    · rw [zip_cons_all]
      exact ⟨Json.sorted_spec x, h2⟩
    · rw [sortedEntries]
      exact (h3.cons _).trans (insertEntry_perm ..)
    · rw [sortedEntries]
      exact insertEntry_sorted _ _ _ h4
end

/-- Sorting introduces no numbers. -/
theorem Spec.Finite.sorted {j : Json} (h : Finite j) : Finite j.sorted := by
  have hl : ∀ xs : List Json, (∀ x ∈ xs, Finite x.sorted) → ∀ x ∈ sortedList xs, Finite x := by
    intro xs
    induction xs with
    | nil => intro _ x hx; cases hx
    | cons y ys ih =>
      intro h x hx
      rw [sortedList] at hx
      rcases List.mem_cons.mp hx with rfl | hx
      · exact h y (List.mem_cons_self ..)
      · exact ih (fun z hz => h z (List.mem_cons_of_mem _ hz)) x hx
  have he : ∀ xs : List (Str × Json), (∀ x ∈ xs, Finite x.2.sorted) → ∀ x ∈ sortedEntries xs, Finite x.2 := by
    intro xs
    induction xs with
    | nil => intro _ x hx; cases hx
    | cons y ys ih =>
      obtain ⟨k, y⟩ := y
      intro h x hx
      rw [sortedEntries] at hx
      rcases List.mem_cons.mp ((insertEntry_perm k y.sorted (sortedEntries ys)).mem_iff.mpr hx) with rfl | hx
      · exact h (k, y) (List.mem_cons_self ..)
      · exact ih (fun z hz => h z (List.mem_cons_of_mem _ hz)) x hx
  induction h with
  | null => exact .null
  | bool b => exact .bool b
  | int i => exact .int i
  | float d => exact .float d
  | str s => exact .str s
  | arr xs _ ih => rw [Json.sorted]; exact .arr _ (hl xs ih)
  | obj kvs _ ih => rw [Json.sorted]; exact .obj _ (he kvs ih)

end Verif
