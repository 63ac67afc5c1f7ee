import Verif.Spec.Deletion

/-!
# Lemmas: deletions
-/

namespace Verif
open Spec

theorem zip_left {α β : Type} : ∀ {xs : List α} {ys : List β} {x : α}, xs.length = ys.length → x ∈ xs → ∃ y, (x, y) ∈ xs.zip ys
  | [], _, _, _, h => by cases h
  | a :: xs, [], _, h, _ => by simp at h
  | a :: xs, b :: ys, x, h, hx => by
    rcases List.mem_cons.1 hx with rfl | hx
    · exact ⟨b, by simp⟩
    · obtain ⟨y, hy⟩ := zip_left (Nat.succ.inj h) hx
      exact ⟨y, by simp [hy]⟩

theorem zip_right {α β : Type} : ∀ {xs : List α} {ys : List β} {y : β}, xs.length = ys.length → y ∈ ys → ∃ x, (x, y) ∈ xs.zip ys
  | _, [], _, _, h => by cases h
  | [], b :: ys, _, h, _ => by simp at h
  | a :: xs, b :: ys, y, h, hy => by
    rcases List.mem_cons.1 hy with rfl | hy
    · exact ⟨a, by simp⟩
    · obtain ⟨x, hx⟩ := zip_right (Nat.succ.inj h) hy
      exact ⟨x, by simp [hx]⟩

theorem data_values : ∀ {ds : List Data} {xs : List Val} {js : List Json}, (∀ p ∈ ds.zip xs, p.1 = .val p.2) → ds.length = xs.length →
    (∀ p ∈ ds.zip js, StandsFor p.1 p.2) → ds.length = js.length → ∀ p ∈ xs.zip js, ValueOf p.1 p.2
  | [], xs, js, _, hn, _, h1, p, hp => by
    obtain rfl : xs = [] := List.eq_nil_of_length_eq_zero hn.symm
    simp at hp
  | d :: ds, x :: xs, j :: js, he, hn, h2, h1, p, hp => by
    simp only [List.zip_cons_cons, List.mem_cons] at hp he h2
    rcases hp with rfl | hp
    · have e := he (d, x) (.inl rfl)
      have s := h2 (d, j) (.inl rfl)
      simp only at e s
      subst e
      cases s with
      | val _ _ h => exact h
    · exact data_values (fun p h => he p (.inr h)) (Nat.succ.inj hn) (fun p h => h2 p (.inr h)) (Nat.succ.inj h1) p hp
  | _ :: _, [], _, _, hn, _, _, _, _ => by simp at hn
  | _ :: _, _ :: _, [], _, _, _, h1, _, _ => by simp at h1

/-- A sequence is sent as an array of the same values. -/
theorem lists_array {d : Data} {xs : List Val} {j : Json} (hl : Lists d xs) (hs : StandsFor d j) :
    ∃ js, j = .arr js ∧ xs.length = js.length ∧ ∀ p ∈ xs.zip js, ValueOf p.1 p.2 := by
  cases hl with
  | list _ => cases hs with | val _ _ h => cases h with | list _ js h1 h2 => exact ⟨js, rfl, h1, h2⟩
  | tuple _ => cases hs with | val _ _ h => cases h with | tuple _ js h1 h2 => exact ⟨js, rfl, h1, h2⟩
  | data ds _ hn he =>
    cases hs with
    | list _ js h1 h2 => exact ⟨js, rfl, hn ▸ h1, data_values he hn h2 h1⟩

theorem zip_keys {α β : Type} : ∀ {kvs : List (Str × α)} {js : List (Str × β)}, kvs.map (·.1) = js.map (·.1) → ∀ p ∈ kvs.zip js, p.1.1 = p.2.1
  | [], _, _, p, hp => by simp at hp
  | _ :: _, [], hk, _, _ => by simp at hk
  | a :: kvs, b :: js, hk, p, hp => by
    simp only [List.map_cons, List.cons.injEq] at hk
    rcases List.mem_cons.1 hp with rfl | hp
    · exact hk.1
    · exact zip_keys hk.2 p hp

/-- One of the values of a condition is found in the array that was sent. -/
theorem lists_found {D : Type} {asked : D → Val → Prop} {found : D → Json → Prop} (ha : SameValues asked found) {d : Data} {j : Json}
    (hl : ∃ xs, Lists d xs) (hs : StandsFor d j) (c : D) :
    (∃ js x, j = .arr js ∧ x ∈ js ∧ found c x) ↔ ∃ xs x, Lists d xs ∧ x ∈ xs ∧ asked c x := by
  constructor
  · rintro ⟨js, x, rfl, hx, hf⟩
    obtain ⟨xs, hl⟩ := hl
    obtain ⟨js', e, h1, h2⟩ := lists_array hl hs
    cases e
    obtain ⟨v, hv⟩ := zip_right h1 hx
    exact ⟨xs, v, hl, (List.of_mem_zip hv).1, (ha c v x (h2 _ hv)).1 hf⟩
  · rintro ⟨xs, v, hl, hx, hf⟩
    obtain ⟨js, rfl, h1, h2⟩ := lists_array hl hs
    obtain ⟨x, hv⟩ := zip_left h1 hx
    exact ⟨js, x, rfl, (List.of_mem_zip hv).2, (ha c v x (h2 _ hv)).2 hf⟩

/-- The rows that the recipient deletes are those asked for. -/
theorem deletes_iff {D : Type} {asked : D → Val → Prop} {found : D → Json → Prop} (ha : SameValues asked found) {d : DeleteObj} {j : Json}
    (hl : AllLists d) (hs : StandsFor d.columnConditions j) (row : Str → D) : Deletes found row j ↔ AsksFor asked row d := by
  obtain ⟨kvs, hd, hl⟩ := hl
  rw [hd] at hs
  cases hs with
  | dict _ js hk hs =>
    have hn : kvs.length = js.length := by simpa using congrArg List.length hk
    have key := zip_keys hk
    constructor
    · rintro ⟨_, e, h⟩
      cases e
      refine ⟨kvs, hd, fun p hp => ?_⟩
      obtain ⟨q, hq⟩ := zip_left hn hp
      have := (lists_found ha (hl p hp) (hs _ hq) (row p.1)).1
      refine this ?_
      obtain ⟨js', x, e, hx, hf⟩ := h q (List.of_mem_zip hq).2
      exact ⟨js', x, e, hx, by rw [key _ hq]; exact hf⟩
    · rintro ⟨_, e, h⟩
      rw [hd] at e
      cases e
      refine ⟨js, rfl, fun q hq => ?_⟩
      obtain ⟨p, hp⟩ := zip_right hn hq
      have hm := (List.of_mem_zip hp).1
      obtain ⟨js', x, e, hx, hf⟩ := (lists_found ha (hl p hm) (hs _ hp) (row p.1)).2 (h p hm)
      exact ⟨js', x, e, hx, by rw [← key _ hp]; exact hf⟩

end Verif
