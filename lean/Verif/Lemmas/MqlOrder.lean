import Verif.Spec.MqlOrder
import Verif.Lemmas.MqlMessages

/-!
# Lemmas about the order of the visit
-/

namespace Verif.MqlOrder

open Spec

section
variable [PyText] [PyShow] [U : PyUnicode]

theorem visitNodes_ok {ns : List (Node Rule)} {vs : List V} : visitNodesMsg ns = .ok vs ↔ ns.map visitNodeMsg = vs.map .ok := by
  induction ns generalizing vs with
  | nil => cases vs <;> simp [visitNodesMsg]
  | cons n ns ih =>
    simp only [visitNodesMsg, bind_eq_ok, List.map_cons]
    constructor
    · rintro ⟨v, hv, ws, hw, h⟩
      cases h
      rw [List.map_cons, hv, ih.1 hw]
    · intro h
      cases vs with
      | nil => cases h
      | cons v ws =>
        simp only [List.map_cons, List.cons.injEq] at h
        exact ⟨v, h.1, ws, ih.2 h.2, rfl⟩

theorem nodes_visited {ns : List (Node Rule)} : (∃ vs, visitNodesMsg ns = .ok vs) ↔ ∀ n ∈ ns, Visited n := by
  induction ns with
  | nil => simp [visitNodesMsg]
  | cons n ns ih =>
    simp only [visitNodesMsg, bind_eq_ok, List.mem_cons, forall_eq_or_imp, ← ih]
    constructor
    · rintro ⟨_, v, hv, ws, hw, _⟩
      exact ⟨⟨v, hv⟩, ws, hw⟩
    · rintro ⟨⟨v, hv⟩, ws, hw⟩
      exact ⟨_, v, hv, ws, hw, rfl⟩

omit [PyText] [PyShow] U in
theorem self_mem {ρ : Type} (n : Node ρ) : n ∈ postorder n := by
  cases n
  simp [postorder]

omit [PyText] [PyShow] U in
theorem mem_all {ρ : Type} {n : Node ρ} {ns : List (Node ρ)} (h : n ∈ ns) : n ∈ postorderAll ns := by
  induction ns with
  | nil => cases h
  | cons m ns ih =>
    simp only [postorderAll, List.mem_append]
    rcases List.mem_cons.1 h with rfl | h
    · exact .inl (self_mem _)
    · exact .inr (ih h)

theorem first_append {xs ys : List (Node Rule)} {r : Raised} :
    FirstRaise (xs ++ ys) r ↔ FirstRaise xs r ∨ ((∀ m ∈ xs, Visited m) ∧ FirstRaise ys r) := by
  constructor
  · rintro ⟨before, n, after, h, hb, hn⟩
    rcases List.append_eq_append_iff.1 h with ⟨as, rfl, rfl⟩ | ⟨bs, rfl, h2⟩
    · exact .inr ⟨fun m hm => hb m (by simp [hm]), as, n, after, rfl, fun m hm => hb m (by simp [hm]), hn⟩
    · cases bs with
      | nil =>
        simp only [List.nil_append] at h2
        exact .inr ⟨fun m hm => hb m (by simpa using hm), [], n, after, h2.symm, by simp, hn⟩
      | cons b bs =>
        simp only [List.cons_append, List.cons.injEq] at h2
        obtain ⟨rfl, rfl⟩ := h2
        exact .inl ⟨before, n, bs, rfl, hb, hn⟩
  · rintro (⟨before, n, after, rfl, hb, hn⟩ | ⟨hx, before, n, after, rfl, hb, hn⟩)
    · exact ⟨before, n, after ++ ys, by simp, hb, hn⟩
    · refine ⟨xs ++ before, n, after, by simp, ?_, hn⟩
      intro m hm
      exact (List.mem_append.1 hm).elim (hx m) (hb m)

theorem first_single {n : Node Rule} {r : Raised} : FirstRaise [n] r ↔ OwnRaise n r := by
  constructor
  · rintro ⟨before, m, after, h, _, hm⟩
    cases before with
    | nil => cases h; exact hm
    | cons b before => cases before <;> cases h
  · exact fun h => ⟨[], n, [], rfl, by simp, h⟩

mutual
theorem visited_all : ∀ {n : Node Rule}, Visited n → ∀ m ∈ postorder n, Visited m
  | .node k t cs, h, m, hm => by
    simp only [postorder, List.mem_append, List.mem_singleton] at hm
    rcases hm with hm | rfl
    · obtain ⟨v, hv⟩ := h
      simp only [visitNodeMsg, bind_eq_ok] at hv
      obtain ⟨vs, hvs, _⟩ := hv
      exact visited_list ⟨vs, hvs⟩ m hm
    · exact h

theorem visited_list : ∀ {ns : List (Node Rule)}, (∃ vs, visitNodesMsg ns = .ok vs) → ∀ m ∈ postorderAll ns, Visited m
  | [], _, m, hm => by cases hm
  | n :: ns, h, m, hm => by
    obtain ⟨vs, h⟩ := h
    simp only [visitNodesMsg, bind_eq_ok] at h
    obtain ⟨v, hv, ws, hw, _⟩ := h
    simp only [postorderAll, List.mem_append] at hm
    rcases hm with hm | hm
    · exact visited_all ⟨v, hv⟩ m hm
    · exact visited_list ⟨ws, hw⟩ m hm
end

mutual
theorem node_first : ∀ {n : Node Rule} {r : Raised}, visitNodeMsg n = .error r ↔ FirstRaise (postorder n) r
  | .node k t cs, r => by
    simp only [postorder, first_append, first_single, visitNodeMsg, bind_eq_error, nodes_first (ns := cs) (r := r)]
    refine or_congr Iff.rfl ⟨?_, ?_⟩
    · rintro ⟨vs, hvs, h⟩
      refine ⟨visited_list ⟨vs, hvs⟩, ?_⟩
      cases k with
      | none => cases h
      | some k => exact ⟨k, t, cs, vs, rfl, visitNodes_ok.1 hvs, h⟩
    · rintro ⟨_, k', t', cs', vs, heq, hvs, h⟩
      cases heq
      exact ⟨vs, visitNodes_ok.2 hvs, h⟩

theorem nodes_first : ∀ {ns : List (Node Rule)} {r : Raised}, visitNodesMsg ns = .error r ↔ FirstRaise (postorderAll ns) r
  | [], r => by
    constructor
    · intro h; cases h
    · rintro ⟨before, n, after, h, _⟩
      cases before <;> cases h
  | n :: ns, r => by
    simp only [postorderAll, first_append, visitNodesMsg, bind_eq_error, node_first (n := n) (r := r)]
    refine or_congr Iff.rfl ⟨?_, ?_⟩
    · rintro ⟨v, hv, h | ⟨_, _, h⟩⟩
      · exact ⟨visited_all ⟨v, hv⟩, nodes_first.1 h⟩
      · cases h
    · rintro ⟨hv, h⟩
      obtain ⟨v, hv⟩ := hv n (self_mem n)
      exact ⟨v, hv, .inl (nodes_first.2 h)⟩
end

end

end Verif.MqlOrder
