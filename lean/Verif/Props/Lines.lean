import Verif.Lemmas.Lines
import Verif.Props.Printing

/-!
# Theorems: the characters and the lines of a query's text
-/

namespace Verif
open Spec

section
variable [U : PyUnicode]

/-- C83: every character of the text of an expression is printable ASCII, or stands in a name that the expression
holds, or is no line break and stands in a string that it holds. -/
theorem C83_expression (cfg : Cfg) (v : Val) (t : Str) (h : translate cfg v = .ok t) (c : Char) (hc : c ∈ t) :
    Usual c ∨ ComesFrom (Mentions v) c := by
  by_cases hu : Usual c
  · exact .inl hu
  · exact .inr (translate_from hu v t h hc)

private theorem says_put {q : Query} {w : Val} (hw : w = q.body.where_ ∨ ∃ k xs new, SeqOf q.body.where_ k xs ∧ Verif.optimize xs = .ok (some new) ∧
    w = .list new) {r : Role} {s : Str} (h : QueryMentions (putWhere w q) r s) : QueryMentions q r s := by
  rcases hw with rfl | ⟨k, xs, new, hk, ho, rfl⟩
  · have : putWhere q.body.where_ q = q := by cases q <;> rfl
    rwa [this] at h
  · have hl : ∀ x ∈ new, ∃ y ∈ xs, ∀ r s, Mentions x r s → Mentions y r s := by
      simp only [Verif.optimize, bind_eq_ok] at ho
      obtain ⟨⟨n, o⟩, h1, h2⟩ := ho
      cases o
      · cases h2
      · cases h2; exact optimizeLoop_from h1
    have key : ∀ x, HasItem (putWhere (.list new) q).body x → Mentions x r s → QueryMentions q r s := by
      intro x hx hs
      have hb : ∀ v, v ∈ [q.body.select, q.body.groupby, q.body.arrayJoin, q.body.having, q.body.orderby] →
          (∃ k xs, SeqOf v k xs ∧ x ∈ xs) → QueryMentions q r s := by
        intro v hv hx
        refine .clause (.inl ⟨v, ?_, hx⟩) hs
        simp only [List.mem_cons, List.not_mem_nil, or_false] at hv ⊢
        rcases hv with h | h | h | h | h <;> simp [h]
      rcases hx with ⟨v, hv, k', xs', hk', hx⟩ | hx
      · have hv' : v = .list new ∨ v ∈ [q.body.select, q.body.groupby, q.body.arrayJoin, q.body.having, q.body.orderby] := by
          cases q <;> simp only [putWhere, Query.body, List.mem_cons, List.not_mem_nil, or_false] at hv ⊢ <;>
            rcases hv with h | h | h | h | h | h <;> simp [h]
        rcases hv' with rfl | hv'
        · cases hk'
          obtain ⟨y, hy, e⟩ := hl x hx
          exact .clause (.inl ⟨_, by simp, k, xs, hk, hy⟩) (e _ _ hs)
        · exact hb v hv' ⟨k', xs', hk', hx⟩
      · refine .clause (.inr ?_) hs
        cases q <;> exact hx
    cases q with
    | base m b =>
      cases h with
      | matched h => exact .matched h
      | clause hx hs => exact key _ hx hs
    | nested q' b =>
      cases h with
      | clause hx hs => exact key _ hx hs
      | inner h => exact .inner h

/-- C83: every character that `serialize()` gives is printable ASCII, or stands in a name that the query holds, or is no
line break and stands in a string that it holds. -/
theorem C83_serialize (q : Query) (t : Str) (h : q.serialize = .ok t) (c : Char) (hc : c ∈ t) :
    Usual c ∨ ComesFrom (QueryMentions q) c := by
  by_cases hu : Usual c
  · exact .inl hu
  · obtain ⟨w, hp, hw, _⟩ := C14_serialize q t h
    obtain ⟨lines, rfl, _, hl⟩ := printed_from hp hu
    rcases mem_joinWith hc with hc | ⟨l, hm, hc⟩
    · exact absurd hc (head_usual hu).2.2.2
    · exact .inr ((hl l hm hc).mono fun _ _ => says_put hw)

/-- C83: if no name in the query contains a line break, `serialize()` gives one line, whatever the strings are. -/
theorem C83_one_line (q : Query) (t : Str) (h : q.serialize = .ok t) (hn : ∀ n, QueryMentions q .name n → '\n' ∉ n) : '\n' ∉ t := by
  intro hc
  rcases C83_serialize q t h _ hc with hu | ⟨n, h1, h2⟩ | ⟨h0, _⟩
  · exact absurd hu.1 (by decide)
  · exact hn n h1 h2
  · exact h0 rfl

/-- C83: if no name in the query contains a line break, `print()` gives one line for the match and one for each clause
that is set. -/
theorem C83_print_lines (q : Query) (t : Str) (h : q.print = .ok t) (hn : ∀ n, QueryMentions q .name n → '\n' ∉ n) :
    ∃ lines : List Str, t = joinWith c!"\n" lines ∧ (∀ l ∈ lines, '\n' ∉ l) ∧
      lines.length = 1 + (clauseOrder.filter (·.isSet q.body)).length := by
  have hu : ¬ Usual '\n' := fun h => absurd h.1 (by decide)
  obtain ⟨lines, h1, h2, h3⟩ := printed_from (C14_print q t h) hu
  refine ⟨lines, h1, fun l hl hc => ?_, h2⟩
  rcases h3 l hl hc with ⟨n, h1, h2⟩ | ⟨h0, _⟩
  · exact hn n h1 h2
  · exact h0 rfl

end

/-! ## Concrete cases -/

attribute [local instance] asciiUnicode

private def exLineQuery (col : Str) : Query :=
  .base (.entity { name := c!"events", alias := none, sample := none, dataModel := none })
    { select := .list [.column { name := col, entity := none, subscriptable := none, key := none }]
      where_ := .list [.cond (.column { name := c!"title", entity := none, subscriptable := none, key := none }) .eq (.str c!"a\nü")] }

/-- A string with a line break and a letter that is not ASCII: one line in `serialize`, three in `print`. -/
example : (exLineQuery c!"id").serialize = .ok c!"MATCH (events) SELECT id WHERE title = 'a\\nü'" ∧
    (exLineQuery c!"id").print = .ok c!"MATCH (events)\nSELECT id\nWHERE title = 'a\\nü'" := by
  refine ⟨?_, ?_⟩ <;> decide +kernel

private theorem exLine_names (n : Str) (h : QueryMentions (exLineQuery c!"id") .name n) : n = c!"events" ∨ n = c!"id" ∨ n = c!"title" := by
  cases h with
  | matched h =>
    cases h with
    | entity h => rcases h with h | h
                  · exact .inl h
                  · cases h
  | clause hx hs =>
    rcases hx with ⟨v, hv, k, xs, hk, hx⟩ | hx
    · simp only [exLineQuery, Query.body, List.mem_cons, List.not_mem_nil, or_false] at hv
      rcases hv with rfl | rfl | rfl | rfl | rfl | rfl <;> first | (cases hk; done) | skip
      · cases hk
        rcases List.mem_singleton.1 hx with rfl
        cases hs with
        | column h => rcases h with h | ⟨e, h, _⟩
                      · exact .inr (.inl h)
                      · cases h
      · cases hk
        rcases List.mem_singleton.1 hx with rfl
        cases hs with
        | left h => cases h with
          | column h => rcases h with h | ⟨e, h, _⟩
                        · exact .inr (.inr h)
                        · cases h
        | right h => cases h
    · simp only [exLineQuery, Query.body, List.mem_cons, List.not_mem_nil, or_false] at hx
      rcases hx with rfl | rfl | rfl | rfl | rfl <;> cases hs

example (t : Str) (h : (exLineQuery c!"id").serialize = .ok t) : '\n' ∉ t :=
  C83_one_line _ t h fun n hn => by rcases exLine_names n hn with rfl | rfl | rfl <;> decide

example (t : Str) (h : (exLineQuery c!"id").print = .ok t) : ∃ lines : List Str, t = joinWith c!"\n" lines ∧ (∀ l ∈ lines, '\n' ∉ l) ∧ lines.length = 3 :=
  C83_print_lines _ t h fun n hn => by rcases exLine_names n hn with rfl | rfl | rfl <;> decide

/-- The condition is needed: the pattern of column names ends with `$`, which lets a line break at the end pass. -/
theorem C83_name_with_line_break :
    mkColumn (.str c!"id\n") .none = .ok (.column { name := c!"id\n", entity := none, subscriptable := none, key := none }) ∧
    ∃ t, (exLineQuery c!"id\n").serialize = .ok t ∧ '\n' ∈ t := by
  refine ⟨rfl, c!"MATCH (events) SELECT id\n WHERE title = 'a\\nü'", ?_, ?_⟩ <;> decide +kernel

end Verif
