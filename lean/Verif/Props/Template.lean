import Verif.Lemmas.TemplateMetrics
import Verif.Model.MetricsQuery
import Verif.Lemmas.Examples

/-!
# C87: a query is a template of its values

The text of an expression or a query is a template with a slot for each literal in it. Another query that differs in the
values only has the text of the same template, filled with the literals of its own values. So no value has an influence on
the text outside of its own literal: not on which clauses, conditions and parameters are printed, not on their order, and
not on parentheses and separators. (That the literals themselves are well-formed is C01 to C04.)
-/

namespace Verif
open Spec

section
variable [U : PyUnicode]

/-- C87 for single values, columns, functions, conditions and ordering expressions, in SnQL (with and without aliases) and
in MQL. -/
theorem C87_expression (aliases mql : Bool) (v : Val) (hb : Built v) (t : Str) (h : translate ⟨aliases, mql⟩ v = .ok t) :
    ∃ ps, Stands mql t (fun _ => True) (fun f => translate ⟨aliases, mql⟩ (revalue f v)) ps :=
  (translate_fits v t (tidy_wf (built_wf hb)) h).stands _ _ fun _ _ _ => rfl

/-- C87 for the pretty text of a query. -/
theorem C87_print (q : Query) (hb : AllItemsBuilt q) (t : Str) (h : q.print = .ok t) :
    ∃ ps, Stands false t (fun _ => True) (fun f => (revalueQuery f q).print) ps := by
  simp only [Query.print, bind_eq_ok] at h
  obtain ⟨_, hv, h⟩ := h
  refine (printQuery_fits q _ t (tidy_query hb) h).stands _ _ fun f hf _ => ?_
  simp only [Query.print, revalue_validateQuery hf, hv, ok_bind]

/-- C87 for the text of a query that is sent. There the conditions of one OR on the same left-hand side are merged, so the
replacement must not change which left-hand sides are equal. -/
theorem C87_serialize (q : Query) (hb : AllItemsBuilt q) (t : Str) (h : q.serialize = .ok t) :
    ∃ ps, Stands false t (KeepsWhere q) (fun f => (revalueQuery f q).serialize) ps := by
  simp only [Query.serialize, bind_eq_ok] at h
  obtain ⟨_, hv, o, ho, h⟩ := h
  refine (printQuery_fits o _ t (optimize_tidy ho (tidy_query hb)) h).stands _ _ fun f hf hk => ?_
  have hw : ∀ k xs, SeqOf q.body.where_ k xs → SidesOk xs := fun k xs hs =>
    sides_of_built (hb.body q.body.where_ (by simp) k xs hs)
  simp only [Query.serialize, revalue_validateQuery hf, hv, ok_bind, revalue_optimizeOf hf q hw hk, ho, Except.map]

omit U in
/-- C87: which replacements do so: those that change no equality between the values; and any replacement, if the left-hand
sides in ORs are columns. -/
theorem C87_keeps (q : Query) (f : Val → Val) (hf : Replaces f) :
    ((∀ v w, Literal v → Literal w → pyEq (f v) (f w) = pyEq v w) → KeepsWhere q f) ∧
    ((∀ k xs cls k' cs l r, SeqOf q.body.where_ k xs → .boolCond cls .or k' cs ∈ xs → .cond l .eq r ∈ cs → ∃ c, l = .column c) →
      KeepsWhere q f) := by
  refine ⟨fun he k xs _ cls k' cs l r l' r' _ _ _ => revalue_pyEq hf he l l', fun hc k xs hs cls k' cs l r l' r' hg h1 h2 => ?_⟩
  obtain ⟨c, rfl⟩ := hc k xs cls k' cs l r hs hg h1
  obtain ⟨c', rfl⟩ := hc k xs cls k' cs l' r' hs hg h2
  rfl

/-- C87: whether a query is valid, and which exception is raised if not, does not depend on the values. -/
theorem C87_validate (q : Query) (f : Val → Val) (hf : Replaces f) : (revalueQuery f q).validate = q.validate :=
  revalue_validateQuery hf q

omit U in
/-- C87 for the filters of metrics queries. -/
theorem C87_filters [PyUnicode] (v : Val) (hb : ∀ k xs, SeqOf v k xs → ∀ x ∈ xs, Built x) (t : Str) (h : filtersMql v = .ok t) :
    ∃ ps, Stands true t (fun _ => True) (fun f => filtersMql (revalueClause f v)) ps :=
  (filtersMql_fits (v := v) (fun k xs hs x hx => tidy_wf (built_wf (hb k xs hs x hx))) h).stands _ _ fun _ _ _ => rfl

/-- C87 for the MQL text of a whole timeseries or formula. -/
theorem C87_metrics [RegexSpace] [PyRepr] (x : MVal) (hx : (∃ t, x = .ts t) ∨ ∃ n p a fs g, x = .formula n p a fs g)
    (hb : FiltersBuilt x) (t : Str) (h : queryMql x = .ok t) :
    ∃ ps, Stands true t (fun _ => True) (fun f => queryMql (revalueMetric f x)) ps := by
  rcases hx with ⟨x, rfl⟩ | ⟨n, p, a, fs, g, rfl⟩ <;>
    exact (paramMql_fits hb t (by simpa only [queryMql, paramMql] using h)).stands _ _ fun _ _ _ => by
      simp only [revalueMetric, queryMql, paramMql]

end

/-! ## Concrete cases -/

attribute [local instance] asciiUnicode

private def exSlotCol (n : Str) : Val := .column { name := n, entity := none, subscriptable := none, key := none }

private def exSlotFn (x : Val) : Val := .curried true c!"ff" .absent [] .list [x] none

private def exSlotQuery (a b c : Val) : Query :=
  .base (.entity { name := c!"events", alias := none, sample := none, dataModel := none })
    { select := .list [exSlotCol c!"id"]
      where_ := .list [.boolCond .or .or .list [.cond (exSlotCol c!"title") .eq a, .cond (exSlotFn b) .eq c]] }

private def exSlotQuery2 (a b : Val) : Query :=
  .base (.entity { name := c!"events", alias := none, sample := none, dataModel := none })
    { select := .list [exSlotCol c!"id"]
      where_ := .list [.boolCond .or .or .list [.cond (exSlotFn a) .eq (.int 1), .cond (exSlotFn b) .eq (.int 2)]] }

private def exSlotReplace : Val → Val
  | .int 1 => .str c!"x') OR ('1'='1"
  | .int 2 => .bool true
  | .int 3 => .date ⟨2020, 1, 1, rfl⟩
  | v => v

private theorem exSlotReplaces : Replaces exSlotReplace := by
  refine ⟨fun v h => ?_, fun v h => ?_⟩
  · unfold exSlotReplace
    split <;> first | constructor | exact h
  · unfold exSlotReplace
    split <;> simp

/-- A query with three values, and the same with three others. -/
example : (exSlotQuery (.int 1) (.int 2) (.int 3)).serialize = .ok c!"MATCH (events) SELECT id WHERE (title = 1 OR ff(2) = 3)" ∧
    (revalueQuery exSlotReplace (exSlotQuery (.int 1) (.int 2) (.int 3))).serialize =
      .ok c!"MATCH (events) SELECT id WHERE (title = 'x\\') OR (\\'1\\'=\\'1' OR ff(TRUE) = toDateTime('2020-01-01'))" := by
  refine ⟨?_, ?_⟩ <;> decide +kernel

private theorem exSlotBuilt : AllItemsBuilt (exSlotQuery (.int 1) (.int 2) (.int 3)) := by
  have col : ∀ n, mkColumn (.str n) .none = .ok (exSlotCol n) → Built (exSlotCol n) :=
    fun n h => .column _ _ _ (.literal _ (.str n)) (.literal _ .none) h
  have c1 : Built (.cond (exSlotCol c!"title") .eq (.int 1)) :=
    .condition _ _ _ _ (col _ rfl) (.op .eq) (.literal _ (.int 1)) rfl
  have c2 : Built (.cond (exSlotFn (.int 2)) .eq (.int 3)) :=
    .condition _ _ _ _ (.function (.str c!"ff") (.list [.int 2]) .none _ (.literal _ (.str _)) (.list _ (by simpa using .literal _ (.int 2)))
      (.literal _ .none) rfl) (.op .eq) (.literal _ (.int 3)) rfl
  intro v hv k xs hs x hx
  simp only [List.mem_cons, List.not_mem_nil, or_false] at hv
  rcases hv with rfl | rfl | rfl | rfl | rfl | rfl <;> first | (cases hs; done) | skip
  · cases hs
    rcases List.mem_singleton.1 hx with rfl
    exact col _ rfl
  · cases hs
    rcases List.mem_singleton.1 hx with rfl
    refine .or (.list [.cond (exSlotCol c!"title") .eq (.int 1), .cond (exSlotFn (.int 2)) .eq (.int 3)]) _ (.list _ fun y hy => ?_) rfl
    rcases List.mem_cons.1 hy with rfl | hy
    · exact c1
    · rcases List.mem_singleton.1 hy with rfl
      exact c2

private theorem exSlotKeeps : KeepsWhere (exSlotQuery (.int 1) (.int 2) (.int 3)) exSlotReplace := by
  intro k xs hs cls k' cs l r l' r' hg h1 h2
  cases hs
  rcases List.mem_singleton.1 hg with h
  cases h
  simp only [List.mem_cons, List.not_mem_nil, or_false, Val.cond.injEq] at h1 h2
  rcases h1 with ⟨rfl, _⟩ | ⟨rfl, _⟩ <;> rcases h2 with ⟨rfl, _⟩ | ⟨rfl, _⟩ <;> decide +kernel

example : ∃ ps, Stands false c!"MATCH (events) SELECT id WHERE (title = 1 OR ff(2) = 3)"
    (KeepsWhere (exSlotQuery (.int 1) (.int 2) (.int 3))) (fun f => (revalueQuery f (exSlotQuery (.int 1) (.int 2) (.int 3))).serialize) ps ∧
    ∀ text, Literals false exSlotReplace text ps →
      (revalueQuery exSlotReplace (exSlotQuery (.int 1) (.int 2) (.int 3))).serialize = .ok (fill text ps) := by
  obtain ⟨ps, hp⟩ := C87_serialize _ exSlotBuilt c!"MATCH (events) SELECT id WHERE (title = 1 OR ff(2) = 3)" (by decide +kernel)
  exact ⟨ps, hp, fun text hl => hp.others _ text exSlotReplaces exSlotKeeps hl⟩

/-- A template written out. -/
example : Stands false c!"array(2, 3)" (fun _ => True) (fun f => translate ⟨false, false⟩ (revalue f (.list [.int 2, .int 3])))
    [.fixed c!"array(", .slot (.int 2), .fixed c!", ", .slot (.int 3), .fixed c!")"] := by
  refine ⟨fun v hv => ?_, ⟨fun v => match v with | .int 2 => c!"2" | _ => c!"3", fun v hv => ?_, rfl⟩, fun f text hf _ hl => ?_⟩
  · simp only [List.mem_cons, List.not_mem_nil, or_false, reduceCtorEq, false_or, Piece.slot.injEq] at hv
    rcases hv with rfl | rfl <;> constructor
  · simp only [List.mem_cons, List.not_mem_nil, or_false, reduceCtorEq, false_or, Piece.slot.injEq] at hv
    rcases hv with rfl | rfl <;> rfl
  · have h2 := hl (.int 2) (by simp)
    have h3 := hl (.int 3) (by simp)
    have hs : allScalar [f (.int 2), f (.int 3)] = allScalar [.int 2, .int 3] := revalue_allScalar hf [.int 2, .int 3]
    have hs' : allScalar [.int 2, .int 3] = .ok true := rfl
    simp [revalue, revalueAll, translate, translateAll, h2, h3, fill, joinWith, ok_bind, hs, hs', arrayOpen, seqClose]

/-- A replacement that makes two left-hand sides equal changes more: the OR becomes an IN. -/
theorem C87_merging_depends_on_values :
    (exSlotQuery2 (.str c!"x") (.str c!"y")).serialize = .ok c!"MATCH (events) SELECT id WHERE (ff('x') = 1 OR ff('y') = 2)" ∧
    (exSlotQuery2 (.str c!"x") (.str c!"x")).serialize = .ok c!"MATCH (events) SELECT id WHERE ff('x') IN array(1, 2)" := by
  refine ⟨?_, ?_⟩ <;> decide +kernel

@[local instance] private def exSlotRepr : PyRepr := ⟨fun _ => []⟩

private def exSlotFormula (a b : Val) : MVal :=
  .formula (.str c!"divide") (.list [.ts ⟨⟨.str c!"m", .none, .none⟩, .str c!"quantile", .list [a],
    .list [.cond (exSlotCol c!"status") .neq b], .none⟩, .val (.int 2)]) .none
    (.tuple [.cond (exSlotCol c!"env") .in_ (.list [a, b])]) .none

/-- A formula with filters at two depths, and the same with other values. -/
example : paramMql (exSlotFormula (.int 1) (.int 3)) = .ok c!"(quantile(1)(m){!status:3} / 2){env:[1, 3]}" ∧
    paramMql (revalueMetric exSlotReplace (exSlotFormula (.int 1) (.int 3))) = .ok
      c!"(quantile(\"x') OR ('1'='1\")(m){!status:toDateTime('2020-01-01')} / 2){env:[\"x') OR ('1'='1\", toDateTime('2020-01-01')]}" := by
  refine ⟨?_, ?_⟩ <;> decide +kernel

private theorem exSlotFormulaBuilt : FiltersBuilt (exSlotFormula (.int 1) (.int 3)) := by
  have col : ∀ n, mkColumn (.str n) .none = .ok (exSlotCol n) → Built (exSlotCol n) :=
    fun n h => .column _ _ _ (.literal _ (.str n)) (.literal _ .none) h
  have one : Built (.int 1) := .literal _ (.int 1)
  have three : Built (.int 3) := .literal _ (.int 3)
  refine .list _ _ _ _ _ (fun x hx => ?_) fun k xs hs x hx => ?_
  · simp only [List.mem_cons, List.not_mem_nil, or_false] at hx
    rcases hx with rfl | rfl
    · refine .ts _ (fun k xs hs x hx => ?_) fun k xs hs x hx => ?_
      · cases hs
        rcases List.mem_singleton.1 hx with rfl
        exact one
      · cases hs
        rcases List.mem_singleton.1 hx with rfl
        exact .condition _ _ _ _ (col _ rfl) (.op .neq) three rfl
    · exact .val _
  · cases hs
    rcases List.mem_singleton.1 hx with rfl
    exact .condition _ _ _ _ (col _ rfl) (.op .in_) (.list [.int 1, .int 3] (by simpa using ⟨one, three⟩)) rfl

example [RegexSpace] : ∃ ps, Stands true c!"(quantile(1)(m){!status:3} / 2){env:[1, 3]}" (fun _ => True)
    (fun f => queryMql (revalueMetric f (exSlotFormula (.int 1) (.int 3)))) ps :=
  C87_metrics _ (.inr ⟨_, _, _, _, _, rfl⟩) exSlotFormulaBuilt _ (by
    show paramMql (exSlotFormula (.int 1) (.int 3)) = .ok c!"(quantile(1)(m){!status:3} / 2){env:[1, 3]}"
    decide +kernel)

end Verif
