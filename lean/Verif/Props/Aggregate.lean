import Verif.Lemmas.Aggregate

/-!
# C31: recognition of aggregate functions
-/

namespace Verif
open Spec

theorem base_iff (name : Str) : name ∈ aggregationBase ↔ ∃ stem endings, (stem, endings) ∈ aggregateFamilies ∧
    ∃ ending ∈ endings, name = stem ++ ending := by
  have h1 : ∀ x ∈ aggregationBase, ∃ f ∈ aggregateFamilies, ∃ ending ∈ f.2, x = f.1 ++ ending := by decide +kernel
  have h2 : ∀ f ∈ aggregateFamilies, ∀ ending ∈ f.2, f.1 ++ ending ∈ aggregationBase := by decide +kernel
  constructor
  · intro h
    obtain ⟨f, hf, h'⟩ := h1 name h
    exact ⟨f.1, f.2, hf, h'⟩
  · rintro ⟨stem, endings, hf, ending, he, rfl⟩
    exact h2 _ hf ending he

theorem suffix_iff (s : Str) : s ∈ aggregationSuffixes ↔ Combinator s := by
  constructor
  · intro h
    simp only [aggregationSuffixes, List.mem_cons, List.not_mem_nil, or_false] at h
    rcases h with rfl | rfl | rfl | rfl | rfl | rfl | rfl | rfl | rfl | rfl | rfl <;> constructor
  · intro h
    cases h <;> decide

theorem aggregateName_iff (name : Str) :
    (∃ base ∈ aggregationBase, ∃ suffix ∈ aggregationSuffixes, base ++ suffix = name) ↔ AggregateName name := by
  simp only [base_iff, suffix_iff, AggregateName]
  constructor
  · rintro ⟨_, ⟨st, es, hf, e, he, rfl⟩, su, hs, rfl⟩; exact ⟨st, es, hf, e, he, su, hs, rfl⟩
  · rintro ⟨st, es, hf, e, he, su, hs, rfl⟩; exact ⟨_, ⟨st, es, hf, e, he, rfl⟩, su, hs, rfl⟩

/-- **C31** (plain names): a name without bracket is an aggregate exactly when it is a listed base name followed by a
listed suffix, whatever the aliases. -/
theorem C31_plain_name (name : Str) (aliases : Option (List Str)) (h : '(' ∉ name) :
    isAggregationFunction name aliases = true ↔ AggregateName name := by
  have : name.contains '(' = false := by simpa using h
  simp only [isAggregationFunction, this, Bool.false_and, Bool.false_eq_true, if_false, List.contains_iff_mem,
    aggregationFunctions, List.mem_flatMap, List.mem_map]
  exact aggregateName_iff name

theorem aggregationFunctions_chars : ∀ w ∈ aggregationFunctions, '(' ∉ w := by decide +kernel

/-- **C31** (legacy names such as `countIf(x)`): a name with a bracket is an aggregate exactly when a listed name is
called in it, or one of the aliases occurs in it. -/
theorem C31_legacy_name (name : Str) (aliases : Option (List Str)) (h : '(' ∈ name) :
    isAggregationFunction name aliases = true ↔
      (∃ w, AggregateName w ∧ CallIn w name) ∨
      (∃ al, aliases = some al ∧ ∃ a ∈ al, ∃ before after, name = before ++ a ++ after) := by
  have hn' : name ∉ aggregationFunctions := fun hm => aggregationFunctions_chars name hm h
  have e1 : (findCalls (name.length + 1) name).any (fun w => aggregationFunctions.contains w) = true ↔
      ∃ w, AggregateName w ∧ CallIn w name := by
    simp only [List.any_eq_true, mem_findCalls _ name (Nat.lt_succ_self _), List.contains_iff_mem,
      aggregationFunctions, List.mem_flatMap, List.mem_map, aggregateName_iff]
    exact ⟨fun ⟨w, h1, h2⟩ => ⟨w, h2, h1⟩, fun ⟨w, h1, h2⟩ => ⟨w, h2, h1⟩⟩
  rw [← e1]
  cases aliases with
  | none => simp [isAggregationFunction, hn', h]
  | some al => simp [isAggregationFunction, hn', h, isInfix_iff]

theorem isAggregationFunction_iff (name : Str) (aliases : Option (List Str)) :
    isAggregationFunction name aliases = true ↔ AggregateText aliases name := by
  by_cases h : '(' ∈ name
  · simp [AggregateText, h, C31_legacy_name name aliases h]
  · simp [AggregateText, h, C31_plain_name name aliases h]

/-- **C31** (expressions): a function is an aggregate exactly when its name or that of a function nested in its
parameters is one, or a column named by an aggregate alias is a parameter of one of them. -/
theorem C31_expression (f : Val) (hf : f.isCurried = true) (aliases : Option (List Str)) :
    isAggregate aliases f = true ↔
      ∃ name params, CallOf f name params ∧
        (AggregateText aliases name ∨
          ∃ c al, Val.column c ∈ params ∧ aliases = some al ∧ c.name ∈ al) := by
  simp only [← isAggregationFunction_iff]
  revert hf
  induction f using Val.childInd with
  | step f ih =>
    intro hf
    cases f with
    | curried isFn name ik inits pk params nm =>
      simp only [isAggregate, Bool.or_eq_true, anyAggregate_iff]
      constructor
      · rintro (h | ⟨c, hc, h⟩ | ⟨p, hp, h⟩)
        · exact ⟨name, params, ⟨_, _, _, _, _, .self _⟩, .inl h⟩
        · cases aliases with
          | none => simp at h
          | some al => exact ⟨name, params, ⟨_, _, _, _, _, .self _⟩, .inr ⟨c, al, hc, rfl, h⟩⟩
        · have hp' : p.isCurried = true := by
            cases p <;> simp_all [isAggregate, Val.isCurried]
          obtain ⟨n, ps, ⟨i1, i2, i3, i4, i5, hin⟩, h'⟩ :=
            (ih p (by simp [Val.children, hp]) hp').1 h
          exact ⟨n, ps, ⟨i1, i2, i3, i4, i5, FnIn.trans (.param (.self _) hp hp') hin⟩, h'⟩
      · rintro ⟨n, ps, ⟨i1, i2, i3, i4, i5, hin⟩, h⟩
        rcases fnIn_cases hin with he | ⟨p, hp, hp', hin'⟩
        · cases he
          rcases h with h | ⟨c, al, hc, rfl, h⟩
          · exact .inl h
          · exact .inr (.inl ⟨c, hc, h⟩)
        · exact .inr (.inr ⟨p, hp, (ih p (by simp [Val.children, hp]) hp').2 ⟨n, ps, ⟨i1, i2, i3, i4, i5, hin'⟩, h⟩⟩)
    | _ => cases hf

theorem anyColumnInFunction_iff (col : ColumnObj) : ∀ ps : List Val, anyColumnInFunction col ps = true ↔
    ∃ p ∈ ps, pyEq p (.column col) = true ∨ findColumnInFunction col p = true
  | [] => by simp [anyColumnInFunction]
  | p :: ps => by simp [anyColumnInFunction, anyColumnInFunction_iff col ps, or_assoc]

/-- **C31** (columns in functions): a column is found in a function exactly when it equals a parameter of the function
or of a function nested in its parameters. -/
theorem C31_column_in_function (f : Val) (hf : f.isCurried = true) (col : ColumnObj) :
    findColumnInFunction col f = true ↔
      ∃ name params, CallOf f name params ∧ ∃ p ∈ params, pyEq p (.column col) = true := by
  revert hf
  induction f using Val.childInd with
  | step f ih =>
    intro hf
    cases f with
    | curried isFn name ik inits pk params nm =>
      simp only [findColumnInFunction, anyColumnInFunction_iff]
      constructor
      · rintro ⟨p, hp, h | h⟩
        · exact ⟨name, params, ⟨_, _, _, _, _, .self _⟩, p, hp, h⟩
        · have hp' : p.isCurried = true := by
            cases p <;> simp_all [findColumnInFunction, Val.isCurried]
          obtain ⟨n, ps, ⟨i1, i2, i3, i4, i5, hin⟩, h'⟩ :=
            (ih p (by simp [Val.children, hp]) hp').1 h
          exact ⟨n, ps, ⟨i1, i2, i3, i4, i5, FnIn.trans (.param (.self _) hp hp') hin⟩, h'⟩
      · rintro ⟨n, ps, ⟨i1, i2, i3, i4, i5, hin⟩, q, hq, h⟩
        rcases fnIn_cases hin with he | ⟨p, hp, hp', hin'⟩
        · cases he; exact ⟨q, hq, .inl h⟩
        · exact ⟨p, hp, .inr ((ih p (by simp [Val.children, hp]) hp').2 ⟨n, ps, ⟨i1, i2, i3, i4, i5, hin'⟩, q, hq, h⟩)⟩
    | _ => cases hf

section Examples

example : isAggregationFunction c!"quantileTDigestMerge" none = true := by decide +kernel
example : isAggregationFunction c!"toStartOfHour" (some [c!"to"]) = false := by decide +kernel

example : isAggregationFunction c!"divide(countIf(x), 2)" none = true := by decide +kernel
example : isAggregationFunction c!"divide(my_count(x), 2)" none = false := by decide +kernel
example : isAggregationFunction c!"divide(my_count, 2)" (some [c!"my_count"]) = true := by decide +kernel

/-- A finding: names with digits are not recognised in legacy names, although they are listed. -/
example : isAggregationFunction c!"uniqCombined64(x)" none = false ∧
    isAggregationFunction c!"uniqCombined64" none = true := by decide +kernel

/-- `plus(1, divide(count(x), 2))`. -/
def nestedAggregate : Val :=
  .curried true c!"plus" .absent [] .list [.int 1, .curried true c!"divide" .absent [] .list
    [.curried true c!"count" .absent [] .list [.column ⟨c!"x", none, none, none⟩] none, .int 2] none] none

example : isAggregate none nestedAggregate = true := by decide +kernel
example : findColumnInFunction ⟨c!"x", none, none, none⟩ nestedAggregate = true := by decide +kernel
example : findColumnInFunction ⟨c!"y", none, none, none⟩ nestedAggregate = false := by decide +kernel

/-- `plus(1, total)` is an aggregate if `total` is an aggregate alias. -/
example : isAggregate (some [c!"total"])
    (.curried true c!"plus" .absent [] .list [.int 1, .column ⟨c!"total", none, none, none⟩] none) = true := by
  decide +kernel

end Examples

end Verif
