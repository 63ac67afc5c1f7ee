import Verif.Model.Metrics

/-!
# How arithmetic without parentheses is to be read

Written without reference to the parser: a chain `x₀ op₁ x₁ op₂ x₂ …` is read as the tree whose leaves and operators, from
left to right, are those of the chain, in which `*` and `/` are below `+` and `-`, and in which operators of one level are
nested to the left.
-/

namespace Verif.Spec

/-- The arithmetic operators. -/
inductive Arith where
  | plus | minus | times | divide
  deriving DecidableEq

namespace Arith

/-- How an operator is written. -/
def char : Arith → Char
  | plus => '+'
  | minus => '-'
  | times => '*'
  | divide => '/'

/-- The name of the function that an operator denotes. -/
def name : Arith → Str
  | plus => c!"plus"
  | minus => c!"minus"
  | times => c!"multiply"
  | divide => c!"divide"

/-- How tightly an operator binds. -/
def level : Arith → Nat
  | plus | minus => 1
  | times | divide => 2

end Arith

/-- Trees of operators. -/
inductive Tree (α : Type) where
  | leaf (a : α)
  | node (op : Arith) (l r : Tree α)

namespace Tree

/-- The leaves and operators from left to right. -/
def flat {α : Type} : Tree α → α × List (Arith × α)
  | leaf a => (a, [])
  | node op l r => (l.flat.1, l.flat.2 ++ (op, r.flat.1) :: r.flat.2)

/-- How tightly the operator at the root binds; an operand binds tightest. -/
def level {α : Type} : Tree α → Nat
  | leaf _ => 3
  | node op _ _ => op.level

/-- At every operator, the left side binds at least as tightly, and the right side more tightly. -/
def Tidy {α : Type} : Tree α → Prop
  | leaf _ => True
  | node op l r => l.Tidy ∧ r.Tidy ∧ op.level ≤ l.level ∧ op.level < r.level

/-- The formula that a tree denotes. -/
def formula : Tree MVal → MVal
  | leaf m => m
  | node op l r => .formula (.str op.name) (.list [l.formula, r.formula]) .none .none .none

/-- Nothing in a tidy tree binds less tightly than its root. -/
theorem Tidy.le {α : Type} {t : Tree α} (h : t.Tidy) : ∀ x ∈ t.flat.2, t.level ≤ x.1.level := by
  induction t with
  | leaf a => simp [flat]
  | node op l r ihl ihr =>
    obtain ⟨hl, hr, h1, h2⟩ := h
    intro x hx
    simp only [flat, List.mem_append, List.mem_cons] at hx
    simp only [level]
    rcases hx with hx | rfl | hx
    · exact Nat.le_trans h1 (ihl hl x hx)
    · exact Nat.le_refl _
    · exact Nat.le_of_lt (Nat.lt_of_lt_of_le h2 (ihr hr x hx))

/-- A chain is the reading of one tidy tree only. -/
theorem Tidy.unique {α : Type} {t t' : Tree α} (h : t.Tidy) (h' : t'.Tidy) (hf : t.flat = t'.flat) : t = t' := by
  induction t generalizing t' with
  | leaf a =>
    cases t' with
    | leaf b => simp only [flat, Prod.mk.injEq, and_true] at hf; rw [hf]
    | node op l r => simp [flat] at hf
  | node op l r ihl ihr =>
    cases t' with
    | leaf b => simp [flat] at hf
    | node op' l' r' =>
      obtain ⟨hl, hr, h1, h2⟩ := h
      obtain ⟨hl', hr', h1', h2'⟩ := h'
      simp only [flat, Prod.mk.injEq] at hf
      obtain ⟨hf1, hf2⟩ := hf
      have key : l.flat.2 = l'.flat.2 ∧ (op, r.flat.1) :: r.flat.2 = (op', r'.flat.1) :: r'.flat.2 := by
        rcases List.append_eq_append_iff.1 hf2 with ⟨m, hm1, hm2⟩ | ⟨m, hm1, hm2⟩
        · cases m with
          | nil => exact ⟨by simpa using hm1.symm, by simpa using hm2⟩
          | cons x m =>
            simp only [List.cons_append, List.cons.injEq] at hm2
            have a1 := hl'.le x (by rw [hm1]; simp)
            have a2 := hr.le (op', r'.flat.1) (by rw [hm2.2]; simp)
            rw [← hm2.1] at a1
            simp only at a1 a2
            omega
        · cases m with
          | nil => exact ⟨by simpa using hm1, by simpa using hm2.symm⟩
          | cons x m =>
            simp only [List.cons_append, List.cons.injEq] at hm2
            have a1 := hl.le x (by rw [hm1]; simp)
            have a2 := hr'.le (op, r.flat.1) (by rw [hm2.2]; simp)
            rw [← hm2.1] at a1
            simp only at a1 a2
            omega
      simp only [List.cons.injEq, Prod.mk.injEq] at key
      rw [ihl hl hl' (Prod.ext hf1 key.1), ihr hr hr' (Prod.ext key.2.1.2 key.2.2), key.2.1.1]

end Tree

/-- An operator with the blanks around it and the operand behind it. -/
structure Link (α : Type) where
  before : Str
  op : Arith
  after : Str
  text : Str
  value : α

/-- How a link is written. -/
def Link.written {α : Type} (l : Link α) : Str := l.before ++ l.op.char :: (l.after ++ l.text)

/-- How a chain is written. -/
def chainText {α : Type} (first : Str) (links : List (Link α)) : Str := first ++ links.flatMap Link.written

end Verif.Spec
