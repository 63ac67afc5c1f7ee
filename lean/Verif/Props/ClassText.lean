import Verif.Spec.ClassText
import Verif.Props.BuildMessages

/-!
# C89: the class that the message of a refused condition names
-/

namespace Verif

open Spec

section
variable [PyText]

/-- **C89** (classes). The text that a message has for the class of a value is the one that Python prints for it. -/
theorem C89_class_text (v : Val) (hv : ∀ n, v ≠ .other n) (t : Str) : ClassShown v t ↔ v.classText = t := by
  constructor
  · intro h
    cases h <;> rfl
  · rintro rfl
    cases v with
    | other n => exact absurd rfl (hv n)
    | curried f n ik is pk ps a =>
      cases f
      · exact .curried ..
      · exact .function ..
    | boolCond c o k cs =>
      cases c
      · exact .boolean ..
      · exact .conjunction ..
      · exact .disjunction ..
    | none => exact .none
    | bool b => exact .bool b
    | int i => exact .int i
    | float f => exact .float f
    | str s => exact .str s
    | bytes bs => exact .bytes bs
    | date d => exact .date d
    | datetime d => exact .datetime d
    | list xs => exact .list xs
    | tuple xs => exact .tuple xs
    | column c => exact .column c
    | ident n => exact .ident n
    | lam k is b => exact .lam k is b
    | aliased e a => exact .aliased e a
    | cond l o r => exact .cond l o r
    | orderby e d => exact .orderby e d
    | limitby k cs n => exact .limitby k cs n
    | limit n => exact .limit n
    | offset n => exact .offset n
    | granularity n => exact .granularity n
    | totals b => exact .totals b
    | extrapolate b => exact .extrapolate b
    | entity e => exact .entity e
    | storage s => exact .storage s
    | rel r => exact .rel r
    | join k rs => exact .join k rs
    | op o => exact .op o
    | boolOp o => exact .boolOp o
    | direction d => exact .direction d
    | dataModel d => exact .dataModel d

end

/-- An operator in the place of a column. -/
example [PyText] : (Val.op .eq).classText = c!"<enum 'Op'>" := (C89_class_text _ (by simp) _).1 (.op .eq)

end Verif
