import Verif.Lemmas.Nearest
import Verif.Props.MqlArith
import Verif.Model.MetricsQuery

/-!
# C62: numbers are printed and read as closely as floats allow
-/

namespace Verif

open Spec (Nearest Shortest FloatText floatValue)

/-- **C62.** A number that is rounded to a float is rounded to no other (apart from the sign of zero). -/
theorem C62_nearest_unique (x : ℚ) (f g : PyFloat) (hf : Nearest x f) (hg : Nearest x g) :
    f = g ∨ ∃ a b : Dbl, f = .fin a ∧ g = .fin b ∧ a.m = 0 ∧ b.m = 0 := by
  cases f with
  | nan => cases hf
  | fin a =>
    by_cases ha : a.m = 0
    · cases g with
      | nan => cases hg
      | fin b =>
        by_cases hb : b.m = 0
        · exact .inr ⟨a, b, rfl, rfl, ha, hb⟩
        · exact .inl (nearest_unique hb hg hf)
      | inf neg =>
        exfalso
        cases hf with
        | fin _ h1 _ _ => cases hg with
          | inf _ h2 =>
            have h5 := le_abs_self x
            have h6 := neg_le_abs x
            generalize (2 : ℚ) ^ 1024 - 2 ^ 970 = top at *
            cases neg
            · simp only [Bool.false_eq_true, ↓reduceIte] at h2; linarith
            · simp only [↓reduceIte] at h2; linarith
    · exact .inl (nearest_unique ha hf hg).symm
  | inf neg =>
    cases g with
    | nan => cases hg
    | fin b =>
      exfalso
      cases hg with
      | fin _ h1 _ _ => cases hf with
        | inf _ h2 =>
          have h5 := le_abs_self x
          have h6 := neg_le_abs x
          generalize (2 : ℚ) ^ 1024 - 2 ^ 970 = top at *
          cases neg
          · simp only [Bool.false_eq_true, ↓reduceIte] at h2; linarith
          · simp only [↓reduceIte] at h2; linarith
    | inf neg' =>
      cases hf with
      | inf _ h1 => cases hg with
        | inf _ h2 =>
          have htop : (0 : ℚ) < 2 ^ 1024 - 2 ^ 970 := by
            rw [top_value]; exact mul_pos (by norm_num) (two_zpow_pos _)
          generalize (2 : ℚ) ^ 1024 - 2 ^ 970 = top at *
          left
          cases neg <;> cases neg' <;> simp only [Bool.false_eq_true, ↓reduceIte] at h1 h2 <;> first | rfl | (exfalso; linarith)

/-- **C62.** A finite float other than zero is printed, in SnQL, in MQL and as an operand of a formula, as the shortest
decimal that is rounded to it (with zeros added where the layout needs them), and always so that it cannot be taken for an int. -/
theorem C62_printed [R : PyRepr] (cfg : Cfg) (d : Dbl) (h0 : d.m ≠ 0) :
    ∃ (t : Str) (n : Nat) (p : Int) (z : Nat), translate cfg (.float (.fin d)) = .ok t ∧ paramMql (.val (.float (.fin d))) = .ok t ∧
      FloatText t d.neg (n * 10 ^ z) (p - z) ∧ Shortest d n p := by
  obtain ⟨i, f, ex, x, z, h1, h2, h3, h4, h5, h6, h7⟩ := layout_text d.digits.1 d.digits.2
  refine ⟨(PyFloat.fin d).repr, d.digits.1, d.digits.2, z, rfl, ?_, ?_, digits_shortest d h0⟩
  · rfl
  · have e : (PyFloat.fin d).repr = (if d.neg then ['-'] else []) ++ (i ++ ((if f = [] then [] else '.' :: f) ++ ex)) := by
      simp only [PyFloat.repr, Dbl.reprAbs, if_neg h0, h1]
    rw [e, ← h6, ← h7]
    exact .mk _ i f ex x h2 h3 h4 h5

/-- **C62.** Zero is printed as zero, with its sign. -/
theorem C62_printed_zero [R : PyRepr] (cfg : Cfg) (d : Dbl) (h0 : d.m = 0) :
    ∃ t p, translate cfg (.float (.fin d)) = .ok t ∧ paramMql (.val (.float (.fin d))) = .ok t ∧ FloatText t d.neg 0 p := by
  refine ⟨(PyFloat.fin d).repr, 0 - (c!"0".length : Int), rfl, rfl, ?_⟩
  have e : (PyFloat.fin d).repr = (if d.neg then ['-'] else []) ++ (c!"0" ++ ((if c!"0" = [] then [] else '.' :: c!"0") ++ [])) := by
    simp only [PyFloat.repr, Dbl.reprAbs, if_pos h0]
    rfl
  rw [e]
  exact .mk _ c!"0" c!"0" [] 0 (by simp) (by decide) rfl (.inl (by simp))

section
variable [U : PyUnicode] [S : RegexSpace]

omit U in
/-- A number text is read as the nearest float. -/
theorem reads_nearest (neg : Bool) {a f t : Str} (ha : a ≠ []) (hd : ∀ c ∈ a ++ f, Spec.digit c = true)
    (ht : t = a ++ (if f = [] then [] else '.' :: f)) :
    ∃ x, Reads .signed ((if neg then ['-'] else []) ++ t) (.val (.float x)) ∧
      Nearest ((if neg then -1 else 1) * (Spec.numeral (a ++ f) * 10 ^ (-(f.length : Int)))) x := by
  rw [digit_eq] at hd
  have hnum : NumText t (ofDecimal false (Spec.numeral (a ++ f)) (-(f.length : Int))) := by
    refine ⟨a, f, ha, fun c h => hd c (by simp [h]), fun c h => hd c (by simp [h]), ?_, rfl⟩
    by_cases hf : f = []
    · left; exact ⟨by rw [ht, if_pos hf, List.append_nil], hf⟩
    · right; exact ⟨hf, by rw [ht, if_neg hf]⟩
  cases neg
  · exact ⟨_, .plain (.number hnum), ofDecimal_nearest false _ _⟩
  · refine ⟨_, .minus (.number hnum) rfl, ?_⟩
    have e : (ofDecimal false (Spec.numeral (a ++ f)) (-(f.length : Int))).negate =
        ofDecimal true (Spec.numeral (a ++ f)) (-(f.length : Int)) := by
      unfold ofDecimal roundRat mkDbl
      simp only
      split
      · rfl
      · split <;> rfl
    rw [e]
    exact ofDecimal_nearest true _ _

/-- **C62.** A number in MQL, with or without a minus and a fraction, is read as the nearest float, wherever it is an operand. -/
theorem C62_read (neg : Bool) (a f t w rest : Str) (ha : a ≠ []) (hd : ∀ c ∈ a ++ f, Spec.digit c = true)
    (ht : t = a ++ (if f = [] then [] else '.' :: f)) (hw : ∀ c ∈ w, S.isSpace c = true)
    (hrest : rest = [] ∨ ∃ c r, rest = c :: r ∧ c ∈ c!"+-*/),") :
    ∃ n nd x, pegRun mqlGrammar n (.rule .unary) ((if neg then ['-'] else []) ++ t ++ (w ++ rest)) = .ok nd (w ++ rest) ∧
      visitNode nd = .ok (.obj (.val (.float x))) ∧
      Nearest ((if neg then -1 else 1) * (Spec.numeral (a ++ f) * 10 ^ (-(f.length : Int)))) x := by
  obtain ⟨x, hx, hn⟩ := reads_nearest neg ha hd ht
  obtain ⟨n, nd, h1, h2⟩ := C39_operands hx w rest hw hrest
  exact ⟨n, nd, x, h1, h2, hn⟩

/-- **C62.** The same for the whole text `query op number`. -/
theorem C62_parsed (neg : Bool) (a f t q : Str) (y : MVal) (op : Spec.Arith) (w w' : Str) (hq : Reads .signed q y) (hy : IsQuery y)
    (ha : a ≠ []) (hd : ∀ c ∈ a ++ f, Spec.digit c = true) (ht : t = a ++ (if f = [] then [] else '.' :: f))
    (hw : ∀ c ∈ w, S.isSpace c = true) (hw' : ∀ c ∈ w', S.isSpace c = true) (mql : Str)
    (hmql : stripP isSpace mql = q ++ (w ++ (op.char :: (w' ++ ((if neg then ['-'] else []) ++ t))))) :
    ∃ x, parseMql mql = .ok (.formula (.str op.name) (.list [y, .val (.float x)]) .none .none .none) ∧
      Nearest ((if neg then -1 else 1) * (Spec.numeral (a ++ f) * 10 ^ (-(f.length : Int)))) x := by
  obtain ⟨x, hx, hn⟩ := reads_nearest neg ha hd ht
  refine ⟨x, ?_, hn⟩
  obtain ⟨tr, h1, h2, h3⟩ := C39_precedence_and_associativity (mql := mql) (first := q)
    (ls := [⟨w, op, w', (if neg then ['-'] else []) ++ t, .val (.float x)⟩]) (by rw [hmql]; simp [Spec.chainText, Spec.Link.written]) hq
    (by intro l hl; rw [List.mem_singleton] at hl; subst hl; exact ⟨hw, hw', hx⟩) (.inl hy)
  have := C39_reading_unique (tr' := .node op (.leaf y) (.leaf (.val (.float x)))) h1
    (by cases op <;> simp [Spec.Tree.Tidy, Spec.Tree.level, Spec.Arith.level]) (by rw [h2]; rfl)
  rw [h3, this]
  rfl

end

section Examples

attribute [local instance] asciiUnicode pySpace
local instance exNumbersRepr : PyRepr := ⟨fun _ => []⟩

/-- The float nearest to 0.1. -/
private def exTenth : Dbl := ⟨false, 3602879701896397, -55, by decide⟩

example : translate .snql (.float (.fin exTenth)) = .ok c!"0.1" := by decide +kernel

/-- No shorter text, and none of the same length that is nearer, is rounded to it. -/
example : Shortest exTenth 1 (-1) := by
  have h := digits_shortest exTenth (by decide)
  have e : exTenth.digits = (1, -1) := by decide +kernel
  rw [e] at h
  exact h

/-- The float nearest to 10^23, which is 99999999999999991611392. -/
private def ex23 : Dbl := ⟨false, 2980232238769531, 25, by decide⟩

example : translate .snql (.float (.fin ex23)) = .ok c!"1e+23" := by decide +kernel

example : ∃ (t : Str) (n : Nat) (p : Int) (z : Nat), translate .snql (.float (.fin ex23)) = .ok t ∧
    paramMql (.val (.float (.fin ex23))) = .ok t ∧ FloatText t false (n * 10 ^ z) (p - z) ∧ Shortest ex23 n p :=
  C62_printed .snql ex23 (by decide)

/-- Sixteen digits are not enough for some floats, seventeen always are. -/
private def ex17 : Dbl := ⟨false, 1351079888211149, -52, by decide⟩

example : translate .snql (.float (.fin ex17)) = .ok c!"0.30000000000000004" := by decide +kernel

/-- 2^53 + 1 is between two floats; of these the one with the even significand is read. -/
example : Nearest ((if false = true then -1 else 1) * ((9007199254740993 : Nat) * 10 ^ (0 : Int))) (.fin ⟨false, 1, 53, by decide⟩) := by
  have h := ofDecimal_nearest false 9007199254740993 0
  rw [show ofDecimal false 9007199254740993 0 = .fin ⟨false, 1, 53, by decide⟩ by decide +kernel] at h
  exact h

example : ∃ x, parseMql c!" sum(a) * -0.1 " = .ok (.formula (.str c!"multiply")
      (.list [.ts ⟨⟨.str c!"a", .none, .none⟩, .str c!"sum", .none, .none, .none⟩, .val (.float x)]) .none .none .none) ∧
    Nearest ((if true = true then -1 else 1) * ((Spec.numeral c!"01" : Nat) * 10 ^ (-(1 : Int)))) x :=
  C62_parsed true c!"0" c!"1" c!"0.1" c!"sum(a)" _ .times c!" " c!" " (exSum c!"a" ⟨by simp, by decide⟩) trivial (by simp) (by decide) rfl
    (by decide) (by decide) _ rfl

example : ∃ n nd x, pegRun mqlGrammar n (.rule .unary) c!"2.50 + sum(b)" = .ok nd c!" + sum(b)" ∧ visitNode nd = .ok (.obj (.val (.float x))) ∧
    Nearest ((if false = true then -1 else 1) * ((Spec.numeral c!"250" : Nat) * 10 ^ (-(2 : Int)))) x :=
  C62_read false c!"2" c!"50" c!"2.50" c!" " c!"+ sum(b)" (by simp) (by decide) rfl (by decide) (.inr ⟨_, _, rfl, by simp⟩)

/-- The metric and the aggregate of the second operand. -/
private def exSecond : Except Err MVal → Option (Str × Str)
  | .ok (.formula _ (.list [_, .ts ⟨⟨.str m, _, _⟩, .str a, _, _, _⟩]) _ _ _) => some (m, a)
  | _ => none

/-- A finding: numbers in MQL that are too large are read as infinity; this is printed as `inf`, which is read as a metric. -/
example : ((parseMql (c!"sum(a) * 1" ++ List.replicate 309 '0')).bind paramMql).toOption = some c!"(sum(a) * inf)" ∧
    exSecond (parseMql c!"(sum(a) * inf)") = some (c!"inf", c!"AGGREGATE_PLACEHOLDER") := by decide +kernel

end Examples

end Verif
