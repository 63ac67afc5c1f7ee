import Verif.Lemmas.MqlUses
import Verif.Lemmas.Same

/-!
# C68: an accepted MQL text is read by the rules of the language
-/

namespace Verif

open Spec

section
variable [U : PyUnicode] [S : RegexSpace]

/-- **C68.** What the parser returns is what the text denotes: precedence of operators, filters and columns of calls, parameters,
strings in quotes, patterns, metrics. -/
theorem C68_denotes (mql : Str) (q : MVal) (h : parseMql mql = .ok q) : Denotes mql q := parseMql_denotes h

/-- **C68.** The parser invents nothing: the names of metrics, aggregates, functions and columns in the query are parts of the text,
and so are the strings in it that contain no quotes. -/
theorem C68_names_occur (mql : Str) (q : MVal) (s : Str) (h : parseMql mql = .ok q) (hs : QueryUses q s) : s <:+: mql :=
  denotes_uses (parseMql_denotes h) hs

end

section Examples

attribute [local instance] asciiUnicode pySpace

/-- The series of a metric with a public name. -/
private def series (m a : Str) (ps fs gs : Val) : MVal := .ts ⟨⟨.str m, .none, .none⟩, .str a, ps, fs, gs⟩

/-- The series of a metric with an MRI. -/
private def mriSeries (m a : Str) (gs : Val) : MVal := .ts ⟨⟨.none, .str m, .none⟩, .str a, .none, .none, gs⟩

/-- **C68.** The other arguments of a call with parameters whose first argument is a bare metric are lost. -/
theorem C68_arguments_dropped :
    parseMql c!"ff(1)(m, sum(b))" = .ok (series c!"m" c!"ff" (.list [.float (ofDecimal false 1 0)]) .none .none) ∧
    parseMql c!"ff(1)(m, sum(b))" = parseMql c!"ff(1)(m)" := by
  have h1 : parseMql c!"ff(1)(m, sum(b))" = .ok (series c!"m" c!"ff" (.list [.float (ofDecimal false 1 0)]) .none .none) := gives_eq (by decide +kernel)
  have h2 : parseMql c!"ff(1)(m)" = .ok (series c!"m" c!"ff" (.list [.float (ofDecimal false 1 0)]) .none .none) := gives_eq (by decide +kernel)
  exact ⟨h1, h1.trans h2.symm⟩

/-- **C68.** A text can denote more than one query: an MRI without backticks takes the columns that come after it. -/
theorem C68_columns_in_mri :
    Denotes c!"sum(d:a/b@c by x)" (mriSeries c!"d:a/b@c" c!"sum" (.list [keyColumn c!"x"])) ∧
    parseMql c!"sum(d:a/b@c by x)" = .ok (mriSeries c!"d:a/b@c by x" c!"sum" .none) := by
  constructor
  · refine ⟨[], c!"sum(d:a/b@c by x)", [], rfl, by simp, by simp, ?_, trivial⟩
    have hm : MetricMeans c!"d:a/b@c" ⟨.none, .str c!"d:a/b@c", .none⟩ :=
      .mri ⟨c!"d", c!"a", c!"b", c!"c", rfl, by decide, by decide, by decide, by decide, by decide, by decide, by decide, by decide⟩
    have hg : GroupMeans c!" by x" [keyColumn c!"x"] :=
      .one (w := c!" ") (w' := c!" ") (by simp [Blanks, RegexSpace.isSpace, isSpace]) (by simp [Blanks, RegexSpace.isSpace, isSpace])
        (.mk ⟨by decide, by decide, by decide⟩)
    have hc := Means.aggregate (n := c!"sum") (w := []) (w' := []) ⟨by decide, by decide⟩ (by simp [Blanks]) (.mk hm .none hg) (by simp [Blanks])
    exact .summand (.factor (.plain (.filtered (.grouped hc .none) (by decide) .none .none)))
  · exact gives_eq (by decide +kernel)

/-- A text with all kinds of parts. -/
private def text : Str := c!" max(a{b:\"c\"} by d) * 2 - qq(0.5)(`e`){f:[g, \"h\"] OR !i:j*} "

private def value : MVal :=
  .formula (.str c!"minus") (.list [
    .formula (.str c!"multiply") (.list [
      series c!"a" c!"max" .none (.list [.cond (keyColumn c!"b") .eq (.str c!"c")]) (.list [keyColumn c!"d"]),
      .val (.float (ofDecimal false 2 0))]) .none .none .none,
    series c!"e" c!"qq" (.list [.float (ofDecimal false 5 (-1))])
      (.list [.boolCond .or .or .list [.cond (keyColumn c!"f") Op.in_ (.list [.str c!"g", .str c!"h"]), .cond (keyColumn c!"i") .notLike (.str c!"j*")]])
      .none]) .none .none .none

private theorem text_value : parseMql text = .ok value := gives_eq (by decide +kernel)

example : Denotes text value := C68_denotes _ _ text_value

/-- The string `h` in the filter, and the column `d`. -/
example : c!"h" <:+: text ∧ c!"d" <:+: text := by
  refine ⟨C68_names_occur _ _ _ text_value ?_, C68_names_occur _ _ _ text_value ?_⟩
  · exact .operand (.tail _ (.head _)) (.filters (.list (.head _) (.member (.head _) (.rhs (.list (.tail _ (.head _)) (.string (by decide)))))))
  · exact .operand (.head _) (.operand (.head _) (.groupby (.list (.head _) .column)))

end Examples

end Verif
