import Verif.Lemmas.Plain

/-!
# C01, C05, C06: literals
-/

namespace Verif
open Spec

/-- **C01.** A string prints as a single-quoted literal; a reader stops exactly at its end, whatever
follows, and gets the string back. -/
theorem C01_snql_string_literal_contained (s rest : Str) :
    ∃ t, translate .snql (.str s) = .ok t ∧ t.head? = some '\'' ∧
      readQuoted '\'' (t ++ rest) = some (s, rest) :=
  ⟨strLit .snql s, rfl, rfl, read_strLit .snql s rest⟩

/-- The same with and without alias qualification of columns (join queries). -/
theorem C01_snql_string_literal_contained_any_mode (aliases : Bool) (s rest : Str) :
    ∃ t, translate ⟨aliases, false⟩ (.str s) = .ok t ∧
      readQuoted '\'' (t ++ rest) = some (s, rest) :=
  ⟨strLit ⟨aliases, false⟩ s, rfl, read_strLit ⟨aliases, false⟩ s rest⟩

/-- Different strings have different literals, and no literal is a prefix of another. -/
theorem C01_snql_string_literal_prefix_free (s s' : Str) (t t' rest rest' : Str)
    (h : translate .snql (.str s) = .ok t) (h' : translate .snql (.str s') = .ok t')
    (e : t ++ rest = t' ++ rest') : s = s' ∧ rest = rest' := by
  obtain ⟨a, ha, _, hr⟩ := C01_snql_string_literal_contained s rest
  obtain ⟨b, hb, _, hr'⟩ := C01_snql_string_literal_contained s' rest'
  rw [h] at ha; rw [h'] at hb
  cases ha; cases hb
  rw [e, hr'] at hr
  simp only [Option.some.injEq, Prod.mk.injEq] at hr
  exact ⟨hr.1.symm, hr.2.symm⟩

example : ∃ t, translate .snql (.str c!"it's \\ a\n'trap") = .ok t ∧
    t = c!"'it\\'s \\\\ a\\n\\'trap'" ∧ readQuoted '\'' (t ++ c!" OR 1") = some (c!"it's \\ a\n'trap", c!" OR 1") :=
  ⟨_, rfl, by decide, by decide⟩

/-- **C05.** No plain scalar prints a raw newline, in SnQL or MQL mode. -/
theorem C05_plain_literal_no_newline (cfg : Cfg) (v : Val) (hv : Plain v) (t : Str)
    (h : translate cfg v = .ok t) : '\n' ∉ t :=
  plain_no_newline cfg hv t h

example : Plain (.list [.str c!"a\nb", .tuple [.int 3, .none]]) ∧
    (∃ t, translate .mql (.list [.str c!"a\nb", .tuple [.int 3, .none]]) = .ok t ∧ '\n' ∉ t) := by
  refine ⟨?_, _, rfl, by decide⟩
  refine .list _ fun x hx => ?_
  simp only [List.mem_cons, List.not_mem_nil, or_false] at hx
  rcases hx with rfl | rfl
  · exact .str _
  · refine .tuple _ fun y hy => ?_
    simp only [List.mem_cons, List.not_mem_nil, or_false] at hy
    rcases hy with rfl | rfl
    · exact .int _
    · exact .none

/-- **C06.** The literal of the UTF-8 encoding of `s` is the literal of `s`. -/
theorem C06_bytes_literal_is_string_literal (cfg : Cfg) (bs : List UInt8) (s : Str) (h : IsUtf8 bs s) :
    translate cfg (.bytes bs) = translate cfg (.str s) := by
  simp [translate, decode_utf8 s bs h]

/-- **C06.** Bytes that are not UTF-8 raise; nothing is emitted. -/
theorem C06_invalid_bytes_raise (cfg : Cfg) (bs : List UInt8) (h : ∀ s, ¬ IsUtf8 bs s) :
    translate cfg (.bytes bs) = .error .unicodeDecodeError := by
  cases hd : utf8Decode bs with
  | none => simp [translate, hd]
  | some s => exact absurd (utf8_decode_sound bs s hd) (h s)

/-- **C06.** Both directions at once: the emitted text is the literal of the decoded text, exactly
when there is one. -/
theorem C06_bytes_literal_iff (cfg : Cfg) (bs : List UInt8) (t : Str) :
    translate cfg (.bytes bs) = .ok t ↔ ∃ s, IsUtf8 bs s ∧ translate cfg (.str s) = .ok t := by
  constructor
  · intro h
    cases hd : utf8Decode bs with
    | none => simp [translate, hd] at h
    | some s =>
      refine ⟨s, utf8_decode_sound bs s hd, ?_⟩
      rw [← C06_bytes_literal_is_string_literal cfg bs s (utf8_decode_sound bs s hd)]; exact h
  · rintro ⟨s, hs, h⟩
    rw [C06_bytes_literal_is_string_literal cfg bs s hs]; exact h

example : IsUtf8 [0xE2, 0x82, 0xAC, 0x27] ['€', '\''] ∧
    translate .snql (.bytes [0xE2, 0x82, 0xAC, 0x27]) = .ok c!"'€\\''" :=
  ⟨by unfold IsUtf8; decide, by decide⟩

example : (∀ s, ¬ IsUtf8 [0xC0, 0x80] s) ∧
    translate .snql (.bytes [0xC0, 0x80]) = .error .unicodeDecodeError := by
  refine ⟨fun s h => ?_, by decide⟩
  have := decode_utf8 s _ h
  have hn : utf8Decode [0xC0, 0x80] = none := by decide
  rw [hn] at this; cases this

end Verif
