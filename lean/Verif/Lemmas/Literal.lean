import Verif.Lemmas.Str
import Verif.Spec.Literal

namespace Verif
open Spec

theorem scan_close (q : Char) (rest : Str) : scanQuoted q (q :: rest) = some ([], rest) := by
  rw [scanQuoted.eq_def]; simp

theorem scan_esc (q d : Char) (h1 : q ≠ '\\') (rest : Str) :
    scanQuoted q ('\\' :: d :: rest) = (scanQuoted q rest).map fun r => (unescape d :: r.1, r.2) := by
  rw [scanQuoted.eq_def]; simp [h1.symm]

theorem scan_plain (q c : Char) (h1 : c ≠ '\\') (h2 : c ≠ q) (rest : Str) :
    scanQuoted q (c :: rest) = (scanQuoted q rest).map fun r => (c :: r.1, r.2) := by
  rw [scanQuoted.eq_def]; simp [h1, h2]

theorem scan_escaped (q : Char) (h1 : q ≠ '\\') (h3 : q ≠ 'n') (rest : Str) :
    ∀ s : Str, scanQuoted q (s.flatMap (esc1 q) ++ q :: rest) = some (s, rest)
  | [] => scan_close q rest
  | c :: s => by
    have ih := scan_escaped q h1 h3 rest s
    rw [List.flatMap_cons, List.append_assoc]
    rw [esc1]
    by_cases hb : c = '\\'
    · subst hb
      simp [scan_esc _ _ h1, ih, unescape]
    · by_cases hq : c = q
      · subst hq
        simp [scan_esc _ _ h1, ih, hb, unescape, h3]
      · by_cases hn : c = '\n'
        · subst hn
          simp [scan_esc _ _ h1, ih, hq, unescape]
        · simp [scan_plain _ _ hb hq, ih, hb, hq, hn]

theorem quote_ne (cfg : Cfg) : cfg.quote ≠ '\\' ∧ cfg.quote ≠ '\n' ∧ cfg.quote ≠ 'n' := by
  unfold Cfg.quote; split <;> decide

theorem read_strLit (cfg : Cfg) (s rest : Str) :
    readQuoted cfg.quote (strLit cfg s ++ rest) = some (s, rest) := by
  obtain ⟨h1, h2, h3⟩ := quote_ne cfg
  unfold strLit
  rw [escapeStr_eq _ h1 h2]
  simp [readQuoted, scan_escaped _ h1 h3]

theorem strLit_no_newline (cfg : Cfg) (s : Str) : '\n' ∉ strLit cfg s := by
  obtain ⟨h1, h2, h3⟩ := quote_ne cfg
  unfold strLit
  rw [escapeStr_eq _ h1 h2]
  have hn : ∀ c, '\n' ∉ esc1 cfg.quote c := by
    intro c; unfold esc1
    split
    · simp
    · split
      · rename_i h; simp [h2.symm]
      · split
        · simp
        · rename_i h; simp [Ne.symm h]
  simp [h2.symm, hn]

/-! ### UTF-8 -/

theorem charOfNat_toNat (c : Char) : Char.ofNat c.toNat = c := Char.ofNat_toNat c

theorem char_valid (c : Char) : c.toNat < 0xD800 ∨ (0xDFFF < c.toNat ∧ c.toNat < 0x110000) := by
  exact c.valid

theorem toNat_ofNat {n : Nat} (h : n < 0xD800 ∨ (0xDFFF < n ∧ n < 0x110000)) :
    (Char.ofNat n).toNat = n := by
  have hv : n.isValidChar := h
  simp [Char.ofNat, hv, Char.toNat, Char.ofNatAux, UInt32.toNat]

theorem map_eq_cons' {bs : List UInt8} {a : Nat} {l : List Nat} (h : bs.map UInt8.toNat = a :: l) :
    ∃ b bs', bs = b :: bs' ∧ b.toNat = a ∧ bs'.map UInt8.toNat = l := by
  cases bs with
  | nil => simp at h
  | cons b bs' => simp at h; exact ⟨b, bs', rfl, h.1, h.2⟩

theorem decode_utf8 : ∀ (s : Str) (bs : List UInt8), IsUtf8 bs s → utf8Decode bs = some s
  | [], bs, h => by
    simp [IsUtf8] at h; subst h; simp [utf8Decode]
  | c :: s, bs, h => by
    unfold IsUtf8 at h
    rw [List.flatMap_cons] at h
    have hv := char_valid c
    have hc := charOfNat_toNat c
    unfold utf8 at h
    split at h
    · obtain ⟨b, bs', rfl, hb, h'⟩ := map_eq_cons' h
      have ih := decode_utf8 s bs' h'
      rw [utf8Decode.eq_def]
      simp [*]
    · split at h
      · obtain ⟨b, bs', rfl, hb, h'⟩ := map_eq_cons' h
        obtain ⟨b1, bs1, rfl, hb1, h'⟩ := map_eq_cons' h'
        have ih := decode_utf8 s bs1 h'
        rw [utf8Decode.eq_def]
        have e1 : ¬ b.toNat < 128 := by omega
        have e2 : isCont b1 = true := by simp [isCont]; omega
        have e3 : 194 ≤ b.toNat ∧ b.toNat ≤ 223 := by omega
        have e4 : (b.toNat - 192) * 64 + (b1.toNat - 128) = c.toNat := by omega
        simp only [e1, e2, e3, e4, ih, hc, Bool.not_true]
        simp
      · split at h
        · obtain ⟨b, bs', rfl, hb, h'⟩ := map_eq_cons' h
          obtain ⟨b1, bs1, rfl, hb1, h'⟩ := map_eq_cons' h'
          obtain ⟨b2, bs2, rfl, hb2, h'⟩ := map_eq_cons' h'
          have ih := decode_utf8 s bs2 h'
          rw [utf8Decode.eq_def]
          have e1 : ¬ b.toNat < 128 := by omega
          have e2 : isCont b1 = true := by simp [isCont]; omega
          have e2' : isCont b2 = true := by simp [isCont]; omega
          have e3 : ¬ (194 ≤ b.toNat ∧ b.toNat ≤ 223) := by omega
          have e3' : 224 ≤ b.toNat ∧ b.toNat ≤ 239 := by omega
          have e4 : (b.toNat - 224) * 4096 + (b1.toNat - 128) * 64 + (b2.toNat - 128) = c.toNat := by omega
          have e5 : ¬ (c.toNat < 2048 ∨ 55296 ≤ c.toNat ∧ c.toNat ≤ 57343) := by omega
          simp only [e1, e2, e2', e3, e3', e4, e5, ih, hc, Bool.not_true]
          simp
        · obtain ⟨b, bs', rfl, hb, h'⟩ := map_eq_cons' h
          obtain ⟨b1, bs1, rfl, hb1, h'⟩ := map_eq_cons' h'
          obtain ⟨b2, bs2, rfl, hb2, h'⟩ := map_eq_cons' h'
          obtain ⟨b3, bs3, rfl, hb3, h'⟩ := map_eq_cons' h'
          have ih := decode_utf8 s bs3 h'
          rw [utf8Decode.eq_def]
          have e1 : ¬ b.toNat < 128 := by omega
          have e2 : isCont b1 = true := by simp [isCont]; omega
          have e2' : isCont b2 = true := by simp [isCont]; omega
          have e2'' : isCont b3 = true := by simp [isCont]; omega
          have e3 : ¬ (194 ≤ b.toNat ∧ b.toNat ≤ 223) := by omega
          have e3' : ¬ (224 ≤ b.toNat ∧ b.toNat ≤ 239) := by omega
          have e3'' : 240 ≤ b.toNat ∧ b.toNat ≤ 244 := by omega
          have e4 : (b.toNat - 240) * 262144 + (b1.toNat - 128) * 4096 + (b2.toNat - 128) * 64 +
            (b3.toNat - 128) = c.toNat := by omega
          have e5 : ¬ (c.toNat < 65536 ∨ 1114111 < c.toNat) := by omega
          simp only [e1, e2, e2', e2'', e3, e3', e3'', e4, e5, ih, hc, Bool.not_true]
          simp

theorem isCont_iff (b : UInt8) : isCont b = true ↔ 0x80 ≤ b.toNat ∧ b.toNat ≤ 0xBF := by
  simp [isCont]

theorem utf8_decode_sound : ∀ (bs : List UInt8) (s : Str), utf8Decode bs = some s → IsUtf8 bs s
  | [], s, h => by simp [utf8Decode] at h; subst h; simp [IsUtf8]
  | b0 :: rest, s, h => by
    rw [utf8Decode.eq_def] at h
    dsimp only at h
    have key : ∀ (n : Nat) (pre : List UInt8) (tl : List UInt8) (hn : n < 0xD800 ∨ (0xDFFF < n ∧ n < 0x110000))
        (hp : pre.map UInt8.toNat = utf8 n) (ih : ∀ s', utf8Decode tl = some s' → IsUtf8 tl s'),
        Option.map (fun x => Char.ofNat n :: x) (utf8Decode tl) = some s → IsUtf8 (pre ++ tl) s := by
      intro n pre tl hn hp ih h
      rw [Option.map_eq_some_iff] at h
      obtain ⟨s', hs', rfl⟩ := h
      have := ih s' hs'
      unfold IsUtf8 at this ⊢
      rw [List.map_append, List.flatMap_cons, toNat_ofNat hn, hp, this]
    split at h
    · rename_i hlt
      exact key b0.toNat [b0] rest (by omega) (by simp [utf8, hlt])
        (fun s' => utf8_decode_sound rest s') h
    · rename_i h0
      split at h
      · simp at h
      · rename_i b1 rest1
        split at h
        · simp at h
        · rename_i hc1
          have hc1 := (isCont_iff b1).1 (by simpa using hc1)
          split at h
          · rename_i h2
            refine key _ [b0, b1] rest1 (by omega) ?_ (fun s' => utf8_decode_sound rest1 s') h
            unfold utf8
            rw [if_neg (by omega), if_pos (by omega)]
            simp; omega
          · rename_i h2
            split at h
            · simp at h
            · rename_i b2 rest2
              split at h
              · simp at h
              · rename_i hc2
                have hc2 := (isCont_iff b2).1 (by simpa using hc2)
                split at h
                · rename_i h3
                  split at h
                  · simp at h
                  · rename_i h4
                    refine key _ [b0, b1, b2] rest2 (by omega) ?_ (fun s' => utf8_decode_sound rest2 s') h
                    unfold utf8
                    rw [if_neg (by omega), if_neg (by omega), if_pos (by omega)]
                    simp; omega
                · rename_i h3
                  split at h
                  · simp at h
                  · rename_i b3 rest3
                    split at h
                    · simp at h
                    · rename_i hc3
                      have hc3 := (isCont_iff b3).1 (by simpa using hc3)
                      split at h
                      · rename_i h5
                        split at h
                        · simp at h
                        · rename_i h6
                          refine key _ [b0, b1, b2, b3] rest3 (by omega) ?_
                            (fun s' => utf8_decode_sound rest3 s') h
                          unfold utf8
                          rw [if_neg (by omega), if_neg (by omega), if_neg (by omega)]
                          simp; omega
                      · simp at h

end Verif
