import Verif.Spec.Json
import Verif.Lemmas.Str

/-!
# Lemmas on JSON strings
-/

namespace Verif
open Spec

theorem hexDigit_hexChar {n : Nat} (h : n < 16) : hexDigit (hexChar n) = some n := by
  have : ∀ k : Fin 16, hexDigit (hexChar k.val) = some k.val := by decide
  exact this ⟨n, h⟩

theorem readHex_digits {a b c d : Nat} (ha : a < 16) (hb : b < 16) (hc : c < 16) (hd : d < 16) (r : Str) :
    readHex (hexChar a :: hexChar b :: hexChar c :: hexChar d :: r) = some (((a * 16 + b) * 16 + c) * 16 + d, r) := by
  simp [readHex, hexDigit_hexChar ha, hexDigit_hexChar hb, hexDigit_hexChar hc, hexDigit_hexChar hd]

theorem readHex_escape {n : Nat} (h : n < 65536) (r : Str) :
    readHex (hexChar (n / 4096 % 16) :: hexChar (n / 256 % 16) :: hexChar (n / 16 % 16) :: hexChar (n % 16) :: r) = some (n, r) := by
  rw [readHex_digits (by omega) (by omega) (by omega) (by omega)]
  congr 2
  omega

theorem char_range (c : Char) : c.toNat < 0xd800 ∨ 0xe000 ≤ c.toNat ∧ c.toNat < 0x110000 := by
  have h := c.valid
  simp only [UInt32.isValidChar, Nat.isValidChar] at h
  have e : c.toNat = c.val.toNat := rfl
  omega

theorem readLow_pair {hi lo k : Nat} (hl : 0xdc00 ≤ lo) (hl' : lo < 0xe000) (r : Str)
    (hk : 0x10000 + (hi - 0xd800) * 0x400 + (lo - 0xdc00) = k) : readLow hi (hexEscape lo ++ r) = some (Char.ofNat k, r) := by
  simp only [hexEscape, List.cons_append, List.nil_append, readLow]
  rw [readHex_escape (by omega)]
  simp only [Option.bind_eq_bind, Option.bind_some]
  rw [if_pos ⟨hl, hl'⟩, hk]

theorem readEscape_pair {hi lo k : Nat} (hh : 0xd800 ≤ hi) (hh' : hi < 0xdc00) (hl : 0xdc00 ≤ lo) (hl' : lo < 0xe000) (r : Str)
    (hk : 0x10000 + (hi - 0xd800) * 0x400 + (lo - 0xdc00) = k) :
    readJsonChar (hexEscape hi ++ (hexEscape lo ++ r)) = some (Char.ofNat k, r) := by
  rw [hexEscape]
  simp only [List.cons_append, List.nil_append, readJsonChar, readEscape]
  rw [readHex_escape (by omega)]
  simp only [Option.bind_eq_bind, Option.bind_some, readUtf16]
  rw [if_pos ⟨hh, hh'⟩, readLow_pair hl hl' r hk]

theorem readEscape_single {n : Nat} (h : n < 65536) (hn : n < 0xd800 ∨ 0xe000 ≤ n) (r : Str) :
    readJsonChar (hexEscape n ++ r) = some (Char.ofNat n, r) := by
  simp only [hexEscape, List.cons_append, List.nil_append, readJsonChar, readEscape]
  rw [readHex_escape h]
  simp only [Option.bind_eq_bind, Option.bind_some, readUtf16]
  rw [if_neg (by omega), if_neg (by omega)]

theorem readJsonChar_jsonChar (c : Char) (r : Str) : readJsonChar (jsonChar c ++ r) = some (c, r) := by
  unfold jsonChar
  split
  · subst c; rfl
  split
  · subst c; rfl
  split
  · subst c; rfl
  split
  · subst c; rfl
  split
  · subst c; rfl
  split
  · rename_i h
    have : c = Char.ofNat 12 := by rw [← h, Char.ofNat_toNat]
    subst this; rfl
  split
  · rename_i h
    have : c = Char.ofNat 8 := by rw [← h, Char.ofNat_toNat]
    subst this; rfl
  split
  · rename_i h1 h2 _ _ _ _ _ h
    simp only [List.cons_append, List.nil_append]
    unfold readJsonChar
    split
    · simp_all
    · simp_all
    · rename_i heq
      injection heq with e1 e2
      subst e1 e2
      rw [if_neg (by omega)]
  have hr := char_range c
  have hc : Char.ofNat c.toNat = c := Char.ofNat_toNat c
  generalize c.toNat = n at *
  split
  · rw [readEscape_single (by assumption) (by omega), hc]
  · rw [List.append_assoc, readEscape_pair (k := n) (by omega) (by omega) (by omega) (by omega) r (by omega), hc]

theorem jsonChar_head (c : Char) : ∃ x t, jsonChar c = x :: t ∧ x ≠ '"' := by
  unfold jsonChar
  repeat' split
  all_goals first
    | exact ⟨_, _, rfl, by decide⟩
    | exact ⟨_, _, rfl, by assumption⟩

theorem readJsonStr_flatMap (s : Str) (r : Str) : ∀ f, s.length < f →
    readJsonStr f (s.flatMap jsonChar ++ '"' :: r) = some (s, r) := by
  induction s with
  | nil => intro f hf; cases f with
    | zero => cases hf
    | succ f => rfl
  | cons c s ih =>
    intro f hf
    cases f with
    | zero => cases hf
    | succ f =>
      obtain ⟨x, t, hx, hq⟩ := jsonChar_head c
      have h1 := readJsonChar_jsonChar c (s.flatMap jsonChar ++ '"' :: r)
      have e : (c :: s).flatMap jsonChar ++ '"' :: r = x :: (t ++ (s.flatMap jsonChar ++ '"' :: r)) := by
        simp [hx]
      rw [hx] at h1
      rw [e, readJsonStr]
      · simp only [List.cons_append] at h1
        rw [h1]
        simp only [Option.bind_eq_bind, Option.bind_some]
        rw [ih f (by simpa using hf)]
        rfl
      · rintro h; simp_all

theorem jsonChar_length (c : Char) : 1 ≤ (jsonChar c).length := by
  obtain ⟨x, t, hx, _⟩ := jsonChar_head c
  simp [hx]

theorem flatMap_jsonChar_length (s : Str) : s.length ≤ (s.flatMap jsonChar).length := by
  induction s with
  | nil => simp
  | cons c s ih =>
    have := jsonChar_length c
    simp only [List.flatMap_cons, List.length_append, List.length_cons]
    omega

end Verif
