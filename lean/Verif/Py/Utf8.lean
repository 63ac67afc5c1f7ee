import Verif.Py.Str

/-!
# `bytes.decode()`: strict UTF-8
-/

namespace Verif

/-- A continuation byte. -/
def isCont (b : UInt8) : Bool := decide (0x80 ≤ b.toNat) && decide (b.toNat ≤ 0xBF)

/-- `bytes.decode()` with the default codec and error handler; `none` stands for
`UnicodeDecodeError` (Python built-in; snuba_sdk/visitors.py:149). -/
def utf8Decode : List UInt8 → Option Str
  | [] => some []
  | b0 :: rest =>
    let n0 := b0.toNat
    if n0 < 0x80 then (utf8Decode rest).map (Char.ofNat n0 :: ·)
    else match rest with
      | [] => none
      | b1 :: rest1 =>
        if !isCont b1 then none
        else if 0xC2 ≤ n0 ∧ n0 ≤ 0xDF then
          (utf8Decode rest1).map (Char.ofNat ((n0 - 0xC0) * 64 + (b1.toNat - 0x80)) :: ·)
        else match rest1 with
          | [] => none
          | b2 :: rest2 =>
            if !isCont b2 then none
            else if 0xE0 ≤ n0 ∧ n0 ≤ 0xEF then
              let c := (n0 - 0xE0) * 4096 + (b1.toNat - 0x80) * 64 + (b2.toNat - 0x80)
              if c < 0x800 ∨ (0xD800 ≤ c ∧ c ≤ 0xDFFF) then none
              else (utf8Decode rest2).map (Char.ofNat c :: ·)
            else match rest2 with
              | [] => none
              | b3 :: rest3 =>
                if !isCont b3 then none
                else if 0xF0 ≤ n0 ∧ n0 ≤ 0xF4 then
                  let c := (n0 - 0xF0) * 262144 + (b1.toNat - 0x80) * 4096 +
                    (b2.toNat - 0x80) * 64 + (b3.toNat - 0x80)
                  if c < 0x10000 ∨ 0x10FFFF < c then none
                  else (utf8Decode rest3).map (Char.ofNat c :: ·)
                else none

end Verif
