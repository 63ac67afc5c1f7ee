import Verif.Py.Str

/-!
# Specification: reading a quoted literal

Independent of the printer: a scanner for a literal delimited by `q` with backslash escapes.
-/

namespace Verif.Spec

/-- Meaning of the character after a backslash. -/
def unescape (c : Char) : Char := if c = 'n' then '\n' else c

/-- Scan up to the first unescaped `q`; the de-escaped content and the text after the closing
quote. -/
def scanQuoted (q : Char) : List Char → Option (List Char × List Char)
  | [] => none
  | c :: rest =>
    if c = q then some ([], rest)
    else if c = '\\' then
      match rest with
      | [] => none
      | d :: rest' => (scanQuoted q rest').map fun r => (unescape d :: r.1, r.2)
    else (scanQuoted q rest).map fun r => (c :: r.1, r.2)

/-- Read a literal delimited by `q` at the start of a text. -/
def readQuoted (q : Char) : List Char → Option (List Char × List Char)
  | [] => none
  | c :: rest => if c = q then scanQuoted q rest else none

/-- The UTF-8 encoding of a code point (RFC 3629, section 3). -/
def utf8 (n : Nat) : List Nat :=
  if n < 0x80 then [n]
  else if n < 0x800 then [0xC0 + n / 64, 0x80 + n % 64]
  else if n < 0x10000 then [0xE0 + n / 4096, 0x80 + n / 64 % 64, 0x80 + n % 64]
  else [0xF0 + n / 262144, 0x80 + n / 4096 % 64, 0x80 + n / 64 % 64, 0x80 + n % 64]

/-- `bs` is the UTF-8 encoding of `s`. -/
def IsUtf8 (bs : List UInt8) (s : List Char) : Prop :=
  bs.map UInt8.toNat = s.flatMap fun c => utf8 c.toNat

end Verif.Spec
