import Verif.Base.C

/-! UTF-8 (RFC 3629): the bytes of a character, and the byte strings that are texts. -/

set_option autoImplicit false

namespace Judger.Spec

/-- The byte with this number. -/
def byte (n : Nat) : Char := Char.ofNat n

/-- The bytes of a character. -/
def utf8Bytes (c : Char) : CStr :=
  let n := c.toNat
  if n < 0x80 then [byte n]
  else if n < 0x800 then [byte (0xC0 + n / 64), byte (0x80 + n % 64)]
  else if n < 0x10000 then [byte (0xE0 + n / 4096), byte (0x80 + n / 64 % 64), byte (0x80 + n % 64)]
  else [byte (0xF0 + n / 262144), byte (0x80 + n / 4096 % 64), byte (0x80 + n / 64 % 64), byte (0x80 + n % 64)]

/-- The bytes are the characters of a text, one after the other. -/
def Utf8 (s : CStr) : Prop := ∃ t : List Char, s = t.flatMap utf8Bytes

end Judger.Spec
