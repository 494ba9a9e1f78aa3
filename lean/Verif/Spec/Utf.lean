import Verif.Model.Bits

/-! What the encodings of a text are, from Lean's definition of UTF-8 and the definition of UTF-16. -/

namespace Mdf

/-- UTF-8 of a character. -/
def utf8Char (c : Char) : Bytes := (String.utf8EncodeChar c).map UInt8.toBitVec

/-- UTF-8 of a text. -/
def utf8Of (t : List Char) : Bytes := t.flatMap utf8Char

/-- UTF-16 of a character. -/
def utf16Char (c : Char) : List Nat :=
  if c.toNat < 0x10000 then [c.toNat] else [0xD800 + (c.toNat - 0x10000) / 1024, 0xDC00 + (c.toNat - 0x10000) % 1024]

/-- UTF-16 of a text. -/
def utf16Of (t : List Char) : List Nat := t.flatMap utf16Char

/-- The text has no zero character, which ends a C string. -/
def NoZero (t : List Char) : Prop := ∀ c ∈ t, c.toNat ≠ 0

/-- All characters are in the basic multilingual plane. -/
def Bmp (t : List Char) : Prop := ∀ c ∈ t, c.toNat < 0x10000

end Mdf
