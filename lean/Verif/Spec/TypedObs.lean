import Verif.Model.TypedObs
import Verif.Spec.Channel
import Verif.Spec.Observer

/-! The number a channel has in a record, and the numbers a type can hold. -/

namespace Mdf

/-- The numbers an integer type can hold. -/
def IntTy.CanHold (t : IntTy) (n : Int) : Prop :=
  if t.signed then -(2 ^ (t.bits - 1) : Int) ≤ n ∧ n < (2 ^ (t.bits - 1) : Int) else 0 ≤ n ∧ n < (2 ^ t.bits : Int)

instance (t : IntTy) (n : Int) : Decidable (t.CanHold n) := by unfold IntTy.CanHold; infer_instance

/-- A number of `n` bits in two's complement. -/
def twosVal (n f : Nat) : Int := if f < 2 ^ (n - 1) then (f : Int) else (f : Int) - (2 ^ n : Int)

/-- The number element `j` of an integer channel has in a record. -/
def Chan.numberIn (c : Chan) (record : Bytes) (j : Nat) : Int :=
  match c.dataType with
  | .unsignedLe => fieldLe record (c.pos j) c.bitCount
  | .unsignedBe => fieldBe record (c.pos j) c.bitCount
  | .signedLe => twosVal c.bitCount (fieldLe record (c.pos j) c.bitCount)
  | .signedBe => twosVal c.bitCount (fieldBe record (c.pos j) c.bitCount)
  | _ => 0

/-- An integer channel of 1 to 64 bits, in the record, that the offset arithmetic of the code can address. -/
structure Chan.IntChannel (c : Chan) : Prop where
  int : c.dataType = .unsignedLe ∨ c.dataType = .unsignedBe ∨ c.dataType = .signedLe ∨ c.dataType = .signedBe
  fixed : c.type = .fixedLength ∨ c.type = .master ∨ c.type = .sync ∨ c.type = .maxLength
  pos : 0 < c.bitCount
  wide : c.bitCount ≤ 64
  off : 8 * c.byteOffset + c.bitOffset < 2 ^ 32
  last : c.pos c.arraySize < 2 ^ 64

/-- A float channel of 16, 32 or 64 bits. -/
structure Chan.FloatChannel (c : Chan) : Prop where
  flt : c.dataType = .floatLe ∨ c.dataType = .floatBe
  fixed : c.type = .fixedLength ∨ c.type = .master ∨ c.type = .sync ∨ c.type = .maxLength
  width : c.bitCount = 16 ∨ c.bitCount = 32 ∨ c.bitCount = 64
  off : 8 * c.byteOffset + c.bitOffset < 2 ^ 32
  last : c.pos c.arraySize < 2 ^ 64

/-- The number element `j` of a float channel has in a record. -/
def Chan.floatNumIn (c : Chan) (record : Bytes) (j : Nat) : FltV :=
  floatOfBits c.bitCount (if c.dataType = .floatLe then fieldLe record (c.pos j) c.bitCount else fieldBe record (c.pos j) c.bitCount)

end Mdf
