import Verif.Model.Channel

/-!
Specification vocabulary for channel values: what the position of a value in a record means, stated
without the machine arithmetic and the loops of the code.
-/

namespace Mdf

/-- The position (in bits) of element `i` of a channel in the record. -/
def Chan.pos (c : Chan) (i : Nat) : Nat := 8 * c.byteOffset + c.bitOffset + i * c.bitCount

/-- Element `i` of the channel lies inside a record of `n` bytes. -/
def Chan.Inside (c : Chan) (i n : Nat) : Prop := c.pos i + c.bitCount ≤ 8 * n

instance (c : Chan) (i n : Nat) : Decidable (c.Inside i n) := by unfold Chan.Inside; infer_instance

/-- The `n` bits at bit position `p`, little endian. -/
def fieldLe (record : Bytes) (p n : Nat) : Nat := leNat record / 2 ^ p % 2 ^ n

/-- The `n` bits at bit position `p`, big endian: the bytes covered by the field as one big-endian
number, shifted right by the bit offset in the byte. -/
def fieldBe (record : Bytes) (p n : Nat) : Nat :=
  beNat ((record.drop (p / 8)).take ((p % 8 + n + 7) / 8)) / 2 ^ (p % 8) % 2 ^ n

/-- The field in the given byte order. -/
def fieldOf : Order → Bytes → Nat → Nat → Nat
  | .le => fieldLe
  | .be => fieldBe

/-- Position of the validity bit of element `i`: the validity bits follow the data bytes. -/
def Chan.validPos (c : Chan) (i : Nat) : Nat := 8 * c.nofDataBytes + (c.invalidPos + i)

/-- The positions fit in the 32 bit arithmetic of the code. -/
def Chan.ValidPosOk (c : Chan) (i : Nat) : Prop := c.invalidPos + i < 2 ^ 32 ∧ c.nofDataBytes < 2 ^ 31

instance (c : Chan) (i : Nat) : Decidable (c.ValidPosOk i) := by unfold Chan.ValidPosOk; infer_instance

end Mdf
