import Verif.Spec.Channel

/-!
Specification vocabulary for the record layout made by the writer.
-/

namespace Mdf

/-- The number of bytes a channel occupies in the record: all its array elements. -/
def Chan.span (c : Chan) : Nat := c.dataBytes * max 1 c.arraySize

/-- The number of validity bits a channel occupies. -/
def Chan.validBits (c : Chan) : Nat := if c.invalidFlag then max 1 c.arraySize else 0

/-- The bytes of `a` end before the bytes of `b` begin, and so do the validity bits. -/
def Chan.Before (a b : Chan) : Prop :=
  a.byteOffset + a.span ≤ b.byteOffset ∧
  (a.invalidFlag = true → b.invalidFlag = true → a.invalidPos + a.validBits ≤ b.invalidPos)

/-- The layout does not overflow the 32 bit counters of the format. -/
def LayoutFits (cs : List Chan) : Prop :=
  (cs.map fun c => (c.prepare 0).span).sum < 2 ^ 31 ∧ (cs.map fun c => (c.prepare 0).validBits).sum < 2 ^ 31

instance (cs : List Chan) : Decidable (LayoutFits cs) := by unfold LayoutFits; infer_instance

end Mdf
