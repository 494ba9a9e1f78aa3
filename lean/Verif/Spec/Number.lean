import Verif.Model.Number
import Verif.Spec.Comment
import Verif.Spec.Double

/-!
# What a user expects of the numbers in comments
-/

namespace Mdf

/-- The numbers with at most six significant decimal digits. -/
def IsSix (d : ℚ) : Prop := ∃ m e : ℤ, |m| < 10 ^ 6 ∧ d = m * 10 ^ e

/-- No number of six significant digits is nearer. -/
def NearestSix (q d : ℚ) : Prop := IsSix d ∧ ∀ d', IsSix d' → |q - d| ≤ |q - d'|

/-- The numbers with at most six decimal digits after the point. -/
def IsMicro (d : ℚ) : Prop := ∃ m : ℤ, d = m / 10 ^ 6

/-- No number with six digits after the point is nearer. -/
def NearestMicro (q d : ℚ) : Prop := IsMicro d ∧ ∀ d', IsMicro d' → |q - d| ≤ |q - d'|

/-- The names of the attributes of a number. -/
def numberKeys : List Bytes := [kByteCount, kBitMask, kByteOrder, kMin, kMax, kAverage, kTriggered]

/-- A number with texts that XML can hold; numbers of 64 bits; the user's attributes have other names than those of a number. -/
def MdNum.Good (n : MdNum) : Prop :=
  n.std.Good ∧ (∀ a ∈ n.std.custom, ∀ r ∈ numberKeys, sameWord a.1 r = false) ∧ PlainText n.number ∧ PlainLine n.unit ∧ PlainLine n.unitRef ∧
  (∀ c ∈ n.byteCount, c < 2 ^ 64) ∧ ∀ m ∈ n.bitMask, m < 2 ^ 64

/-- A limit is read as the nearest `double` to the nearest number with six significant digits. -/
def ReadSix (a b : Option ℚ) : Prop :=
  match a, b with
  | none, none => True
  | some q, some x => ∃ d, NearestSix q d ∧ Nearest d x
  | _, _ => False

/-- What is read of the number `n` into a number of type `t`.  A number without a value is not stored. -/
def ReadNum (t : MdType) (n r : MdNum) : Prop :=
  if n.number = [] then r = { type := t }
  else
    r.std = n.std ∧ r.number = trim n.number ∧ r.type = t ∧ r.bytes = n.bytes ∧ r.bitMask = n.bitMask ∧ r.bigEndian = n.bigEndian ∧
    r.unit = n.unit ∧ r.unitRef = n.unitRef ∧ r.triggered = n.triggered ∧ ReadSix n.min r.min ∧ ReadSix n.max r.max ∧
    ReadSix n.average r.average

end Mdf
