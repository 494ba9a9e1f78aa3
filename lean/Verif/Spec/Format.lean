import Verif.Model.Format
import Verif.Spec.Number

/-!
# What a user expects of a number shown as text

`exactText` is the number that a text stands for: sign, digits, point, digits, exponent.
-/

namespace Mdf

/-- The text stands for a number that is at most `e` away from `v`. -/
def ShownWithin (t : Bytes) (v e : ℚ) : Prop := ∃ r, exactText t = some r ∧ |v - r| ≤ e

/-- Half of the last decimal that is shown. -/
def halfDecimal (decimals : Nat) : ℚ := 1 / 2 / 10 ^ min decimals 20

end Mdf
