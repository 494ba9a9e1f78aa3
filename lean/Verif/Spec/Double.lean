import Mathlib.Algebra.Order.Field.Basic
import Mathlib.Algebra.Field.Rat
import Mathlib.Algebra.Order.Ring.Rat

/-! What a `double` is, and what rounding to one means. -/

namespace Mdf

/-- The numbers a `double` can stand for, without the limits on the exponent: 53 bits times a power of two. -/
def IsDbl (d : ℚ) : Prop := ∃ m e : ℤ, |m| < 2 ^ 53 ∧ d = m * 2 ^ e

/-- No `double` is nearer. -/
def Nearest (q d : ℚ) : Prop := IsDbl d ∧ ∀ d', IsDbl d' → |q - d| ≤ |q - d'|

end Mdf
