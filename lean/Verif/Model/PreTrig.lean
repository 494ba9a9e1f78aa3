import Verif.Model.Double

/-!
# The pre-trigger time

Models `MdfWriter::PreTrigTime` and `PreTrigTimeNs` (/repo/mdflib/src/mdfwriter.cpp lines 90-103) on finite doubles, which are rational
numbers; products and quotients are rounded (Model/Double), infinities and products beyond the doubles are left out.
-/

namespace Mdf

/-- `PreTrigTime(pre_trig_time)` (mdfwriter.cpp lines 90-93): the nanoseconds that are kept.  `none` is undefined behaviour: the number does
not fit the `uint64_t`. -/
def setPreTrig (s : Rat) : Option Nat :=
  let n := truncInt (dblRound (s * 1000000000))
  if n < 0 ∨ 2 ^ 64 ≤ n then none else some n.toNat

/-- `PreTrigTime()` (mdfwriter.cpp lines 95-99). -/
def getPreTrig (n : Nat) : Rat := dblRound (dblRound (n : Rat) / 1000000000)

/-- `PreTrigTime(s)` and `PreTrigTime()`. -/
def preTrigBack (s : Rat) : Option Rat := (setPreTrig s).map getPreTrig

end Mdf
