import Mathlib.Analysis.SpecialFunctions.Log.Basic

/-!
The exponential and logarithmic conversions of MDF 3.

Models `ConvertLogarithmic` and `ConvertExponential` (/repo/mdflib/src/ichannelconversion.cpp lines 93-173) with real numbers instead of
`double`: rounding and overflow are not modelled.  `std::log` of a number that is not positive is not a number (or minus infinity).
-/

namespace Mdf
open Classical

/-- What a conversion returns: the return value `false`, or `true` with a value that may be no (finite) number. -/
inductive EngRes where
  | invalid
  | noNumber
  | value (y : ℝ)

/-- `std::log`: `none` if the result is no finite number. -/
noncomputable def cLog (x : ℝ) : Option ℝ := if 0 < x then some (Real.log x) else none

/-- `std::exp`. -/
noncomputable def cExp (x : ℝ) : Option ℝ := some (Real.exp x)

/-- The last step (lines 106-110, 123-127 and 147-151, 164-168): the function, then the division, which fails for zero. -/
noncomputable def expLogOut (f : ℝ → Option ℝ) (a d : ℝ) : EngRes :=
  if d = 0 then .invalid else match f a with
    | none => .noNumber
    | some y => .value (y / d)

/-- The body of both functions (lines 93-132, 134-173), which differ by the function `f` that is called.  `P` is `value_list_`. -/
noncomputable def convertExpLog (f : ℝ → Option ℝ) (P : List ℝ) (x : ℝ) : EngRes :=
  let p := fun i => P.getD i 0
  if P.length < 7 then .invalid
  else if p 3 = 0 then
    if p 0 = 0 then .invalid else expLogOut f (((x - p 6) * p 5 - p 2) / p 0) (p 1)
  else if p 0 = 0 then
    if x - p 6 = 0 then .invalid else expLogOut f ((p 2 / (x - p 6) - p 5) / p 3) (p 4)
  else .invalid

/-- `ConvertLogarithmic`. -/
noncomputable def convertLogarithmic := convertExpLog cLog

/-- `ConvertExponential`. -/
noncomputable def convertExponential := convertExpLog cExp

end Mdf
