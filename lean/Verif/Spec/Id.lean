import Verif.Model.Id

/-!
# What the ID block of a file says

The specification of C39, a function of the history of operations only.
-/

namespace Mdf

/-- The last mark set: finalized, standard flags, custom flags.  A new file is finalized; a finalized file has no flags. -/
def lastMark (ops : List IdOp) : Bool × BitVec 16 × BitVec 16 :=
  ops.foldl (fun last op => match op with
    | .mark finalized std custom => if finalized then (true, 0, 0) else (false, std, custom)
    | _ => last) (true, 0, 0)

/-- The last minor version asked for. -/
def lastMinor (ops : List IdOp) : Option Int :=
  ops.foldl (fun last op => match op with | .minor m => some m | _ => last) none

/-- The last program identification set. -/
def lastProgram (ops : List IdOp) : Bytes :=
  ops.foldl (fun last op => match op with | .program t => t | _ => last) idProgram

/-- The number below 100 the minor version `m` stands for: one digit is the tens, as in 4.2; of more than two digits the last two
count. -/
def minorNumber (m : Int) : Nat :=
  if m ≤ 0 then 0 else if m < 10 then 10 * m.toNat else m.toNat % 100

/-- The version as a text, for example "4.20": the major version, a point and the minor version in decimal digits, two for zero. -/
def versionText (major minor : Nat) : Bytes :=
  (Nat.toDigits 10 major ++ '.' :: (if minor = 0 then ['0', '0'] else Nat.toDigits 10 minor)).map fun c => BitVec.ofNat 8 c.toNat

/-- The version number of the file, for example 420. -/
def versionNumber (major : Nat) (default : Nat) : Option Int → Nat
  | none => 100 * major + default
  | some m => 100 * major + minorNumber m

end Mdf
