import Verif.Model.Append

/-! What is wanted of counters and start times in files that are written in several sessions. -/

namespace Mdf

/-- The samples stored before the last time the block was written. -/
def countedStores (ops : List CgOp) : Nat := ((ops.reverse.dropWhile (· ≠ .write)).count .store)

/-- The part of the history in which the object that was first written lived: from the first writing to the next opening. -/
def firstSession (ops : List CgOp) : List CgOp := (ops.dropWhile (· ≠ .write)).takeWhile (· ≠ .reopen)

/-- Whole calls of the user: `StartMeasurement` done, samples stored, the header written. -/
inductive StartCall where
  | start (t : Nat)
  | store (n : Nat)
  | write
deriving DecidableEq, Repr

def StartCall.acts : StartCall → List StartAct
  | .start t => [.begin t, .finish]
  | .store n => [.store n]
  | .write => [.write]

/-- The last start before the first sample. -/
def lastStartBeforeSamples (t0 : Nat) : List StartCall → Nat
  | [] => t0
  | .start t :: cs => lastStartBeforeSamples t cs
  | .store 0 :: cs => lastStartBeforeSamples t0 cs
  | .store (_ + 1) :: _ => t0
  | .write :: cs => lastStartBeforeSamples t0 cs

end Mdf
