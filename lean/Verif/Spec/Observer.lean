import Verif.Model.Observer

/-! What observers shall get and what a channel observer shall hold. -/

namespace Mdf

/-- The operation takes the observer off the list. -/
def OOp.removes (o : Nat) : OOp → Bool
  | .attach _ => false
  | .detach p => p == o
  | .detachAll => true

/-- The attached observers: those of the `attach` operations in order, without the ones removed by a later operation. -/
def attached : List OOp → List Nat
  | [] => []
  | .attach o :: ops => if ops.any (OOp.removes o) then attached ops else o :: attached ops
  | _ :: ops => attached ops

/-- The observers in the list that subscribe on a record id, in the order of the list. -/
def subscribers (needs : Nat → List Nat) (obs : List Nat) (id : Nat) : List Nat := obs.filter fun o => (needs o).contains id

/-- Calling observers one after the other until one asks to stop: the observers called are a prefix of the list; all but the last
have answered `true`; the last one has answered `false` if the result is `false`, and otherwise all have been called. -/
structure CalledUntilStop (ans : List Nat → Bool) (l called : List Nat) (result : Bool) : Prop where
  pre : ∃ rest, l = called ++ rest
  goOn : ∀ n, 0 < n → n < called.length → ans (called.take n) = true
  all : result = true → called = l ∧ (called ≠ [] → ans called = true)
  stop : result = false → called ≠ [] ∧ ans called = false

/-- The last event of a record id for a sample. -/
def lastEvent (events : List Event) (id sample : Nat) : Option Event :=
  (events.filter fun e => e.id = id ∧ e.sample = sample).getLast?

/-- The records of a group, in order. -/
def groupRecs (recs : List Rec) (id : Nat) : List Bytes := (recs.filter (·.id = id)).map (·.data)

end Mdf
