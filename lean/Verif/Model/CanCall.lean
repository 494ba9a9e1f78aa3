import Verif.Model.Can

/-!
CAN messages handed to a callback while the file is read.

Models /repo/mdflib/src/canbusobserver.cpp with `OnCanMessage` set (lines 94-158, 243-253).  The lookup of the channels and the decoding
of a record are those of Model/Can.lean.
-/

namespace Mdf

/-- A call of `OnCanMessage`: the sample and the message with its kind and its time stamp (the bits of the `double`). -/
structure CanCall where
  sample : Nat
  kind : CanFrame
  time : BitVec 64
  msg : CanMsg
deriving DecidableEq, Repr

/-- `GetEngValue` of the time channel into a variable that was set to zero (canbusobserver.cpp lines 277-281).  The time channel has no
conversion. -/
def canTimeOf (record : Bytes) : BitVec 64 :=
  match canTime.getFloatBits record 0 with
  | .ok v => v
  | _ => 0

/-- `CanBusObserver::FireCallback` (canbusobserver.cpp lines 243-253): `last_sample_.sample` is the current sample index.  The kind of the
new message is not set, so it is the initial one (canmessage.h line 210). -/
def CanObsCfg.fire (o : CanObsCfg) (st : CanObs) : CanCall :=
  ⟨st.current.getD 0, .data, canTimeOf st.record, o.cfg.parse st.record (if o.cfg.readStore = .fixed then o.signal st.record else st.vlsd)⟩

/-- `CanBusObserver::OnSample` and `HandleCallback` (canbusobserver.cpp lines 94-158), the calls it makes and its result.  What the callback
returns is not looked at. -/
def CanObsCfg.onCall (o : CanObsCfg) (st : CanObs) (sample id : Nat) (record : Bytes) : CanObs × List CanCall × Bool :=
  if o.nof = 0 ∨ ¬ (id = o.id ∨ some id = o.vlsdId) then (st, [], true)
  else if sample ≥ o.nof then (st, [], false)
  else
    let new := st.isNew sample
    let st := if new then { st with current := some sample, record := [], vlsd := [] } else st
    let st := { st with buffer := [] }
    if id ≠ o.id then
      let st := { st with vlsd := record }
      (st, if new then [] else [o.fire st], true)
    else
      let st := { st with record := record }
      (st, if o.cfg.readStore = .vlsd ∧ new then [] else [o.fire st], true)

/-- All samples of a reading: the state and the calls. -/
def CanObsCfg.calls (o : CanObsCfg) (st : CanObs) : List (Nat × Nat × Bytes) → CanObs × List CanCall
  | [] => (st, [])
  | e :: es =>
    let r := o.onCall st e.1 e.2.1 e.2.2
    let rest := o.calls r.1 es
    (rest.1, r.2.1 ++ rest.2)

end Mdf
