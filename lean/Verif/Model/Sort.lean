import Verif.Model.Store
import Verif.Model.Observer
import Verif.Model.Double
import Verif.Model.Can

/-!
Sorting a file: the samples of each channel group are copied to a data group of their own.

Models /repo/mdflib/src/sortingtask.cpp (`SortFile`), /repo/mdflib/src/samplerecordobserver.cpp (`SampleRecordObserver`),
/repo/mdflib/src/copysampleobserver.cpp (`CopySampleObserver`), and of /repo/mdflib/src/mdftask.cpp the part of `CopyChannelConfig` that
decides how records are stored.  The queue, its thread and the stored bytes are `Verif.Model.Queue` and `Verif.Model.Store` (with
`trims := false`, the converter queue).

Not modelled: the files (`CheckSourceFile`, `CopyTempFile`, ...), the copied descriptions (names, conversions, comments).
-/

namespace Mdf

/-- The master channel of a group for times: `GetTimestamp` and `SetTimestamp` (ichannel.cpp lines 898-1071). -/
structure Master where
  get : (sample : Nat) → Bytes → Rat
  set : Rat → Bytes → Bytes

/-- `uint64_t` time stamp plus an `int64_t` (samplerecordobserver.cpp line 43). -/
def addTime (base : Nat) (rel : Int) : Nat := (((base : Int) + rel) % 2 ^ 64).toNat

/-- `int64_t` difference of two `uint64_t` time stamps (samplequeue.cpp lines 394-395). -/
def subTime (time start : Nat) : Int :=
  let d := ((time : Int) - start) % 2 ^ 64
  if d < 2 ^ 63 then d else d - 2 ^ 64

/-- A `SampleRecordObserver` (samplerecordobserver.cpp lines 10-21): the group's record id, the record ids of the VLSD groups of its
channels, `StorageType()` of the group, `base_time_`, and the master channel.  `dest` is the record id of the destination group. -/
structure RecObs where
  id : Nat
  vlsdIds : List Nat
  store : CanStore
  base : Nat
  master : Option Master
  dest : Nat

/-- `current_sample_index_` (`none` for -1) and `last_sample_`; `out` are the samples given to `AddSample` so far. -/
structure RecObsSt where
  current : Option Nat
  record : Bytes
  vlsd : Option Bytes
  time : Nat
  out : List Sample

def RecObsSt.init : RecObsSt := { current := none, record := [], vlsd := none, time := 0, out := [] }

/-- `last_sample_.Clear()` (samplerecord.h lines 34-42). -/
def RecObsSt.clear (st : RecObsSt) : RecObsSt := { st with record := [], vlsd := none, time := 0 }

/-- `CopySampleObserver::OnSampleRecord` (copysampleobserver.cpp lines 23-30), then `Clear`. -/
def RecObs.emit (o : RecObs) (st : RecObsSt) : RecObsSt :=
  ({ st with out := st.out ++ [⟨st.time, o.dest, st.record, st.vlsd, none⟩] } : RecObsSt).clear

/-- `SampleRecordObserver::HandleSample` (samplerecordobserver.cpp lines 68-94). -/
def RecObs.handle (o : RecObs) (st : RecObsSt) : RecObsSt :=
  match o.store with
  | .vlsd => if st.vlsd.isSome then o.emit st else st
  | _ => o.emit st

/-- The time stamp of a record (samplerecordobserver.cpp lines 40-44). -/
def RecObs.stamp (o : RecObs) (sample : Nat) (record : Bytes) : Nat :=
  match o.master with
  | none => o.base
  | some m => addTime o.base (relNanos (m.get sample record))

/-- `current_sample_index > current_sample_index_`. -/
def RecObsSt.newer (st : RecObsSt) (sample : Nat) : Bool :=
  match st.current with
  | none => true
  | some c => decide (sample > c)

/-- A larger sample index than before starts a new sample (samplerecordobserver.cpp lines 31-35). -/
def RecObsSt.advance (st : RecObsSt) (sample : Nat) : RecObsSt :=
  if st.newer sample then { st.clear with current := some sample } else st

/-- The record is kept (samplerecordobserver.cpp lines 37-49). -/
def RecObs.keep (o : RecObs) (st : RecObsSt) (e : Event) : RecObsSt :=
  if e.id = o.id then { st with record := e.data, time := o.stamp (st.current.getD 0) e.data } else { st with vlsd := some e.data }

/-- The record ids an observer needs (`record_id_list_`). -/
def RecObs.needs (o : RecObs) : List Nat := o.id :: o.vlsdIds

/-- `if (!last_sample_.record_buffer.empty())` (samplerecordobserver.cpp lines 51-53). -/
def RecObs.finish (o : RecObs) (st : RecObsSt) : RecObsSt := if st.record = [] then st else o.handle st

/-- `SampleRecordObserver::OnSample` (samplerecordobserver.cpp lines 23-55). -/
def RecObs.onSample (o : RecObs) (st : RecObsSt) (e : Event) : RecObsSt :=
  if e.id ∈ o.needs then o.finish (o.keep (st.advance e.sample) e) else st

/-- The samples copied for the notifications of a reading. -/
def RecObs.copied (o : RecObs) (events : List Event) : List Sample := (events.foldl o.onSample RecObsSt.init).out

/-- The data group created for a source group (sortingtask.cpp lines 87-127, mdftask.cpp lines 257-287): one channel group with record
id 0 and no id field, the record size of the source; VLSD groups are not copied, so a variable length channel (`sd`) gets its values
from signal data.  The master time is calculated again by the queue (samplequeue.cpp lines 389-399, 449-455).  `master` is `none` without time master or
with `CalculateMasterTime(false)`. -/
def sortedCfg (size : Nat) (sd : Bool) (master : Option Master) : SCfg :=
  { idSize := 0, groups := [⟨0, false, size, 0⟩], sd := fun _ => sd,
    render := fun s =>
      match master, s.stamp with
      | some m, some t => m.set (relSeconds (subTime s.time t)) s.data
      | _, _ => s.data }

end Mdf
