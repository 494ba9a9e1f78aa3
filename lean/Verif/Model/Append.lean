import Verif.Model.Groups
import Verif.Model.Store

/-!
Saving samples in a file that exists already: the queue a sample is put into, the sample counters of channel groups that were
read from the file, and the start time of the file.

Models /repo/mdflib/src/writecache.cpp (`Init`, `GetSampleQueue` and the functions that save samples), /repo/mdflib/src/cg4block.cpp and
/repo/mdflib/src/cg3block.cpp (`Read`, `Write`, the counters), /repo/mdflib/src/samplequeue.cpp (`IncrementNofSamples`) and
/repo/mdflib/src/mdfwriter.cpp (`Init`, `InitMeasurement`, `StartMeasurement`, `FinalizeMeasurement`, `IsFirstMeasurement`).
-/

namespace Mdf

/-! ### The queue of a sample -/

/-- `cache_` after `WriteCache::Init` (writecache.cpp lines 44-73): the data groups, by their place in the file, that have a queue. -/
def cacheOf (dgs : List DgData) : List Nat :=
  (List.range dgs.length).filter fun i => ((dgs[i]?).map DgData.cached).getD false

/-- `WriteCache::GetSampleQueue(channel_group)` (writecache.cpp lines 297-313) for a channel group of the data group `dg`: the data group
whose queue is taken. -/
def queueOfGroup (cache : List Nat) (dg : Nat) : Option Nat :=
  if cache.length > 1 then if dg ∈ cache then some dg else none
  else if cache.length = 1 then cache.head?
  else none

/-- `WriteCache::GetSampleQueue(data_group)` (writecache.cpp lines 288-295). -/
def queueOfDataGroup (cache : List Nat) (dg : Nat) : Option Nat := if dg ∈ cache then some dg else none

/-- The calls that save a sample of channel group `cg` of data group `dg` (writecache.cpp lines 160-286). -/
inductive SaveCall where
  | /-- `SaveSample(channel_group)`, and the same for CAN, LIN and Ethernet messages -/ group (dg cg : Nat)
  | /-- `SaveSample(data_group, channel_group)`, and the same for messages: the data group that is given -/ both (given dg cg : Nat)
  | /-- `AddSample(data_group, channel_group, record)`: the data group given is not used (lines 160-168) -/ add (given dg cg : Nat)
deriving DecidableEq, Repr

/-- The data group the sample is saved for. -/
def SaveCall.target : SaveCall → Nat
  | .group dg _ => dg
  | .both _ dg _ => dg
  | .add _ dg _ => dg

/-- The data group whose queue gets the sample; `none` if the sample is dropped. -/
def SaveCall.queue (cache : List Nat) : SaveCall → Option Nat
  | .group dg _ => queueOfGroup cache dg
  | .both given _ _ => queueOfDataGroup cache given
  | .add _ dg _ => queueOfGroup cache dg

/-! ### The sample counters -/

/-- The counters of a channel group: in the file, and in the object. -/
structure CgCnt where
  file : Option Nat  -- the number in the file, none if the block is not in the file
  nof : Nat          -- nof_samples_ or nof_records_
  sample : Nat       -- IChannelGroup::sample_
  known : Bool       -- nof_samples_position_ > 0
  stored : Nat       -- the records of the group in the data of the file
deriving DecidableEq, Repr

/-- A new channel group. -/
def CgCnt.init : CgCnt := { file := none, nof := 0, sample := 0, known := false, stored := 0 }

/-- What is done with a channel group. -/
inductive CgOp where
  | /-- the block is written, or updated if it has been written or read -/ write
  | /-- a sample is stored -/ store
  | /-- the file is opened by a new writer, and the block is read -/ reopen
deriving DecidableEq, Repr

/-- MDF 4: `Cg4Block::Write` (cg4block.cpp lines 182-247), `WriteSample` (lines 531-532) and `Read` (lines 164-170). A
block not yet in the file cannot get samples, and is not there if the file is opened again. -/
def CgCnt.step4 (c : CgCnt) : CgOp → CgCnt
  | .write =>
    match c.file with
    | none => { c with file := some c.nof, known := true }
    | some _ => if c.known then { c with file := some c.nof } else c
  | .store => match c.file with
    | none => c
    | some _ => { c with sample := c.sample + 1, nof := c.sample + 1, stored := c.stored + 1 }
  | .reopen =>
    match c.file with
    | none => CgCnt.init
    | some n => { c with nof := n, sample := 0, known := false }

/-- MDF 3: `Cg3Block::Write` (cg3block.cpp lines 112-165), `IncrementNofSamples` (samplequeue.cpp lines 159-167) and `Read`
(cg3block.cpp lines 95-102); the number of records has 32 bits. -/
def CgCnt.step3 (c : CgCnt) : CgOp → CgCnt
  | .write => { c with file := some c.nof, known := true }
  | .store => match c.file with
    | none => c
    | some _ => { c with sample := c.sample + 1, nof := (c.sample + 1) % 2 ^ 32, stored := c.stored + 1 }
  | .reopen =>
    match c.file with
    | none => CgCnt.init
    | some n => { c with nof := n, sample := 0 }

def CgCnt.run4 (c : CgCnt) (ops : List CgOp) : CgCnt := ops.foldl CgCnt.step4 c
def CgCnt.run3 (c : CgCnt) (ops : List CgOp) : CgCnt := ops.foldl CgCnt.step3 c

/-! ### The start time -/

/-- The header's start time, in the object and in the file; the number of all samples stored; where `StartMeasurement` is. -/
structure StartSt where
  time : Nat             -- timestamp_ of the header
  file : Nat             -- the time in the file
  samples : Nat
  pending : Option Nat   -- the start time, after the state is `StartMeas` and before `IsFirstMeasurement`
deriving DecidableEq, Repr

/-- The file and its header as made at the time `t`. -/
def StartSt.init (t : Nat) : StartSt := { time := t, file := t, samples := 0, pending := none }

inductive StartAct where
  | /-- user: `StartMeasurement` up to the first `NotifySample` (mdfwriter.cpp lines 281-290) -/ begin (t : Nat)
  | /-- user: the rest of `StartMeasurement` (lines 292-299, 431-454) -/ finish
  | /-- thread: samples are stored -/ store (n : Nat)
  | /-- user: `FinalizeMeasurement` (lines 338-359), or the `InitMeasurement` of a further measurement (lines 242-277) -/ write
deriving DecidableEq, Repr

def StartSt.step (s : StartSt) : StartAct → Option StartSt
  | .begin t => match s.pending with
    | none => some { s with pending := some t }
    | some _ => none
  | .finish => match s.pending with
    | none => none
    | some t => some { s with pending := none, time := if s.samples = 0 then t else s.time }
  | .store n => some { s with samples := s.samples + n }
  | .write => match s.pending with
    | none => some { s with file := s.time }
    | some _ => none

def StartSt.run : List StartAct → StartSt → Option StartSt
  | [], s => some s
  | a :: acts, s => (s.step a).bind (StartSt.run acts)

end Mdf
