import Verif.Model.Bits

/-!
The sample queue of a data group, the thread that saves it and the user's threads.

Models /repo/mdflib/src/samplequeue.cpp (`SampleQueue`), /repo/mdflib/src/writer4samplequeue.cpp (`Writer4SampleQueue`),
/repo/mdflib/src/convertersamplequeue.cpp (`ConverterSampleQueue`), /repo/mdflib/src/writecache.cpp (`WriteCache`) and the
measurement states of /repo/mdflib/src/mdfwriter.cpp (`MdfWriter`), as a transition system.

A transition is a critical section of the mutex `locker_` (or a piece of code outside of it that touches nothing shared), so
every interleaving of the threads is a sequence of transitions.  The system has one data group; the work of the thread on
other groups does not touch its queue.  `QueueSize()` is once called without the mutex (writer4samplequeue.cpp line 217), which
is a data race; the value it returns is left open (`more`).  Which bytes are written for a sample is the subject of
`Verif.Model.Store`.
-/

namespace Mdf

/-- `SampleRecord` (include/mdf/samplerecord.h).  `vlsd` is `vlsd_buffer` if `vlsd_data` is set.  `stamp` is the start time the
master channel in the record has been calculated with, `none` if it has not been calculated. -/
structure Sample where
  time : Nat
  id : Nat
  data : Bytes
  vlsd : Option Bytes
  stamp : Option Nat := none
deriving DecidableEq, Repr

/-- `SampleRecord::SampleSize` (samplerecord.h lines 28-32). -/
def Sample.size (s : Sample) : Nat := s.data.length + (s.vlsd.getD []).length + 4

/-- The writer's settings.  `known` tells the record ids with a channel group, `stored` the bytes a sample adds to the
buffer; `trims` is false for the converter queue. -/
structure WCfg where
  compress : Bool
  periodic : Bool
  trims : Bool
  preTrig : Nat
  idSize : Nat
  known : Nat → Bool
  stored : Sample → Nat

/-- `uint64_t` subtraction. -/
def sub64 (a b : Nat) : Nat := (a + 2 ^ 64 - b) % 2 ^ 64

/-- The condition for leaving the loop of `SampleQueue::TrimQueue` (samplequeue.cpp lines 70-83) for the first sample's
successor `next` and the `last` sample. -/
def trimStops (preTrig start next last : Nat) : Bool :=
  if start > 0 then decide (next ≥ sub64 start preTrig) else decide (sub64 last next ≤ preTrig)

/-- `SampleQueue::TrimQueue` (samplequeue.cpp lines 62-86): the samples dropped and the new queue.  `PopSample` (lines 46-51)
reads the size of the sample through a reference to the destroyed element, which is undefined in C++; the model takes the
size the element had. -/
def trimQueue (preTrig start : Nat) : List Sample → List Sample × List Sample
  | e :: n :: rest =>
    if trimStops preTrig start n.time ((n :: rest).getLast (by simp)).time then ([], e :: n :: rest)
    else let r := trimQueue preTrig start (n :: rest); (e :: r.1, r.2)
  | q => ([], q)

/-- `ConverterSampleQueue::TrimQueue` does nothing (convertersamplequeue.cpp lines 26-28). -/
def WCfg.trim (cfg : WCfg) (start : Nat) (q : List Sample) : List Sample × List Sample :=
  if cfg.trims then trimQueue cfg.preTrig start q else ([], q)

/-- What became of a sample taken from the queue. -/
inductive Fate where
  | written | trimmed | unknown | late | reset
deriving DecidableEq, Repr

/-- The measurement states (`WriteState`). -/
inductive WState where
  | init | started | stopped | finalized
deriving DecidableEq, Repr

/-- Where the thread is.  `fin` is the `finalize` argument, `last` tells the `CleanQueue` call at the end of the thread. -/
inductive Pc where
  | /-- in `wait_for` -/ idle
  | /-- `SaveQueue`/`CleanQueue` has released the mutex and opens the file -/ opening (fin last : Bool)
  | /-- the file is open, before the mutex is locked again -/ ready (fin last : Bool)
  | /-- a sample has been taken from the queue, the mutex is released -/ holding (s : Sample) (fin last : Bool)
  | /-- the loop has been left -/ closing (last : Bool)
  | /-- the thread has ended -/ ended
  | /-- the cache has been cleared -/ gone
deriving DecidableEq, Repr

/-- The state.  `buffer` holds the samples of the compressed block under construction, `blocks` the samples of the blocks
written (without compression the samples written one by one to the data block).  Samples of zero bytes do not make a block and
stay in `buffer`, where they add nothing.  `added` and `fates` record the history. -/
structure W where
  queue : List Sample
  size : Nat           -- size_
  start : Nat
  stop : Nat
  state : WState
  hasMaster : Bool
  quit : Bool
  pc : Pc
  buffer : List Sample
  blocks : List (List Sample)
  added : List Sample
  fates : List (Sample × Fate)

/-- After `InitMeasurement` (mdfwriter.cpp lines 242-277, writecache.cpp lines 30-86). -/
def W.init : W :=
  { queue := [], size := 0, start := 0, stop := 0, state := .init, hasMaster := false, quit := false, pc := .idle, buffer := [],
    blocks := [], added := [], fates := [] }

/-- Record what became of samples. -/
def W.log (w : W) (f : Fate) (l : List Sample) : W := { w with fates := w.fates ++ l.map fun s => (s, f) }

/-- `SampleQueue::QueueSize` (samplequeue.cpp lines 57-60). -/
def W.queueSize (w : W) (cfg : WCfg) : Nat := w.size + cfg.idSize * w.queue.length

/-- `TrimQueue` on the state. -/
def W.trim (w : W) (cfg : WCfg) : W :=
  let r := cfg.trim w.start w.queue
  { w.log .trimmed r.1 with queue := r.2, size := w.size - (r.1.map Sample.size).sum }

/-- The head of the save loops up to the release of the mutex (writer4samplequeue.cpp lines 72-82, 200-208; samplequeue.cpp
lines 39-44, 124-131; convertersamplequeue.cpp lines 62-71, 180-184), for the queue given as list. -/
def W.next (cfg : WCfg) (fin last : Bool) : (queue : List Sample) → W → W
  | [], w => { w with pc := .closing last }
  | s :: q, w =>
    let w := { w with queue := q, size := w.size - s.size }
    if cfg.trims ∧ w.stop > 0 ∧ s.time > w.stop then { w.log .late [s] with pc := .closing last }
    else if ¬ cfg.compress ∧ cfg.known s.id = false then W.next cfg fin last q (w.log .unknown [s])
    else { w with pc := .holding s fin last }

def W.takeNext (w : W) (cfg : WCfg) (fin last : Bool) : W := W.next cfg fin last w.queue w

/-- The bytes in the buffer. -/
def WCfg.bytes (cfg : WCfg) (buffer : List Sample) : Nat := (buffer.map cfg.stored).sum

/-- `max_index` (writer4samplequeue.cpp lines 210-215). -/
def WCfg.maxIndex (cfg : WCfg) (s : Sample) (buffer : List Sample) : Nat :=
  s.data.length + cfg.idSize + cfg.bytes buffer + (match s.vlsd with | some v => v.length + 4 + cfg.idSize | none => 0)

/-- The part of the compressed loop outside the mutex after the check of the buffer size (writer4samplequeue.cpp lines
244-290), followed by the next loop head. -/
def W.store (w : W) (cfg : WCfg) (s : Sample) (fin last : Bool) : W :=
  if cfg.known s.id then ({ w.log .written [s] with buffer := w.buffer ++ [s] }).takeNext cfg fin last
  else (w.log .unknown [s]).takeNext cfg fin last

/-- The transitions. -/
inductive Act where
  | /-- user: `SaveSample` and the other functions that add a sample -/ add (s : Sample)
  | /-- user: `StartMeasurement`, setting the state and the time -/ start (t : Nat)
  | /-- user: `StartMeasurement`, `RecalculateTimeMaster` -/ recalculate
  | /-- user: `StopMeasurement`, setting `stop_thread_` -/ requestStop
  | /-- user: `StopMeasurement` after the thread has ended -/ stopped (t : Nat)
  | /-- user: `FinalizeMeasurement` -/ finalize
  | /-- thread: `wait_for` returns -/ wake
  | /-- thread: the file is opened or not -/ opened (ok : Bool)
  | /-- thread: trim the queue and take the first sample -/ enter
  | /-- thread: write the sample and take the next one; `more` is `QueueSize() > buffer_max` -/ store (more : Bool)
  | /-- thread: finish the save -/ close
deriving DecidableEq, Repr

/-- The calls at the end of the thread and on wake-up (writecache.cpp lines 102-150). -/
def W.clean (w : W) (cfg : WCfg) (last : Bool) : W :=
  if cfg.compress ∧ w.queue = [] then { w with pc := if last then .ended else .idle }
  else { w with pc := .opening true last }

/-- `SaveQueue` (writer4samplequeue.cpp lines 36-41, 147-156). -/
def W.save (w : W) (cfg : WCfg) : W :=
  if cfg.compress then
    let w := w.trim cfg
    if w.queueSize cfg / 4000000 + 1 < 2 ∨ w.queue = [] then { w with pc := .idle }
    else { w with pc := .opening false false }
  else { w with pc := .opening false false }

/-- A transition; `none` if it is not possible in the state. -/
def W.step (cfg : WCfg) (w : W) : Act → Option W
  | .add s =>
    -- samplequeue.cpp lines 167-172, 389-400: the master time is calculated if the master channels are known
    if w.pc = .gone then some w
    else
      let s := { s with stamp := if w.hasMaster then some w.start else none }
      some { w with queue := w.queue ++ [s], size := w.size + s.size, added := w.added ++ [s] }
  | .start t => if w.quit then none else some { w with state := .started, start := t, stop := 0 }
  | .recalculate =>
    -- samplequeue.cpp lines 402-447
    if w.quit then none
    else some { w with hasMaster := true, queue := w.queue.map fun s => { s with stamp := some w.start } }
  | .requestStop => if w.quit then none else some { w with quit := true }
  | .stopped t => if w.pc = .ended then some { w.log .reset w.queue with pc := .gone, queue := [], size := 0, state := .stopped, stop := t }
    else none
  | .finalize => some { w with state := .finalized }
  | .wake =>
    if w.pc = .idle then
      if w.quit then some (w.clean cfg true)
      else
        match w.state with
        | .init => some (w.trim cfg)
        | .started => some (if cfg.periodic then w.save cfg else w)
        | .stopped => some (w.clean cfg false)
        | .finalized => some { w.log .reset w.queue with queue := [], size := 0 }
    else none
  | .opened ok =>
    match w.pc with
    | .opening fin last =>
      if ok then some { w with pc := .ready fin last } else some { w with pc := if last then .ended else .idle }
    | _ => none
  | .enter =>
    match w.pc with
    | .ready fin last => some ((w.trim cfg).takeNext cfg fin last)
    | _ => none
  | .store more =>
    match w.pc with
    | .holding s fin last =>
      if cfg.compress then
        if cfg.maxIndex s w.buffer ≥ 4000000 then
          if fin ∨ more then some ({ w with blocks := w.blocks ++ [w.buffer], buffer := [] }.store cfg s fin last)
          else some { w with queue := s :: w.queue, size := w.size + s.size, pc := .closing last }
        else some (w.store cfg s fin last)
      else some (({ w.log .written [s] with blocks := w.blocks ++ [[s]] }).takeNext cfg fin last)
    | _ => none
  | .close =>
    match w.pc with
    | .closing last =>
      let w := { w with pc := if last then .ended else .idle }
      if cfg.bytes w.buffer = 0 then some w else some { w with blocks := w.blocks ++ [w.buffer], buffer := [] }
    | _ => none

/-- A sequence of transitions. -/
def W.run (cfg : WCfg) : (acts : List Act) → W → Option W
  | [], w => some w
  | a :: acts, w => (w.step cfg a).bind (W.run cfg acts)

end Mdf
