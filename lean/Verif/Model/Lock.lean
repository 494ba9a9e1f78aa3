/-!
The lock of the sample queues.

Models how `WriteCache::WorkThread` (/repo/mdflib/src/writecache.cpp lines 102-150) and the functions of the queues that it calls
(`SampleQueue`, /repo/mdflib/src/samplequeue.cpp lines 62-155; `Writer4SampleQueue`, /repo/mdflib/src/writer4samplequeue.cpp lines 36-331;
`ConverterSampleQueue`, /repo/mdflib/src/convertersamplequeue.cpp lines 27-302) use the `std::unique_lock` they are given: when it is locked and unlocked,
and when the queue is used.  What is stored is `Verif.Model.Queue` and `Store`.  The threads of the application use the queue under a
`std::lock_guard` (writecache.cpp lines 152-278), so a use of the queue while the lock is held by the working thread meets no other.
-/

namespace Mdf

/-- What a function does with the lock and the queue. -/
inductive LockAct where
  | lock
  | unlock
  | touch
deriving DecidableEq, Repr

/-- How a function ends: does the `unique_lock` own the mutex, was the queue used without it, did it end by an exception. -/
structure LockRes where
  owned : Bool
  race : Bool
  threw : Bool
deriving DecidableEq, Repr

/-- The actions in order.  `unique_lock::unlock` throws if the mutex is not owned, `lock` throws if it is. -/
def lockRun : Bool → List LockAct → LockRes
  | o, [] => ⟨o, false, false⟩
  | o, .touch :: r => { lockRun o r with race := (lockRun o r).race || !o }
  | true, .unlock :: r => lockRun false r
  | false, .unlock :: _ => ⟨false, false, true⟩
  | false, .lock :: r => lockRun true r
  | true, .lock :: _ => ⟨true, false, true⟩

/-- What the loops find out about a sample that they take from the queue: it is later than the stop time; its channel group exists; the
buffer of 4 MB is full with it; the queue has more than 4 MB. -/
structure LockSample where
  late : Bool
  known : Bool
  full : Bool
  more : Bool
deriving DecidableEq, Repr

/-- The three classes of queues. -/
inductive QClass where
  | mdf3 | writer4 | converter
deriving DecidableEq, Repr

/-- What a call meets: the class of the queue, `CompressData()`, more than one data group is active, the cast to the data group class works,
`CreateOrGetHl4` gives a block, the file is open (after opening it), `CreateOrGetDt4` gives a block (and its data position is above
zero), there are two blocks of 4 MB, and the samples taken from the queue, those added meanwhile included. -/
structure QEnv where
  cls : QClass
  compress : Bool
  manyDg : Bool
  isDg : Bool
  hl : Bool
  opens : Bool
  dt : Option Bool
  twoBlocks : Bool
  samples : List LockSample
deriving DecidableEq, Repr

/-- The loop of `SampleQueue::CleanQueue` (samplequeue.cpp lines 122-142). -/
def lockLoop3 : List LockSample → List LockAct
  | [] => [.touch]
  | s :: r => [.touch, .touch] ++ if s.late then [] else [.unlock, .lock] ++ lockLoop3 r

/-- `SampleQueue::CleanQueue` (samplequeue.cpp lines 100-155). -/
def lockClean3 (e : QEnv) : List LockAct :=
  if !e.isDg then [] else
  [.unlock] ++ if !e.opens then [.lock] else
  [.lock, .touch] ++ lockLoop3 e.samples ++ [.unlock, .lock]

/-- The loops of `Writer4SampleQueue::SaveQueue` (writer4samplequeue.cpp lines 72-125) and `ConverterSampleQueue::SaveQueue`
(convertersamplequeue.cpp lines 64-114; it does not look at the stop time). -/
def lockLoop4 (conv : Bool) : List LockSample → List LockAct
  | [] => [.touch]
  | s :: r => [.touch, .touch] ++ if s.late && !conv then []
      else if !s.known then lockLoop4 conv r
      else [.unlock, .lock] ++ lockLoop4 conv r

/-- The loop of `CleanQueueCompressed` (writer4samplequeue.cpp lines 202-299, convertersamplequeue.cpp lines 185-278).  `QueueSize()` is
called without the lock. -/
def lockLoopZ (conv finalize : Bool) : List LockSample → List LockAct
  | [] => [.touch]
  | s :: r => [.touch, .touch] ++ if s.late && !conv then []
      else [.unlock] ++
        if s.full then
          if finalize then [.lock] ++ lockLoopZ conv finalize r
          else [.touch] ++ if s.more then [.lock] ++ lockLoopZ conv finalize r else [.lock, .touch]
        else [.lock] ++ lockLoopZ conv finalize r

/-- `CleanQueueCompressed` (writer4samplequeue.cpp lines 158-331, convertersamplequeue.cpp lines 145-302).  The converter does not trim. -/
def lockCleanZ (e : QEnv) (finalize : Bool) : List LockAct :=
  [.touch] ++ if e.samples = [] then [] else if !e.isDg || !e.hl then [] else
  [.unlock] ++ if !e.opens then [.lock] else
  [.lock] ++ (if e.cls = .converter then [] else [.touch]) ++ lockLoopZ (e.cls = .converter) finalize e.samples ++ [.unlock, .lock]

/-- `SaveQueue` without compression (writer4samplequeue.cpp lines 42-137, convertersamplequeue.cpp lines 36-125).  The early returns if there
is no data block (lines 56-58; 54-56), or if it has no position (59-62, not in the converter), leave the lock unlocked. -/
def lockSave4 (e : QEnv) : List LockAct :=
  if !e.isDg then [] else
  [.unlock] ++ if !e.opens then [.lock] else
  match e.dt with
  | none => []
  | some pos =>
    if !pos && e.cls ≠ .converter then [] else
    [.lock] ++ (if e.cls = .converter then [] else [.touch]) ++ lockLoop4 (e.cls = .converter) e.samples ++ [.unlock, .lock]

/-- `CleanQueue` (samplequeue.cpp line 100; writer4samplequeue.cpp lines 139-145; convertersamplequeue.cpp lines 127-134). -/
def lockClean (e : QEnv) : List LockAct :=
  match e.cls with
  | .mdf3 => lockClean3 e
  | _ => if e.compress then lockCleanZ e true else lockSave4 e

/-- `SaveQueue` (samplequeue.cpp lines 88-98; writer4samplequeue.cpp lines 36-40, 147-156; convertersamplequeue.cpp lines 31-35, 136-143). -/
def lockSave (e : QEnv) : List LockAct :=
  match e.cls with
  | .mdf3 => if e.manyDg then [] else lockClean3 e
  | _ => if e.compress then [.touch] ++ (if !e.twoBlocks then [] else lockCleanZ e false) else lockSave4 e

/-- State of the writer as the thread sees it. -/
inductive LockState where
  | init | start | stop | other
deriving DecidableEq, Repr

/-- What the thread meets at a queue: the state of the writer, `IsSavePeriodic()`, the queue, and whether a file operation throws, after how
many actions. -/
structure QTurn where
  st : LockState
  periodic : Bool
  env : QEnv
  cut : Option Nat
deriving DecidableEq, Repr

/-- What the thread calls for a queue (writecache.cpp lines 115-135). -/
def turnActs (q : QTurn) : List LockAct :=
  match q.st with
  | .init => if q.env.cls = .converter then [] else [.touch]
  | .start => if q.periodic then lockSave q.env else []
  | .stop => lockClean q.env
  | .other => [.touch]

/-- A call that may be ended by an exception of a file operation after some actions. -/
def lockCall (o : Bool) (acts : List LockAct) (cut : Option Nat) : LockRes :=
  match cut with
  | none => lockRun o acts
  | some n => { lockRun o (acts.take n) with threw := true }

/-- The loop over the queues in a turn (writecache.cpp lines 110-139): exceptions are caught, and the next queue gets the lock as it is.
The result of each call is kept. -/
def lockTurn : Bool → List QTurn → List LockRes
  | _, [] => []
  | o, q :: r =>
    let x := lockCall o (turnActs q) q.cut
    x :: lockTurn x.owned r

/-- What the thread does at its end (writecache.cpp lines 142-149), without a `try`: an exception ends the program (`none`). -/
def lockEnd : Bool → List (QEnv × Option Nat) → Option (List LockRes)
  | _, [] => some []
  | o, (e, cut) :: r =>
    let x := lockCall o (lockClean e) cut
    if x.threw then none else (lockEnd x.owned r).map (x :: ·)

end Mdf
