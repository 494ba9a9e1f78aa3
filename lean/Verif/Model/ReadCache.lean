import Verif.Model.RecordId

/-!
Reading the records of a data group.

Models /repo/mdflib/src/readcache.cpp (`ReadCache`) and the read loops of
/repo/mdflib/src/dg4block.cpp (`Dg4Block::ReadData`, `ReadRangeData`), with the range of
/repo/mdflib/src/dgrange.cpp.

Simplifications: a compressed (DZ) block is given by its inflated content, whose size is the
`DataSize()` of the block; a memory allocation never fails; offsets do not overflow 64 bits.  The
channel groups have different record ids (the code keeps them in a map keyed by record id).
-/

namespace Mdf

/-- Outcome of a C++ function that may throw. -/
inductive Out (α : Type) where
  | ub
  | throw
  | ok (a : α)
deriving DecidableEq, Repr

def Out.bind {α β : Type} : Out α → (α → Out β) → Out β
  | .ub, _ => .ub
  | .throw, _ => .throw
  | .ok a, f => f a

instance : Monad Out where
  pure := .ok
  bind := Out.bind

/-- A data block in the file: DT/DV/SD/RD (`dz = false`), whose content is read directly from the file where it
is followed by other bytes (`after`), or DZ (`dz = true`) with inflated content. -/
structure Blk where
  dz : Bool
  data : Bytes
  after : Bytes
deriving DecidableEq, Repr

/-- The members of `ReadCache` (readcache.h lines 59-78).  `file` is what the file holds from the current file
position on, `rest` the blocks from `block_index_` on. -/
structure RC where
  file : Bytes
  buf : Bytes      -- file_buffer_
  idx : Nat        -- file_index_
  size : Nat       -- data_size_
  count : Nat      -- data_count_
  max : Nat        -- max_data_count_
  rest : List Blk
deriving DecidableEq, Repr

/-- The state set up by the constructor (readcache.cpp lines 13-45).  The file position is arbitrary. -/
def RC.init (blocks : List Blk) (file : Bytes) : RC :=
  { file := file, buf := [], idx := 0, size := 0, count := 0, max := (blocks.map (·.data.length)).sum, rest := blocks }

/-- Setting up a block for reading (readcache.cpp lines 379-394, 508-520). -/
def RC.enter (s : RC) (b : Blk) : RC :=
  if b.dz then { s with idx := 0, size := b.data.length, buf := b.data }
  else { s with idx := 0, size := b.data.length, buf := [], file := b.data ++ b.after }

/-- Reading the byte at `file_index_` (readcache.cpp lines 356-363, 398-404).  At the end of the file `sbumpc`
returns -1. -/
def RC.takeByte (s : RC) : Out (Byte × RC) :=
  if s.buf = [] then
    .ok ((s.file.head?).getD 0xFF, { s with file := s.file.tail, idx := s.idx + 1, count := s.count + 1 })
  else
    match s.buf[s.idx]? with
    | none => .ub
    | some b => .ok (b, { s with idx := s.idx + 1, count := s.count + 1 })

/-- `ReadCache::GetNextByte` (readcache.cpp lines 354-406); the callers throw if it returns false. -/
def RC.getNextByte (s : RC) : Out (Byte × RC) :=
  if s.idx < s.size then s.takeByte
  else
    match s.rest with
    | [] => .throw
    | b :: rest =>
      let s := { s with rest := rest }.enter b
      if s.idx ≥ s.size then .throw else s.takeByte

/-- The byte loop of `ReadCache::GetArray` (readcache.cpp lines 473-477). -/
def RC.getBytes : (n : Nat) → RC → Out (Bytes × RC)
  | 0, s => .ok ([], s)
  | n + 1, s =>
    match s.getNextByte with
    | .ub => .ub
    | .throw => .throw
    | .ok (b, s) =>
      match RC.getBytes n s with
      | .ub => .ub
      | .throw => .throw
      | .ok (bs, s) => .ok (b :: bs, s)

/-- `ReadCache::GetArray` (readcache.cpp lines 455-478) for a buffer of `n` bytes. -/
def RC.getArray (n : Nat) (s : RC) : Out (Bytes × RC) :=
  if s.idx + n ≤ s.size then
    if s.buf = [] then
      if s.file.length < n then .throw
      else .ok (s.file.take n, { s with file := s.file.drop n, idx := s.idx + n, count := s.count + n })
    else if s.buf.length < s.idx + n then .ub
    else .ok ((s.buf.drop s.idx).take n, { s with idx := s.idx + n, count := s.count + n })
  else RC.getBytes n s

/-- The block loop of `ReadCache::SkipBytes` (readcache.cpp lines 497-522): the bytes left to skip and the state. -/
def RC.skipBlocks : (rest : List Blk) → (n : Nat) → RC → Nat × RC
  | [], n, s => (n, { s with rest := [] })
  | b :: rest, n, s =>
    if n > b.data.length then RC.skipBlocks rest (n - b.data.length) { s with idx := 0, size := b.data.length, rest := rest }
    else (n, { s with rest := rest }.enter b)

/-- The step inside the block (readcache.cpp lines 484-492, 524-534). -/
def RC.stepInside (n : Nat) (s : RC) : RC :=
  { s with file := if s.buf = [] then s.file.drop n else s.file, idx := s.idx + n, count := s.count + n }

/-- `ReadCache::SkipBytes` (readcache.cpp lines 480-536).  Seeking beyond the end of the file does not fail.
`nof_skip -= data_size_ - file_index_` is `n + idx - size` in 64 bit arithmetic. -/
def RC.skipBytes (n : Nat) (s : RC) : Out RC :=
  if s.idx + n ≤ s.size then .ok (s.stepInside n)
  else
    let r := RC.skipBlocks s.rest (n + s.idx - s.size) s
    .ok (r.2.stepInside r.1)

/-- What the reader needs to know of a channel group: `RecordId()`, the VLSD flag, `NofDataBytes() +
NofInvalidBytes()` and `NofSamples()`. -/
structure RGroup where
  id : Nat
  vlsd : Bool
  size : Nat
  nof : Nat
deriving DecidableEq, Repr

/-- A call of `NotifySampleObservers(sample, record_id, record)`. -/
structure Event where
  sample : Nat
  id : Nat
  data : Bytes
deriving DecidableEq, Repr

/-- The data group: `RecordIdSize()`, the channel groups, the subscribed record ids (`record_id_list_`) and what
the observers answer (`false` stops the reading) after the notifications so far. -/
structure RCfg where
  idSize : Nat
  groups : List RGroup
  subs : Nat → Bool
  cont : List Event → Bool

/-- The reader state: the cache, the sample counters (by record id) and the notifications so far. -/
structure RSt where
  rc : RC
  sample : Nat → Nat
  events : List Event

/-- `available_cg_list_` lookup (readcache.cpp lines 58-61). -/
def RCfg.find (cfg : RCfg) (id : Nat) : Option RGroup :=
  if cfg.groups.length = 1 then cfg.groups.head? else cfg.groups.find? (·.id = id)

/-- `ReadCache::ParseRecordId` (readcache.cpp lines 408-452). -/
def RCfg.parseRecordId (cfg : RCfg) (s : RC) : Out (Nat × RC) :=
  match cfg.idSize with
  | 0 => .ok (((cfg.groups.head?).map (·.id)).getD 0, s)
  | 1 => (s.getArray 1).bind fun r => .ok (leNat r.1, r.2)
  | 2 => (s.getArray 2).bind fun r => .ok (leNat r.1, r.2)
  | 4 => (s.getArray 4).bind fun r => .ok (leNat r.1, r.2)
  | 8 => (s.getArray 8).bind fun r => .ok (leNat r.1, r.2)
  | _ => .throw

/-- `IncrementSample` when `sample < NofSamples()`. -/
def bumpSample (g : RGroup) (sample : Nat → Nat) : Nat → Nat :=
  if sample g.id < g.nof then fun i => if i = g.id then sample g.id + 1 else sample i else sample

/-- The record part of `ReadCache::ParseRecord` with `n` bytes (readcache.cpp lines 75-90, 97-110): skipped if the
record id is not subscribed, else read and notified. Returns `continue_reading`. -/
def RCfg.body (cfg : RCfg) (recordId : Nat) (g : RGroup) (n : Nat) (rc : RC) (st : RSt) : Out (Bool × RSt) :=
  if cfg.subs recordId then
    (rc.getArray n).bind fun r =>
      if st.sample g.id < g.nof then
        let ev := st.events ++ [⟨st.sample g.id, g.id, r.1⟩]
        .ok (cfg.cont ev, { rc := r.2, sample := bumpSample g st.sample, events := ev })
      else .ok (true, { st with rc := r.2 })
  else
    (rc.skipBytes n).bind fun rc => .ok (true, { st with rc := rc, sample := bumpSample g st.sample })

/-- The body of `ReadCache::ParseRecord` inside `try` (readcache.cpp lines 56-111). -/
def RCfg.parseOne (cfg : RCfg) (st : RSt) : Out (Bool × RSt) :=
  (cfg.parseRecordId st.rc).bind fun r =>
    match cfg.find r.1 with
    | none => .throw
    | some g =>
      if g.vlsd then
        (r.2.getArray 4).bind fun l => cfg.body r.1 g (leNat l.1) l.2 st
      else cfg.body r.1 g g.size r.2 st

/-- The result of reading: still running after the given number of steps, undefined behaviour, or the notifications. -/
inductive Run where
  | running
  | ub
  | done (events : List Event)
deriving DecidableEq, Repr

/-- `ReadCache::ParseRecord` (readcache.cpp lines 47-120) and the loop `while (ParseRecord()) {}` of
`Dg4Block::ReadData` (dg4block.cpp lines 325-327), with at most `fuel` iterations. -/
def RCfg.readLoop (cfg : RCfg) : (fuel : Nat) → RSt → Run
  | 0, _ => .running
  | fuel + 1, st =>
    if cfg.groups = [] ∨ st.rc.count ≥ st.rc.max then .done st.events
    else
      match cfg.parseOne st with
      | .ub => .ub
      | .throw => .done st.events
      | .ok (c, st) => if c then cfg.readLoop fuel st else .done st.events

/-- Reading all records of the blocks, with reset sample counters (dg4block.cpp lines 320-327). -/
def RCfg.read (cfg : RCfg) (fuel : Nat) (blocks : List Blk) (file : Bytes) : Run :=
  cfg.readLoop fuel { rc := RC.init blocks file, sample := fun _ => 0, events := [] }

/-! ### Writing records -/

/-- A sample: the group's record id and the record bytes. -/
structure Rec where
  id : Nat
  data : Bytes
deriving DecidableEq, Repr

/-- `Cg4Block::WriteSample` / `WriteCompressedSample` (cg4block.cpp lines 492-576) and `WriteVlsdSample` /
`WriteCompressedVlsdSample` (lines 578-691): the bytes appended to the data. -/
def encodeRec (idSize : Nat) (vlsd : Bool) (r : Rec) : Bytes :=
  writeRecordId idSize r.id ++ (if vlsd then leBytes 4 r.data.length ++ r.data else r.data)

end Mdf
