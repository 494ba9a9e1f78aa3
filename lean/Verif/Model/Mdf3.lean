import Verif.Model.Queue
import Verif.Model.ReadCache
import Verif.Model.Channel

/-!
MDF 3 files: where channels are placed in the record, the data types of channels, and the records of data groups.

Models /repo/mdflib/src/cn3block.cpp (`Cn3Block`: positions, sizes and data types), /repo/mdflib/src/cg3block.cpp
(`PrepareForWriting`, `ReadDataRecord`), /repo/mdflib/src/dg3block.cpp (`AddCg3`, `ReadData`, `ParseDataRecords`,
`FindCgRecordId`), /repo/mdflib/src/dt3block.cpp (`DataSize`) and the saving of samples in /repo/mdflib/src/samplequeue.cpp
(`SetLastPosition`, `CleanQueue`, `IncrementNofSamples`).
-/

namespace Mdf

/-! ### Channels -/

/-- `uint16_t` conversion. -/
def u16 (n : Nat) : Nat := n % 2 ^ 16

/-- The conversions of a channel that matter here (`Cc3Block::Type`). -/
inductive Cc3Kind where
  | date | time | other
deriving DecidableEq, Repr

/-- The members of `Cn3Block` for the place and type of its values (cn3block.h): `channel_type_ == 1`, `signal_type_`,
`nof_bits_`, `start_offset_`, `byte_offset_` (all `uint16_t`) and the conversion. -/
structure Cn3 where
  master : Bool
  signal : Nat
  bits : Nat
  start : Nat
  byte : Nat
  cc : Option Cc3Kind
deriving DecidableEq, Repr

/-- A new channel (cn3block.h). -/
def Cn3.new : Cn3 := { master := false, signal := 0, bits := 0, start := 0, byte := 0, cc := none }

/-- `kBitOffset` (cn3block.cpp line 13). -/
def kBitOffset : Nat := 0x2000

/-- `Cn3Block::BitCount` (cn3block.cpp lines 325-329). -/
def Cn3.setBitCount (c : Cn3) (bits : Nat) : Cn3 := { c with bits := u16 bits }

/-- `Cn3Block::BitOffset(uint16_t)` (cn3block.cpp lines 332-335). -/
def Cn3.setBitOffset (c : Cn3) (bits : Nat) : Cn3 := { c with start := u16 bits }

/-- `Cn3Block::BitOffset` (cn3block.cpp line 337). -/
def Cn3.bitOffset (c : Cn3) : Nat := c.start % 8

/-- `Cn3Block::ByteOffset` (cn3block.cpp lines 339-342). -/
def Cn3.byteOffset (c : Cn3) : Nat := (c.start / 8 + c.byte) % 2 ^ 32

/-- `Cn3Block::ByteOffset(uint32_t)` (cn3block.cpp lines 344-353). -/
def Cn3.setByteOffset (c : Cn3) (offset : Nat) : Cn3 :=
  if offset < kBitOffset then { c with start := u16 (offset * 8), byte := 0 }
  else { c with byte := u16 (offset / kBitOffset * kBitOffset), start := u16 (offset % kBitOffset * 8) }

/-- `Cn3Block::DataBytes` (cn3block.cpp lines 127-129). -/
def Cn3.dataBytes (c : Cn3) : Nat := c.bits / 8 + (if c.bits % 8 > 0 then 1 else 0)

/-- `Cn3Block::DataBytes(uint64_t)` (cn3block.cpp lines 481-487). -/
def Cn3.setDataBytes (c : Cn3) (n : Nat) : Cn3 :=
  { c with
    bits := u16 (n * 8)
    signal := if n = 8 ∧ (c.signal = 2 ∨ c.signal = 11 ∨ c.signal = 15) then c.signal + 1 else c.signal }

/-- `if (DataBytes() == 0) { DataBytes(n); }` (cn3block.cpp lines 395 and following). -/
def Cn3.defaultBytes (c : Cn3) (n : Nat) : Cn3 := if c.dataBytes = 0 then c.setDataBytes n else c

/-- The `FloatLe` and `FloatBe` cases (cn3block.cpp lines 421-437). -/
def Cn3.setFloat (c : Cn3) (signal : Nat) : Cn3 :=
  let c := { c with signal := signal }
  if c.dataBytes = 8 then { c with signal := c.signal + 1 } else c.defaultBytes 4

/-- `Cn3Block::DataType(ChannelDataType)` (cn3block.cpp lines 391-479); `big` is `IsBigEndian()`. -/
def Cn3.setDataType (c : Cn3) (big : Bool) : DataType → Cn3
  | .unsignedLe => { c with signal := if big then 13 else 0 }.defaultBytes 4
  | .unsignedBe => { c with signal := if big then 0 else 9 }.defaultBytes 4
  | .signedLe => { c with signal := if big then 14 else 1 }.defaultBytes 4
  | .signedBe => { c with signal := if big then 1 else 10 }.defaultBytes 4
  | .floatLe => c.setFloat (if big then 15 else 2)
  | .floatBe => c.setFloat (if big then 2 else 11)
  | .stringUtf8 => { c with signal := 7 }.defaultBytes 4
  | .stringAscii => { c with signal := 7 }.defaultBytes 4
  | .byteArray => { c with signal := 8 }.defaultBytes 6
  | .canOpenDate => { ({ c with signal := 8 }.setDataBytes 7) with cc := some .date }
  | .canOpenTime => { ({ c with signal := 8 }.setDataBytes 6) with cc := some .time }
  | _ => { c with signal := 0 }.defaultBytes 4

/-- `Cn3Block::DataType` (cn3block.cpp lines 67-121). -/
def Cn3.dataType (c : Cn3) (big : Bool) : DataType :=
  if c.signal = 1 then (if big then .signedBe else .signedLe)
  else if 2 ≤ c.signal ∧ c.signal ≤ 6 then (if big then .floatBe else .floatLe)
  else if c.signal = 7 then .stringAscii
  else if c.signal = 8 then
    (if c.cc = some .date then .canOpenDate else if c.cc = some .time then .canOpenTime else .byteArray)
  else if c.signal = 9 then .unsignedBe
  else if c.signal = 10 then .signedBe
  else if c.signal = 11 ∨ c.signal = 12 then .floatBe
  else if c.signal = 13 then .unsignedLe
  else if c.signal = 14 then .signedLe
  else if c.signal = 15 ∨ c.signal = 16 then .floatLe
  else (if big then .unsignedBe else .unsignedLe)

/-- The channel as the value functions of `IChannel` (Verif.Model.Channel) see it: an MDF 3 channel has no validity bit
(ichannel.cpp lines 285-290) and no array.  `size` is the size of the record. -/
def Cn3.chan (c : Cn3) (big : Bool) (size : Nat) : Chan :=
  { type := if c.master then .master else .fixedLength, dataType := c.dataType big, byteOffset := c.byteOffset,
    bitOffset := c.bitOffset, bitCount := c.bits, invalidFlag := false, invalidPos := 0, nofDataBytes := size, arraySize := 1 }

/-- The loop of `Cg3Block::PrepareForWriting` (cg3block.cpp lines 237-241); `size` is `record_size`. -/
def place3 : (size : Nat) → List Cn3 → List Cn3 × Nat
  | size, [] => ([], size)
  | size, c :: cs =>
    let c := c.setByteOffset (size % 2 ^ 32)
    let r := place3 (size + c.dataBytes) cs
    (c :: r.1, r.2)

/-- `Cg3Block::PrepareForWriting` (cg3block.cpp lines 232-253): the result, the channels after it and
`size_of_data_record_`, which is `uint16_t`. -/
def prepare3 (cs : List Cn3) : Bool × List Cn3 × Nat :=
  let r := place3 0 cs
  (decide (r.2 ≤ 0xFFFF), r.1, u16 r.2)

/-! ### Records of a data group -/

/-- `Cg3Block`: record id, `size_of_data_record_`, `nof_records_` (`uint32_t`) and the sample counter. -/
structure Cg3 where
  id : Nat
  size : Nat
  nof : Nat
  sample : Nat
deriving DecidableEq, Repr

/-- Number the groups (dg3block.cpp lines 151-153); `id3` is `uint8_t`. -/
def number3 : (id3 : Nat) → List Cg3 → List Cg3
  | _, [] => []
  | id3, g :: gs => { g with id := id3 } :: number3 ((id3 + 1) % 2 ^ 8) gs

/-- `Dg3Block::AddCg3` (dg3block.cpp lines 145-154). -/
def addCg3 (groups : List Cg3) (g : Cg3) : List Cg3 :=
  number3 (if (groups ++ [g]).length < 2 then 0 else 1) (groups ++ [g])

/-- `nof_record_id_` (dg3block.cpp lines 94, 150). -/
def idBytes3 (groups : List Cg3) : Nat := if groups.length > 1 then 1 else 0

/-- `Dg3Block::FindCgRecordId` (dg3block.cpp lines 293-307). -/
def find3 (groups : List Cg3) (id : Nat) : Option Cg3 :=
  match groups with
  | [g] => some g
  | _ => groups.find? (·.id = id)

/-- `Dt3Block::DataSize` (dt3block.cpp lines 39-56). -/
def dataSize3 (idBytes : Nat) (groups : List Cg3) : Nat :=
  (groups.map fun g => (idBytes + g.size) * g.nof).sum

/-- Increment the sample counter of the group `FindCgRecordId` has found (ichannelgroup.cpp line 22). -/
def bump3 : List Cg3 → (id : Nat) → List Cg3
  | [], _ => []
  | g :: gs, id => if g.id = id then { g with sample := g.sample + 1 } :: gs else g :: bump3 gs id

/-- Read a one byte record id if there is one (dg3block.cpp lines 237-240): id, bytes read and the rest; `none` is the exception
of `ReadNumber` (mdfblock.h lines 378-402). -/
def readId3 (idBytes : Nat) (file : Bytes) : Option (Nat × Nat × Bytes) :=
  if idBytes = 1 ∨ idBytes = 2 then
    match file with
    | [] => none
    | b :: rest => some (b.toNat, 1, rest)
  else some (0, 0, file)

/-- The second record id (dg3block.cpp lines 249-251). -/
def readTrail3 (idBytes : Nat) (file : Bytes) : Option (Nat × Bytes) :=
  if idBytes = 2 then
    match file with
    | [] => none
    | _ :: rest => some (1, rest)
  else some (0, file)

/-- `sgetn` of a record into a vector of zeros (cg3block.cpp lines 258-261): the bytes read, the record and the rest. -/
def readRecord3 (size : Nat) (file : Bytes) : Nat × Bytes × Bytes :=
  ((file.take size).length, file.take size ++ List.replicate (size - (file.take size).length) 0, file.drop size)

/-- How the loop ended: normally, or by an exception that leaves the function. -/
inductive End3 where
  | done | throw
deriving DecidableEq, Repr

/-- The sample the observers are notified of for the next record of the group, if any (cg3block.cpp lines 262-264). -/
def tell3 (g : Cg3) (record : Bytes) : Option Event :=
  if g.sample < g.nof then some { sample := g.sample, id := g.id, data := record } else none

/-- The loop of `Dg3Block::ParseDataRecords` (dg3block.cpp lines 232-251) with `Cg3Block::ReadDataRecord` (cg3block.cpp lines
255-272): the samples the observers are notified of, and how the loop ended.  `left` is `nof_data_bytes - count` (0 if `count`
is larger); `go` tells whether the observers want to continue after a sample.  A record that goes beyond the end of the file is
filled up with zeros. -/
def parse3 (idBytes : Nat) (go : Event → Bool) (left : Nat) (file : Bytes) (groups : List Cg3) : List Event × End3 :=
  if left = 0 then ([], .done)
  else
    match readId3 idBytes file with
    | none => ([], .throw)
    | some (id, n, rest) =>
      match find3 groups id with
      | none => ([], .done)
      | some g =>
        match readRecord3 g.size rest with
        | (count, record, rest) =>
          let event := tell3 g record
          if event.all go = false ∨ count = 0 then (event.toList, .done)
          else
            match readTrail3 idBytes rest with
            | none => (event.toList, .throw)
            | some (k, rest) =>
              let r := parse3 idBytes go (left - (n + count + k)) rest (if event.isSome then bump3 groups g.id else groups)
              (event.toList ++ r.1, r.2)
termination_by left
decreasing_by all_goals (simp only [not_or] at *; omega)

/-- `Dg3Block::ReadData` (dg3block.cpp lines 177-191, 222-230) of a data group with the link `link` to its data.  If there are no
data bytes the sample counters are not reset, and nothing is read. -/
def readDg3 (idBytes : Nat) (go : Event → Bool) (groups : List Cg3) (link : Nat) (file : Bytes) : List Event × End3 :=
  parse3 idBytes go (dataSize3 idBytes groups) (file.drop link) (groups.map fun g => { g with sample := 0 })

/-! ### Saving samples -/

/-- The bytes of one sample (samplequeue.cpp lines 134-144). -/
def record3 (idBytes : Nat) (s : Sample) : Bytes :=
  (if idBytes > 0 then [BitVec.ofNat 8 s.id] else []) ++ s.data ++ (if idBytes > 1 then [BitVec.ofNat 8 s.id] else [])

/-- `IncrementNofSamples` (samplequeue.cpp lines 157-165, cg3block.cpp lines 37-39). -/
def count3 (groups : List Cg3) (id : Nat) : List Cg3 :=
  groups.map fun g => if g.id = id then { g with sample := g.sample + 1, nof := (g.sample + 1) % 2 ^ 32 } else g

/-- A data group of the writer and its queue.  `link` is the link to the data. -/
structure Dg3 where
  groups : List Cg3
  link : Nat
  queue : List Sample
deriving DecidableEq, Repr

/-- The writer's settings: the pre-trigger time, the start and the stop time (0 if not set). -/
structure M3Cfg where
  preTrig : Nat
  start : Nat
  stop : Nat

/-- The save loop of `CleanQueue` (samplequeue.cpp lines 124-147) on the trimmed queue: the samples written and the samples left
in the queue.  A sample after the stop time ends the loop; it has been taken from the queue and is lost. -/
def drain3 (stop : Nat) : List Sample → List Sample × List Sample
  | [] => ([], [])
  | s :: q => if stop > 0 ∧ s.time > stop then ([], q) else let r := drain3 stop q; (s :: r.1, r.2)

/-- `SampleQueue::CleanQueue` (samplequeue.cpp lines 100-155) with `SetLastPosition` (lines 469-485), for the file `file`.  The
link is set to the end of the file the first time.  The headers of the groups are rewritten in place, which does not
change the length of the file; the header part of the file is not represented here.  The link is a `uint32_t` in the file
(mdfblock.cpp lines 747-751); the model leaves that to the reader (`link % 2 ^ 32`). -/
def clean3 (cfg : M3Cfg) (file : Bytes) (d : Dg3) : Bytes × Dg3 :=
  let link := if d.link > 0 then d.link else file.length
  let r := drain3 cfg.stop (trimQueue cfg.preTrig cfg.start d.queue).2
  (file ++ (r.1.map (record3 (idBytes3 d.groups))).flatten,
   { groups := r.1.foldl (fun gs s => count3 gs s.id) d.groups, link := link, queue := r.2 })

/-- The events of a measurement with several data groups: a sample is added to the queue of a data group, or the thread saves the
queue of a data group. -/
inductive M3Op where
  | add (dg : Nat) (s : Sample)
  | clean (dg : Nat)
deriving DecidableEq, Repr

/-- The file and the data groups. -/
structure M3 where
  file : Bytes
  dgs : List Dg3
deriving DecidableEq, Repr

def M3.step (cfg : M3Cfg) (m : M3) : M3Op → M3
  | .add i s =>
    match m.dgs[i]? with
    | none => m
    | some d => { m with dgs := m.dgs.set i { d with queue := d.queue ++ [s] } }
  | .clean i =>
    match m.dgs[i]? with
    | none => m
    | some d => let r := clean3 cfg m.file d; { file := r.1, dgs := m.dgs.set i r.2 }

def M3.run (cfg : M3Cfg) (m : M3) (ops : List M3Op) : M3 := ops.foldl (M3.step cfg) m

/-- What the reader delivers for data group `i` of the file. -/
def M3.read (m : M3) (i : Nat) (go : Event → Bool) : List Event × End3 :=
  match m.dgs[i]? with
  | none => ([], .done)
  | some d => readDg3 (idBytes3 d.groups) go d.groups (d.link % 2 ^ 32) m.file

end Mdf
