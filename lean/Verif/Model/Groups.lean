import Verif.Model.Block

/-!
Several data groups in one file: which of them a measurement may save samples for, and where the samples go.

Models /repo/mdflib/src/writecache.cpp (`Init`, `WorkThread`), the choice of compression in /repo/mdflib/src/mdf4writer.cpp
(`PrepareForWriting`), /repo/mdflib/src/dg4block.cpp (`CreateOrGetDt4`, `CreateOrGetHl4`), and what
/repo/mdflib/src/writer4samplequeue.cpp does with the file in `SaveQueue` and `CleanQueue`.

The bytes a queue stores for its samples are `Verif.Model.Store`; here a save has the bytes as they are.  The file is the
sequence of its bytes; the changes of the header of a data block (its length) are kept with the data group, other blocks that are
updated in place are not of interest.  `Verif.Model.Block` has the blocks and links.
-/

namespace Mdf

/-- A channel group: the VLSD flag and `NofSamples()`. -/
structure GrpCount where
  vlsd : Bool
  nof : Nat
deriving DecidableEq, Repr

/-- The data blocks of a data group (`DataBlockList()`): none; a DT block with its position and `block_length_`; or an HL block, with the data
of the blocks in its DL blocks. -/
inductive DataRef where
  | none
  | dt (pos len : Nat)
  | hl (chunks : List Bytes)
deriving DecidableEq, Repr

/-- A data group. -/
structure DgData where
  groups : List GrpCount
  data : DataRef
deriving DecidableEq, Repr

/-- The file. -/
structure DgFile where
  bytes : Bytes
  dgs : List DgData

/-- A data group gets a sample queue if one of its channel groups, VLSD groups not counted, has no samples (writecache.cpp lines
46-73). -/
def DgData.cached (d : DgData) : Bool := d.groups.any fun g => !g.vlsd && g.nof = 0

/-- `add_group` (mdf4writer.cpp lines 71-79). -/
def DgData.isNew (d : DgData) : Bool := d.groups.all fun g => g.nof = 0

/-- The size of `active_list` (mdf4writer.cpp lines 66-85): a data group with samples clears the list. -/
def activeCount (dgs : List DgData) : Nat := dgs.foldl (fun n d => if d.isNew then n + 1 else 0) 0

/-- `CompressData()` and `IsSavePeriodic()`. -/
structure SaveMode where
  compress : Bool
  periodic : Bool
deriving DecidableEq, Repr

/-- Compression is turned on if more than one data group is to be saved again and again (mdf4writer.cpp lines 87-90). -/
def SaveMode.compressed (m : SaveMode) (dgs : List DgData) : Bool := m.compress || (decide (activeCount dgs > 1) && m.periodic)

/-- The header of an empty DT block (dt4block.cpp lines 46-65, mdfblock.cpp `Write`). -/
def dtHeader : Bytes := [0x23, 0x23, 0x44, 0x54, 0, 0, 0, 0, 24, 0, 0, 0, 0, 0, 0, 0, 0, 0, 0, 0, 0, 0, 0, 0]

/-- The sample counters after a save (`WriteSample`): `counts` has the samples of each channel group. -/
def addCounts (groups : List GrpCount) (counts : List Nat) : List GrpCount :=
  groups.mapIdx fun i g => { g with nof := g.nof + counts.getD i 0 }

/-- What is saved for a data group: the bytes of its records and the number of samples of each channel group. -/
structure SavePart where
  data : Bytes
  counts : List Nat

/-- `SaveQueue` without compression (writer4samplequeue.cpp lines 36-137): the data block is created at the end of the file if there is none;
the bytes are appended to the file; and the data block is said to reach to the end of the file.  With an HL block there, `dt4` is `nullptr`
and the function returns with the lock released, which the next `unlock` reports as an exception; this ends the program if it
happens in the last loop of the thread (writecache.cpp lines 142-149): `none`. -/
def DgFile.savePlain (f : DgFile) (i : Nat) (d : DgData) (p : SavePart) : Option DgFile :=
  match d.data with
  | .none =>
    some { bytes := pad8 f.bytes ++ dtHeader ++ p.data,
           dgs := f.dgs.set i { groups := addCounts d.groups p.counts, data := .dt (pad8 f.bytes).length (24 + p.data.length) } }
  | .dt pos _ =>
    some { bytes := f.bytes ++ p.data,
           dgs := f.dgs.set i { groups := addCounts d.groups p.counts, data := .dt pos ((f.bytes ++ p.data).length - pos) } }
  | .hl _ => none

/-- `CleanQueueCompressed` (writer4samplequeue.cpp lines 158-331), also if `SaveQueueCompressed` has less than a full block to save (no bytes):
nothing happens if the queue is empty; an HL block is created if there is no data block, else the last data block must be one (lines
170-173), otherwise the samples stay in the queue.  `enc` are the blocks that are appended to the file. -/
def DgFile.savePacked (enc : Bytes → Bytes) (f : DgFile) (i : Nat) (d : DgData) (p : SavePart) : DgFile :=
  if p.data = [] then f else
  match d.data with
  | .none =>
    { bytes := f.bytes ++ enc p.data, dgs := f.dgs.set i { groups := addCounts d.groups p.counts, data := .hl [p.data] } }
  | .hl chunks =>
    { bytes := f.bytes ++ enc p.data, dgs := f.dgs.set i { groups := addCounts d.groups p.counts, data := .hl (chunks ++ [p.data]) } }
  | .dt _ _ => f

/-- A save of one data group. -/
def DgFile.save (enc : Bytes → Bytes) (compressed : Bool) (f : DgFile) (i : Nat) (p : SavePart) : Option DgFile :=
  match f.dgs[i]? with
  | .none => some f
  | some d => if compressed then some (f.savePacked enc i d p) else f.savePlain i d p

/-- The saves of one pass over the sample queues (writecache.cpp lines 110-139 and 144-148).  `order` is the order of the map, which has
the addresses of the data groups as keys. -/
def DgFile.pass (enc : Bytes → Bytes) (compressed : Bool) (parts : Nat → SavePart) : List Nat → DgFile → Option DgFile
  | [], f => some f
  | i :: order, f => (f.save enc compressed i (parts i)).bind (DgFile.pass enc compressed parts order)

/-- The passes: several while the measurement runs if it is saved periodically (writecache.cpp lines 120-125), and the last one when
it is stopped. -/
def DgFile.passes (enc : Bytes → Bytes) (compressed : Bool) (order : List Nat) : List (Nat → SavePart) → DgFile → Option DgFile
  | [], f => some f
  | parts :: rest, f => (f.pass enc compressed parts order).bind (DgFile.passes enc compressed order rest)

/-- A measurement: `PrepareForWriting` chooses the compression, then the passes. -/
def DgFile.measure (enc : Bytes → Bytes) (m : SaveMode) (order : List Nat) (saves : List (Nat → SavePart)) (f : DgFile) : Option DgFile :=
  f.passes enc (m.compressed f.dgs) order saves

/-- The stream of record bytes a reader gets for a data group (`Dt4Block::DataSize`, dt4block.cpp lines 33-35; the DT block's data
start 24 bytes after its position). -/
def DgData.stream (d : DgData) (bytes : Bytes) : Bytes :=
  match d.data with
  | .none => []
  | .dt pos len => (bytes.drop (pos + 24)).take (if len > 24 then len - 24 else 0)
  | .hl chunks => chunks.flatten

end Mdf
