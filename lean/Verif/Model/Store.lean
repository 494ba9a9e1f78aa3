import Verif.Model.Queue
import Verif.Model.Vlsd

/-!
The bytes that are stored for the samples taken from the queue.

Models the bodies of the save loops of /repo/mdflib/src/writer4samplequeue.cpp (lines 78-123 without and 247-297 with
compression; the same code in /repo/mdflib/src/convertersamplequeue.cpp), the counters of
/repo/mdflib/src/cg4block.cpp `WriteSample`, `WriteCompressedSample`, and the list of compressed blocks with their offsets.
-/

namespace Mdf

/-- The data group being written.  `sd` tells the groups with a variable length channel without VLSD group
(`FindSdChannel`).  `render` is the record of a sample with its master time calculated. -/
structure SCfg where
  idSize : Nat
  groups : List RGroup
  sd : Nat → Bool
  render : Sample → Bytes

/-- `Dg4Block::FindCgRecordId` (dg4block.cpp lines 613-626). -/
def SCfg.find (cfg : SCfg) (id : Nat) : Option RGroup :=
  if cfg.groups.length = 1 then cfg.groups.head? else cfg.groups.find? (·.id = id)

/-- The VLSD group of a sample (writer4samplequeue.cpp lines 85-90, 256-262). -/
def SCfg.vlsdGroup (cfg : SCfg) (id : Nat) : Option RGroup := (cfg.find (id + 1)).filter (·.vlsd)

/-- The counters of the groups and the signal data of their channels, by record id. -/
structure SSt where
  cg : Nat → VlsdCg
  sd : Nat → Bytes

def SSt.init : SSt := { cg := fun _ => ⟨0, 0, 0, 0⟩, sd := fun _ => [] }

def SSt.setCg (st : SSt) (id : Nat) (g : VlsdCg) : SSt := { st with cg := fun i => if i = id then g else st.cg i }

/-- `IncrementSample` and `NofSamples(Sample())` (cg4block.cpp lines 531-532, 574-575). -/
def SSt.count (st : SSt) (id : Nat) : SSt := st.setCg id { st.cg id with nof := (st.cg id).nof + 1 }

/-- The index is written to the last 8 bytes of the record (writer4samplequeue.cpp lines 102-108, 114-120, 277-295). -/
def patchIndex (data : Bytes) (index : Nat) : Bytes :=
  if data.length ≥ 8 then data.take (data.length - 8) ++ leBytes 8 index else data

/-- The records stored for a sample (writer4samplequeue.cpp lines 78-123, 247-297), each with the flag for a length before the
bytes. -/
def SCfg.storeOne (cfg : SCfg) (st : SSt) (s : Sample) : List (Bool × Rec) × SSt :=
  match cfg.find s.id with
  | none => ([], st)
  | some g =>
    match s.vlsd with
    | none => ([(false, ⟨g.id, cfg.render s⟩)], st.count g.id)
    | some v =>
      match cfg.vlsdGroup s.id with
      | some vg =>
        let r := (st.cg vg.id).write v
        ([(true, ⟨vg.id, v⟩), (false, ⟨g.id, patchIndex (cfg.render s) r.1⟩)], (st.setCg vg.id r.2).count g.id)
      | none =>
        if cfg.sd g.id then
          let r := sdAppend (st.sd g.id) v
          ([(false, ⟨g.id, patchIndex (cfg.render s) r.1⟩)],
            { st with sd := fun i => if i = g.id then r.2 else st.sd i }.count g.id)
        else ([(false, ⟨g.id, cfg.render s⟩)], st.count g.id)

/-- A sequence of samples. -/
def SCfg.store (cfg : SCfg) : List Sample → SSt → List (Bool × Rec) × SSt
  | [], st => ([], st)
  | s :: ss, st =>
    let r := cfg.storeOne st s
    let q := cfg.store ss r.2
    (r.1 ++ q.1, q.2)

/-- The bytes of the stored records. -/
def SCfg.bytes (cfg : SCfg) (recs : List (Bool × Rec)) : Bytes := recs.flatMap fun r => encodeRec cfg.idSize r.1 r.2

/-- The contents of the blocks: the buffer starts empty for each block and the counters go on. -/
def SCfg.chunks (cfg : SCfg) : List (List Sample) → SSt → List Bytes
  | [], _ => []
  | b :: bs, st =>
    let r := cfg.store b st
    cfg.bytes r.1 :: cfg.chunks bs r.2

/-- The queue's settings for the data group: which ids are known and how many bytes a sample takes. -/
def SCfg.queue (cfg : SCfg) (compress periodic trims : Bool) (preTrig : Nat) : WCfg :=
  { compress := compress, periodic := periodic, trims := trims, preTrig := preTrig, idSize := cfg.idSize,
    known := fun id => (cfg.find id).isSome, stored := fun s => (cfg.bytes (cfg.storeOne SSt.init s).1).length }

/-! ### The list of compressed blocks -/

/-- A DL block: `offset_list_` and the contents of its data blocks. -/
structure Dl where
  offsets : List Nat
  blocks : List Bytes
deriving DecidableEq, Repr

/-- `Dl4Block::Offset(index, offset)` (dl4block.cpp lines 142-148). -/
def setOffset (l : List Nat) (i v : Nat) : List Nat := (l ++ List.replicate (i + 1 - l.length) 0).set i v

/-- A new DL block in `CleanQueueCompressed` (writer4samplequeue.cpp lines 190-194). -/
def Dl.new (offset : Nat) : Dl := { offsets := setOffset [] 0 offset, blocks := [] }

/-- Appending a data block (writer4samplequeue.cpp lines 226-234 and 303-322): the block list and `offset_`. -/
def Dl.push (d : Dl) (offset : Nat) (data : Bytes) : Dl × Nat :=
  ({ offsets := setOffset d.offsets d.blocks.length offset, blocks := d.blocks ++ [data] }, offset + data.length)

def Dl.pushAll (d : Dl) (offset : Nat) : List Bytes → Dl × Nat
  | [] => (d, offset)
  | b :: bs => let r := d.push offset b; r.1.pushAll r.2 bs

/-- The saves of a measurement, each with the blocks it makes; `offset_` goes on. -/
def dlSaves (offset : Nat) : List (List Bytes) → List Dl
  | [] => []
  | bs :: rest => let r := (Dl.new offset).pushAll offset bs; r.1 :: dlSaves r.2 rest

/-- The offsets written to the file, one for each block (dl4block.cpp lines 104-106, 150-152). -/
def Dl.written (d : Dl) : List Nat := (List.range d.blocks.length).map fun i => d.offsets.getD i 0

end Mdf
