import Verif.Model.ReadCache

/-!
Data behind a link: data blocks, lists of data blocks and lists of lists.

Models /repo/mdflib/src/datalistblock.cpp, the reading of dl4block.cpp, ld4block.cpp and hl4block.cpp, the copying of
datablock.cpp and dz4block.cpp, and the sample reductions of sr4block.cpp and sr4block.h.

Simplifications: the file is a map from file positions to blocks; links are natural numbers (the code skips links that
are not positive); a compressed block is given by its inflated content (C81, C82).  The branch of `ReadBlockList` for a
link to SR blocks is left out.
-/

namespace Mdf

/-- The blocks that hold data only: what the 4 letters of the block or the `orig_block_type_` of a DZ block say. -/
inductive DKind where
  | dt | dv | di | rd | rv | ri | sd
deriving DecidableEq, Repr

/-- A data block: a plain one (`dz = false`) with `DataSize()` `size` (block length - 24), where the file holds the
bytes `avail` from the data position on, or a DZ block with `orig_data_length_` `size` and inflated content `avail`. -/
structure DBlk where
  kind : DKind
  dz : Bool
  size : Nat
  avail : Bytes
deriving DecidableEq, Repr

/-- A block in the file.  `list` is a DL block, or an LD block if `ld`: the link to the next one, `nof_blocks_`
and the links after the first one. -/
inductive DiskBlk where
  | data (b : DBlk)
  | list (ld : Bool) (next nof : Nat) (links : List Nat)
  | hl (first : Nat)
  | other
deriving DecidableEq, Repr

/-- What is found at a file position. -/
abbrev Disk := Nat → DiskBlk

/-- `block_list_` of a `DataListBlock`: data blocks and `DataListBlock`s. -/
inductive DTree where
  | blk (b : DBlk)
  | list (l : List DTree)

/-- Reading a list of blocks: not ended after the given number of steps, a chain of DL (or LD) blocks that leads to a block
of another kind (whose bytes the code takes for a DL block; not modelled), or the blocks. -/
inductive ListRead where
  | running
  | wrong
  | done (l : List DTree)

/-- Adding what was read before. -/
def ListRead.map (f : List DTree → List DTree) : ListRead → ListRead
  | .running => .running
  | .wrong => .wrong
  | .done l => .done (f l)

/-- One link of `DataListBlock::ReadLinkList` (datalistblock.cpp lines 112-167): links to other blocks than data blocks are
passed over. -/
def readLink (disk : Disk) (link : Nat) : Option DTree :=
  if link = 0 then none
  else
    match disk link with
    | .data b => some (.blk b)
    | _ => none

/-- `DataListBlock::ReadLinkList` (datalistblock.cpp lines 107-169); `Link` gives 0 beyond the last link
(mdfblock.h lines 128-130). -/
def readLinkList (disk : Disk) (nof : Nat) (links : List Nat) : List DTree :=
  (List.range nof).filterMap fun i => readLink disk (links.getD i 0)

/-- The loops over DL and LD blocks of `DataListBlock::ReadBlockList` (datalistblock.cpp lines 54-71) with
`Dl4Block::Read` (dl4block.cpp lines 42-62) and `Ld4Block::Read` (ld4block.cpp lines 66-105): `ReadLinkList(buffer,
kIndexData, nof_blocks_)`. -/
def dlChain (disk : Disk) (ld : Bool) : (fuel : Nat) → (link : Nat) → ListRead
  | 0, link => if link = 0 then .done [] else .running
  | fuel + 1, link =>
    if link = 0 then .done []
    else
      match disk link with
      | .list ld' next nof links =>
        if ld' = ld then (dlChain disk ld fuel next).map (.list (readLinkList disk nof links) :: ·) else .wrong
      | _ => .wrong

/-- `DataListBlock::ReadBlockList` (datalistblock.cpp lines 27-105) and `Hl4Block::Read` (hl4block.cpp lines 41-49). -/
def readBlockList (disk : Disk) : (fuel : Nat) → (link : Nat) → ListRead
  | 0, link => if link = 0 then .done [] else .running
  | fuel + 1, link =>
    if link = 0 then .done []
    else
      match disk link with
      | .data b => .done [.blk b]
      | .list ld _ _ _ => dlChain disk ld (fuel + 1) link
      | .hl first => (readBlockList disk fuel first).map fun l => [.list l]
      | .other => .done []

mutual
/-- `DataListBlock::DataSize` (datalistblock.cpp lines 199-214). -/
def DTree.dataSize : DTree → Nat
  | .blk b => b.size
  | .list l => DTree.sizes l
/-- The sum over `block_list_`. -/
def DTree.sizes : List DTree → Nat
  | [] => 0
  | t :: ts => t.dataSize + DTree.sizes ts
end

mutual
/-- `DataListBlock::GetDataBlockList` (datalistblock.cpp lines 266-281). -/
def DTree.blocks : DTree → List DBlk
  | .blk b => [b]
  | .list l => DTree.blocksOf l
/-- The blocks of `block_list_`. -/
def DTree.blocksOf : List DTree → List DBlk
  | [] => []
  | t :: ts => t.blocks ++ DTree.blocksOf ts
end

mutual
/-- `DataListBlock::IsRdBlock` (datalistblock.cpp lines 242-264). -/
def DTree.isRd : DTree → Bool
  | .blk b => b.kind == .rd
  | .list l => DTree.anyRd l
/-- The loop over `block_list_`. -/
def DTree.anyRd : List DTree → Bool
  | [] => false
  | t :: ts => t.isRd || DTree.anyRd ts
end

/-- The bytes from `idx` on replaced. -/
def dlPut (dest : Bytes) (idx : Nat) (bytes : Bytes) : Bytes :=
  dest.take idx ++ bytes ++ dest.drop (idx + bytes.length)

/-- `DataBlock::CopyDataToBuffer` (datablock.cpp lines 39-57) and `Dz4Block::CopyDataToBuffer` (dz4block.cpp lines
115-157): the buffer and the index after copying.  Only the former checks the size of the buffer.  `sgetn` may find less than
`DataSize()` bytes in the file; the buffer for the inflated bytes has `orig_data_length_` bytes. -/
def DBlk.copy (b : DBlk) (dest : Bytes) (idx : Nat) : Out (Bytes × Nat) :=
  if b.size = 0 then .ok (dest, idx)
  else if b.dz then
    if dest.length < idx + b.size then .ub
    else .ok (dlPut dest idx ((b.avail ++ List.replicate b.size 0).take b.size), idx + b.size)
  else if dest.length < idx + b.size then .throw
  else .ok (dlPut dest idx (b.avail.take b.size), idx + (b.avail.take b.size).length)

mutual
/-- `DataListBlock::CopyDataToBuffer` (datalistblock.cpp lines 229-240). -/
def DTree.copy : DTree → (dest : Bytes) → (idx : Nat) → Out (Bytes × Nat)
  | .blk b, dest, idx => b.copy dest idx
  | .list l, dest, idx => DTree.copyAll l dest idx
/-- The loop over `block_list_`. -/
def DTree.copyAll : List DTree → (dest : Bytes) → (idx : Nat) → Out (Bytes × Nat)
  | [], dest, idx => .ok (dest, idx)
  | t :: ts, dest, idx => (t.copy dest idx).bind fun r => DTree.copyAll ts r.1 r.2
end

/-- `Sr4Block::ReadData` (sr4block.cpp lines 122-149) and `Cn4Block::ReadSignalData` (cn4block.cpp lines 599-615): the bytes in
`data_list_`. -/
def readListData (l : List DTree) : Out Bytes :=
  if l.isEmpty ∨ DTree.sizes l = 0 then .ok []
  else (DTree.copyAll l (List.replicate (DTree.sizes l) 0) 0).bind fun r => .ok r.1

/-- A data block as the record reader sees it. -/
def DBlk.toBlk (b : DBlk) : Blk :=
  if b.dz then ⟨true, (b.avail ++ List.replicate b.size 0).take b.size, []⟩ else ⟨false, b.avail.take b.size, b.avail.drop b.size⟩

/-! ### Sample reductions -/

/-- What `Sr4Block` needs to know: `NofDataBytes()` and `NofInvalidBytes()` of the channel group, `NofSamples()` of the
reduction, and what was read: `data_list_` and `IsRdBlock()`. -/
structure SrState where
  dataSize : Nat
  invalidSize : Nat
  nof : Nat
  data : Bytes
  isRd : Bool
deriving DecidableEq, Repr

/-- One `if (const auto index = static_cast<int>(pos); static_cast<size_t>(index + n) <= data_list_.size())
std::copy_n(data_list_.cbegin() + index, n, record_buffer.begin() + off)` (sr4block.h lines 96-99).  `index` is a 32 bit number;
the sum is `uint64_t`.  `none` is undefined behaviour: copying from before the buffer. -/
def srCopy (data : Bytes) (pos n off : Nat) (buffer : Bytes) : Option Bytes :=
  if ((toInt32 pos + n) % (2 ^ 64 : Int)).toNat ≤ data.length then
    if toInt32 pos < 0 then none
    else some (dlPut buffer off ((data.drop (toInt32 pos).toNat).take n))
  else some buffer

/-- One of the three parts of `GetChannelValueT` (sr4block.h lines 95-156): the record of part `k` (0 mean, 1 minimum, 2 maximum)
copied into the record buffer. -/
def SrState.part (s : SrState) (sample k : Nat) (buffer : Bytes) : Option Bytes :=
  if s.isRd then
    let n := s.dataSize + s.invalidSize
    srCopy s.data (sample * 3 * n + k * n) n 0 buffer
  else do
    let buffer ← srCopy s.data (sample * 3 * s.dataSize + k * s.dataSize) s.dataSize 0 buffer
    srCopy s.data (s.nof * 3 * s.dataSize + sample * 3 * s.invalidSize + k * s.invalidSize) s.invalidSize s.dataSize buffer

/-- `Sr4Block::GetChannelValueT` (sr4block.h lines 78-158): mean, minimum and maximum, each taken from the record buffer with
`get`, the `GetChannelValue` of the channel.  `none` is undefined behaviour, `some none` no value (all are invalid). -/
def SrState.value {β : Type} (s : SrState) (get : Bytes → β) (sample : Nat) : Option (Option (β × β × β)) :=
  if s.data = [] ∨ s.dataSize + s.invalidSize = 0 then some none
  else do
    let mean ← s.part sample 0 (List.replicate (s.dataSize + s.invalidSize) 0)
    let min ← s.part sample 1 mean
    let max ← s.part sample 2 min
    some (some (get mean, get min, get max))

/-- Reading a sample reduction: its data link and the data. -/
def srRead (dataSize invalidSize nof : Nat) (l : List DTree) : Out SrState :=
  (readListData l).bind fun data => .ok ⟨dataSize, invalidSize, nof, data, DTree.anyRd l⟩

end Mdf
