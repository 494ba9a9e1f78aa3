import Verif.Model.Block

/-!
# Writing and reading the blocks of an MDF 3 file

Models `MdfBlock` of /repo/mdflib/src/mdfblock.cpp (`Write`, `Update`, `UpdateLink`, `UpdateBlockSize`, `ReadHeader3`, `ReadLinks3`,
`ReadTx3`) for MDF 3, and the common structure of the `Write` and `Read` functions of the MDF 3 block classes.

The file is a list of bytes.  The block objects are those of Model/Block (`BObj`, `FileSt`), the trees of blocks too.  An MDF 3 block
has no count of links; a class knows how many links follow the header.  Some classes (`Cn3Block`) have further links behind
some of their values.
-/

namespace Mdf

/-- What the class of an MDF 3 block fixes. -/
structure Info3 where
  /-- the class, which decides how the block is read -/
  kind : Nat
  /-- `block_type_` -/
  ty : Bytes
  /-- the size given to `link_list_.resize`: the links that follow the header -/
  head : Nat
  /-- all links, with those behind the values -/
  nlinks : Nat
  /-- the number of bytes of the values that stand before the links behind the values -/
  cut : Nat
  /-- `block_size_` before the block is written, from the size of the values -/
  first : Nat → Nat
  /-- the size given to `UpdateBlockSize` after the block was written, for the classes that call it -/
  final : Option (Nat → Nat)
  /-- the bytes (offset in the block and size) that are written again if the block is already in the file -/
  upd : List (Nat × Nat)

/-- The links of a block in the file: 32 bits each. -/
def links4 : List Nat → Bytes
  | [] => []
  | l :: ls => leBytes 4 l ++ links4 ls

/-- The bytes of a block in the file: `MdfBlock::Write` (mdfblock.cpp lines 637-645) writes type, size and links, then the class
writes its values. -/
def lay3 (inf : Info3) (b : BObj) : Bytes :=
  writeStr inf.ty 2 ++ leBytes 2 b.len ++ links4 (b.links.take inf.head) ++ b.body.take inf.cut ++
    links4 (b.links.drop inf.head) ++ b.body.drop inf.cut

/-- The start of `Write` for a block that is not in the file: `link_list_.resize` and the size of the block (`block_size_` has 16
bits), for example dg3block.cpp lines 91-95. -/
def FileSt.start3 (S : FileSt) (I : Nat → Info3) (id : Nat) : FileSt :=
  if 0 < S.pos id then S else
    S.set id { S.st id with
      len := (I id).first (S.st id).body.length % 2 ^ 16, links := resizeLinks (S.st id).links (I id).nlinks }

/-- `MdfBlock::UpdateBlockSize` (mdfblock.cpp lines 757-778) for MDF 3. -/
def FileSt.updateBlockSize3 (S : FileSt) (id bytes : Nat) : FileSt :=
  if S.pos id = 0 then { S with thrown := true }
  else if (S.st id).len = bytes then S
  else { S.set id { S.st id with len := bytes % 2 ^ 16 } with data := putAt S.data (S.pos id + 2) (leBytes 2 bytes) }

/-- `MdfBlock::Write` (mdfblock.cpp lines 622-647) for MDF 3, then the values.  There is no alignment: `SetLastFilePosition` (lines
699-713) only fills for MDF 4. -/
def FileSt.append3 (S : FileSt) (I : Nat → Info3) (id : Nat) : FileSt :=
  { S.set id { S.st id with pos := S.data.length } with data := S.data ++ lay3 (I id) (S.st id) }

/-- Rewriting the values of a block that is already in the file: `MdfBlock::Update` (mdfblock.cpp lines 649-655) moves behind the links,
then the class writes or steps over its values. -/
def FileSt.rewrite3 (S : FileSt) (I : Nat → Info3) (id : Nat) : FileSt :=
  let put := fun (d : Bytes) (r : Nat × Nat) => putAt d (S.pos id + r.1) (((lay3 (I id) (S.st id)).drop r.1).take r.2)
  { S with data := (I id).upd.foldl put S.data }

/-- The part of `Write` of a block class that writes the block itself. -/
def FileSt.writeSelf3 (S : FileSt) (I : Nat → Info3) (id : Nat) : FileSt :=
  if 0 < S.pos id then S.rewrite3 I id
  else match (I id).final with
    | none => S.append3 I id
    | some f => (S.append3 I id).updateBlockSize3 id (f (S.st id).body.length)

/-- `MdfBlock::UpdateLink` (mdfblock.cpp lines 731-755) for MDF 3.  The links behind the values are no members of `link_list_`: they are
known before the block is written (`long_name_link` and `display_name_link`, cn3block.cpp lines 257-281) and never changed afterwards. -/
def FileSt.updateLink3 (S : FileSt) (I : Nat → Info3) (id i v : Nat) : FileSt :=
  if (S.st id).links.length ≤ i ∨ (0 < S.pos id ∧ (I id).head ≤ i) then { S with thrown := true }
  else if v = S.link id i then S
  else
    { S.set id { S.st id with links := (S.st id).links.set i v } with
      data := if 0 < S.pos id then putAt S.data (S.pos id + (4 + i * 4)) (leBytes 4 v) else S.data }

mutual
/-- `Write` of a block class.  What is written before the block itself is only written if the block is not in the file
(cn3block.cpp lines 262-282, cc3block.cpp lines 251-268). -/
def writeNode3 (I : Nat → Info3) (S : FileSt) : Node → FileSt
  | .mk id pre post =>
    if 0 < S.pos id then writeSlots3 I (S.writeSelf3 I id) id post
    else writeSlots3 I ((writeSlots3 I (S.start3 I id) id pre).writeSelf3 I id) id post

/-- The blocks below: the calls of `Write` of other blocks in `Write`. -/
def writeSlots3 (I : Nat → Info3) (S : FileSt) (id : Nat) : Slots → FileSt
  | .nil => S
  | .cons s kids rest => writeSlots3 I (writeKids3 I S s.opt id s.index kids) id rest

/-- The loops over lists of blocks: hd3block.cpp lines 197-218, where only the last written data group is written again; dg3block.cpp
lines 109-123, where all groups are; cg3block.cpp lines 146-159, where no written channel is.  The position of each block goes to link
`ti` of block `tid`: the link of the parent for the first, link 0 of the previous block for the others.  A single block is a list
with one block. -/
def writeKids3 (I : Nat → Info3) (S : FileSt) (opt : UpdOpt) (tid ti : Nat) : Kids → FileSt
  | .nil => S
  | .cons n rest =>
    if S.needUpdate opt tid ti n.id rest.isNil then
      writeKids3 I ((writeNode3 I S n).updateLink3 I tid ti ((writeNode3 I S n).pos n.id)) opt n.id 0 rest
    else writeKids3 I S opt n.id 0 rest
end

/-- The values of a block in memory change; nothing is written. -/
def FileSt.setBody (S : FileSt) (id : Nat) (body : Bytes) : FileSt := S.set id { S.st id with body := body }

/-- `SampleQueue::CleanQueue` (samplequeue.cpp lines 98-149): the link to the data is set once (`SetLastPosition`, lines 469-487; `d` is
`kIndexData`), the records go to the end of the file, then each channel group of the data group is written again, with its new number
of samples.  `cgs` are the groups with their values after all records were counted. -/
def FileSt.saveSamples3 (S : FileSt) (I : Nat → Info3) (dg d : Nat) (bytes : Bytes) (cgs : List (Node × Bytes)) : FileSt :=
  let S1 := if 0 < S.link dg d then S else S.updateLink3 I dg d S.data.length
  let S2 := { S1 with data := S1.data ++ bytes }
  cgs.foldl (fun S p => writeNode3 I (S.setBody p.1.id p.2) p.1) S2

/-! ## Reading -/

/-- What reading gives: for each block its values, and for each link that leads to blocks the blocks. -/
inductive RTree3 (V : Type) where
  | mk (val : V) (kids : List (List (RTree3 V)))

/-- `MdfBlock::ReadLinks3` (mdfblock.cpp lines 424-434). -/
def readLinks3 : (n : Nat) → Bytes → Option (List Nat × Bytes)
  | 0, file => some ([], file)
  | n + 1, file => (readNumber 4 file).bind fun r => (readLinks3 n r.2).map fun q => (r.1 :: q.1, q.2)

/-- `MdfBlock::ReadHeader3` (mdfblock.cpp lines 413-422) and `ReadLinks3`: the size of the block, its links and what follows; `none`
is the exception. -/
def readHeader3 (n : Nat) (data : Bytes) (pos : Nat) : Option ((Nat × List Nat) × Bytes) :=
  let t := readStr 2 (data.drop pos)
  if t.1 = [0x23#8, 0x23#8] then none
  else (readNumber 2 t.2).bind fun len => (readLinks3 n len.2).map fun ls => ((len.1, ls.1), ls.2)

/-- How the classes read their values: from the class, the size of the block and what follows the links in the file to the values and the
links behind the values. -/
abbrev Getter (V : Type) := (kind size : Nat) → Bytes → Option (V × List Nat)

/-- The loops over lists, for example hd3block.cpp lines 224-231.  `readOne` reads a block and returns its link 0. -/
def readChain3 {V : Type} (readOne : Nat → FinRes (RTree3 V × Nat)) : (fuel : Nat) → (link : Nat) → FinRes (List (RTree3 V))
  | 0, link => if 0 < link then .hang else .ok []
  | fuel + 1, link =>
    if 0 < link then (readOne link).bind fun r => (readChain3 readOne fuel r.2).map (r.1 :: ·) else .ok []

/-- `ReadTx3` and so on (mdfblock.cpp lines 549-558): one block if the link is set. -/
def readSingle3 {V : Type} (readOne : Nat → FinRes (RTree3 V × Nat)) (link : Nat) : FinRes (List (RTree3 V)) :=
  if 0 < link then (readOne link).map fun r => [r.1] else .ok []

def readAll3 {V : Type} (g : Slot → FinRes (List (RTree3 V))) : List Slot → FinRes (List (List (RTree3 V)))
  | [] => .ok []
  | s :: ss => (g s).bind fun k => (readAll3 g ss).map (k :: ·)

/-- `Read` of a block class: header, links, values and the blocks below.  `heads` tells how many links a class reads.  Simplified:
the blocks below are read with the block; the program reads channels later (`ReadEverythingButData`, hd3block.cpp lines 234-245), which
gives the same result because the file does not change. -/
def readNode3 {V : Type} (G : Getter V) (heads : Nat → Nat) (Sc : Schema) (data : Bytes) :
    (fuel : Nat) → (kind pos : Nat) → FinRes (RTree3 V × Nat)
  | 0, _, _ => .hang
  | fuel + 1, kind, pos =>
    (FinRes.ofOption (readHeader3 (heads kind) data pos)).bind fun h =>
    (FinRes.ofOption (G kind h.1.1 h.2)).bind fun v =>
      (readAll3 (fun s =>
        if s.chain then readChain3 (readNode3 G heads Sc data fuel s.kind) fuel ((h.1.2 ++ v.2).getD s.index 0)
        else readSingle3 (readNode3 G heads Sc data fuel s.kind) ((h.1.2 ++ v.2).getD s.index 0)) (Sc kind)).map
        fun kids => (.mk v.1 kids, h.1.2.getD 0 0)

end Mdf
