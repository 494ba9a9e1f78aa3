import Verif.Model.Text
import Verif.Model.Finalize

/-!
# Writing and reading the blocks of an MDF 4 file

Models `MdfBlock` of /repo/mdflib/src/mdfblock.cpp and mdfblock.h (`Write`, `UpdateLink`, `UpdateBlockSize`,
`SetLastFilePosition`, `WriteLink4List`, `WriteBlock4`, `WriteMdComment`, `WriteTx4`, `ReadHeader4`, `ReadLink4List`,
`ReadMdComment`, `ReadTx4`) and the common structure of the `Write` and `Read` functions of the block classes.

The file is a list of bytes.  The block objects of the program are numbered; `FileSt.st` holds the members of each object.  What a
class fixes for its objects (block type, number of links, which values are rewritten) is in `Info`.
-/

namespace Mdf

/-- Writing bytes at a position of a file (`pubseekpos` and `sputn`).  A gap behind the end of the file is filled with zeros.
Writing no bytes does not change the file. -/
def putAt (data : Bytes) (pos : Nat) (bs : Bytes) : Bytes :=
  if bs = [] then data else
  data.take pos ++ List.replicate (pos - data.length) 0#8 ++ bs ++ data.drop (pos + bs.length)

/-- The members of a block object that change. -/
structure BObj where
  /-- `file_position_`, zero if the block is not written -/
  pos : Nat
  /-- `block_length_` -/
  len : Nat
  /-- `link_list_` -/
  links : List Nat
  /-- the values of the block, as they are stored after the links -/
  body : Bytes
deriving DecidableEq, Repr

/-- What the class of a block fixes. -/
structure Info where
  /-- the class, which decides how the block is read -/
  kind : Nat
  /-- `block_type_` -/
  ty : Bytes
  /-- the size given to `link_list_.resize` -/
  nlinks : Nat
  /-- the values (offset and size) that are written again if the block is already in the file, for example the cycle counter of a
  channel group (cg4block.cpp lines 211-227) and all values of the header (hd4block.cpp lines 521-526, where the position is
  the one `Mdf4Timestamp` remembers) -/
  upd : List (Nat × Nat)
  /-- links that are set to the position of a block that is written by someone else: link index and block -/
  refs : List (Nat × Nat)
deriving DecidableEq, Repr

/-- The file and the block objects. -/
structure FileSt where
  data : Bytes
  st : Nat → BObj
  /-- an exception left the writer; nothing is claimed about the state then -/
  thrown : Bool

def FileSt.pos (S : FileSt) (id : Nat) : Nat := (S.st id).pos

/-- `MdfBlock::Link` (mdfblock.h line 128). -/
def FileSt.link (S : FileSt) (id i : Nat) : Nat := (S.st id).links.getD i 0

def FileSt.set (S : FileSt) (id : Nat) (b : BObj) : FileSt := { S with st := fun j => if j = id then b else S.st j }

/-- The fill bytes of `SetLastFilePosition` (mdfblock.cpp lines 699-713). -/
def pad8 (data : Bytes) : Bytes := data ++ List.replicate ((8 - data.length % 8) % 8) 0#8

/-- The links of a block in the file. -/
def linkBytes : List Nat → Bytes
  | [] => []
  | l :: ls => leBytes 8 l ++ linkBytes ls

/-- The header written by `MdfBlock::Write` (mdfblock.cpp lines 628-637). -/
def headerBytes (ty : Bytes) (len : Nat) (links : List Nat) : Bytes :=
  writeStr ty 4 ++ List.replicate 4 0#8 ++ leBytes 8 len ++ leBytes 8 links.length ++ linkBytes links

/-- `link_list_.resize(n, 0)`. -/
def resizeLinks (links : List Nat) (n : Nat) : List Nat := links.take n ++ List.replicate (n - links.length) 0

/-- The start of `Write` for a block that is not in the file: `link_list_.resize` and the links to blocks of others, for example
cn4block.cpp lines 514 and 525-539. -/
def FileSt.start (S : FileSt) (I : Nat → Info) (id : Nat) : FileSt :=
  if 0 < S.pos id then S else
    let links := resizeLinks (S.st id).links (I id).nlinks
    S.set id { S.st id with links := (I id).refs.foldl (fun ls r => ls.set r.1 (S.pos r.2)) links }

/-- `MdfBlock::UpdateBlockSize` (mdfblock.cpp lines 757-778) for MDF 4. -/
def FileSt.updateBlockSize (S : FileSt) (id bytes : Nat) : FileSt :=
  if S.pos id = 0 then { S with thrown := true }
  else if (S.st id).len = bytes then S
  else { S.set id { S.st id with len := bytes } with data := putAt S.data (S.pos id + 8) (leBytes 8 bytes) }

/-- `MdfBlock::Write` (mdfblock.cpp lines 622-647) for MDF 4, then the values. -/
def FileSt.append (S : FileSt) (I : Nat → Info) (id : Nat) : FileSt :=
  let data := pad8 S.data
  { S.set id { S.st id with pos := data.length } with
    data := data ++ headerBytes (I id).ty (S.st id).len (S.st id).links ++ (S.st id).body }

/-- Rewriting the values of a block that is already in the file. -/
def FileSt.rewrite (S : FileSt) (I : Nat → Info) (id : Nat) : FileSt :=
  let put := fun (d : Bytes) (r : Nat × Nat) =>
    putAt d (S.pos id + 24 + 8 * (S.st id).links.length + r.1) (((S.st id).body.drop r.1).take r.2)
  { S with data := (I id).upd.foldl put S.data }

/-- The part of `Write` of a block class that writes the block itself: a block that is not in the file is appended, its length
is corrected; of a block in the file the values that may change are written again. -/
def FileSt.writeSelf (S : FileSt) (I : Nat → Info) (id : Nat) : FileSt :=
  if 0 < S.pos id then S.rewrite I id
  else (S.append I id).updateBlockSize id (24 + 8 * (S.st id).links.length + (S.st id).body.length)

/-- `MdfBlock::UpdateLink` (mdfblock.cpp lines 731-755) for MDF 4. -/
def FileSt.updateLink (S : FileSt) (id i v : Nat) : FileSt :=
  if (S.st id).links.length ≤ i then { S with thrown := true }
  else if v = S.link id i then S
  else
    { S.set id { S.st id with links := (S.st id).links.set i v } with
      data := if 0 < S.pos id then putAt S.data (S.pos id + 24 + i * 8) (leBytes 8 v) else S.data }

/-- `UpdateOption` of `WriteLink4List` (mdfblock.h), and the condition of `WriteMdComment` and `WriteTx4`. -/
inductive UpdOpt where
  | /-- `DoNotUpdateWrittenBlock`, also the rule of `WriteBlock4` -/ never
  | /-- `DoUpdateAllBlocks` -/ all
  | /-- `DoUpdateOnlyLastBlock` -/ onlyLast
  | /-- `WriteMdComment` and `WriteTx4`: only if the link is zero -/ ifNoLink
deriving DecidableEq, Repr

/-- A link of a block class that leads to other blocks of its own. -/
structure Slot where
  /-- the link index -/
  index : Nat
  /-- a list of blocks, each with the position of the next in its link 0; otherwise one block at most -/
  chain : Bool
  /-- the class of the blocks -/
  kind : Nat
  opt : UpdOpt
deriving DecidableEq, Repr

mutual
/-- A block and the blocks below it: those written before the block itself and those written after it. -/
inductive Node where
  | mk (id : Nat) (pre post : Slots)
inductive Slots where
  | nil
  | cons (s : Slot) (kids : Kids) (rest : Slots)
inductive Kids where
  | nil
  | cons (n : Node) (rest : Kids)
end

def Node.id : Node → Nat
  | .mk id _ _ => id

def Kids.isNil : Kids → Bool
  | .nil => true
  | .cons _ _ => false

/-- `need_update` of `WriteLink4List` (mdfblock.h lines 459-469), the test of `WriteBlock4` (line 441), and of `WriteMdComment`,
`WriteTx4` (mdfblock.cpp lines 517 and 541); `tid` and `ti` tell the link that leads to the block. -/
def FileSt.needUpdate (S : FileSt) (opt : UpdOpt) (tid ti id : Nat) (last : Bool) : Bool :=
  match opt with
  | .never => S.pos id = 0
  | .all => true
  | .onlyLast => S.pos id = 0 || last
  | .ifNoLink => S.link tid ti = 0

mutual
/-- `Write` of a block class. -/
def writeNode (I : Nat → Info) (S : FileSt) : Node → FileSt
  | .mk id pre post => writeSlots I ((writeSlots I (S.start I id) id pre).writeSelf I id) id post

/-- The calls of `WriteLink4List`, `WriteBlock4`, `WriteMdComment` and `WriteTx4` in `Write`. -/
def writeSlots (I : Nat → Info) (S : FileSt) (id : Nat) : Slots → FileSt
  | .nil => S
  | .cons s kids rest => writeSlots I (writeKids I S s.opt id s.index kids) id rest

/-- The loop of `WriteLink4List` (mdfblock.h lines 449-478).  The position of each block goes to link `ti` of block `tid`: the
link of the parent for the first, link 0 of the previous block for the others.  A single block (`WriteBlock4` and so on) is a
list with one block. -/
def writeKids (I : Nat → Info) (S : FileSt) (opt : UpdOpt) (tid ti : Nat) : Kids → FileSt
  | .nil => S
  | .cons n rest =>
    if S.needUpdate opt tid ti n.id rest.isNil then
      writeKids I ((writeNode I S n).updateLink tid ti ((writeNode I S n).pos n.id)) opt n.id 0 rest
    else writeKids I S opt n.id 0 rest
end

/-! ## Reading -/

/-- What reading gives: block type, values, and for each link that leads to blocks the blocks. -/
inductive RTree where
  | mk (ty body : Bytes) (kids : List (List RTree))

def FinRes.bind {α β : Type} : FinRes α → (α → FinRes β) → FinRes β
  | .throw, _ => .throw
  | .hang, _ => .hang
  | .ok a, f => f a

def FinRes.ofOption {α : Type} : Option α → FinRes α
  | none => .throw
  | some a => .ok a

/-- The loop over the links of `ReadHeader4` (mdfblock.cpp lines 447-452). -/
def readLinks : (n : Nat) → Bytes → Option (List Nat × Bytes)
  | 0, file => some ([], file)
  | n + 1, file => (readNumber 8 file).bind fun r => (readLinks n r.2).map fun q => (r.1 :: q.1, q.2)

/-- A block header. -/
structure Hdr where
  ty : Bytes
  len : Nat
  links : List Nat
deriving DecidableEq, Repr

/-- `MdfBlock::ReadHeader4` (mdfblock.cpp lines 437-454) at a position of the file: the header and what follows; `none` is the
exception. -/
def readHeader (data : Bytes) (pos : Nat) : Option (Hdr × Bytes) :=
  let t := readStr 4 (data.drop pos)
  (readNumber 4 t.2).bind fun r =>
  (readNumber 8 r.2).bind fun len =>
  (readNumber 8 len.2).bind fun cnt =>
  (readLinks cnt.1 cnt.2).map fun ls => (⟨t.1, len.1, ls.1⟩, ls.2)

/-- The classes: for each the links that lead to other blocks. -/
abbrev Schema := Nat → List Slot

/-- `link > 0` for an `int64_t` link. -/
def validLink (l : Nat) : Bool := 0 < l && l < 2 ^ 63

/-- `MdfBlock::ReadLink4List` (mdfblock.h lines 424-436).  `readOne` reads a block and returns its link 0. -/
def readChain (readOne : Nat → FinRes (RTree × Nat)) : (fuel : Nat) → (link : Nat) → FinRes (List RTree)
  | 0, link => if validLink link then .hang else .ok []
  | fuel + 1, link =>
    if validLink link then (readOne link).bind fun r => (readChain readOne fuel r.2).map (r.1 :: ·) else .ok []

/-- `ReadMdComment`, `ReadTx4` and so on (mdfblock.cpp lines 508-515 and 561-570): one block if the link is set. -/
def readSingle (readOne : Nat → FinRes (RTree × Nat)) (link : Nat) : FinRes (List RTree) :=
  if validLink link then (readOne link).map fun r => [r.1] else .ok []

def readAll (g : Slot → FinRes (List RTree)) : List Slot → FinRes (List (List RTree))
  | [] => .ok []
  | s :: ss => (g s).bind fun k => (readAll g ss).map (k :: ·)

/-- How a class reads its values. -/
inductive BodyMode where
  | /-- `ReadNumber` and so on -/ values
  | /-- `ReadStr` -/ text
  | /-- not at all: sample data, see `Dt4Block::Read` (dt4block.cpp lines 27-31) -/ data
deriving DecidableEq, Repr

/-- The kinds are numbered in Model/BlockKinds: 9 is a text (`Tx4Block::Read`, tx4block.cpp lines 77-81, `Md4Block` is the same class),
10 a block of sample data. -/
def bodyMode (kind : Nat) : BodyMode := if kind = 9 then .text else if kind = 10 then .data else .values

/-- The values of a block: `size` bytes at the start of `rest`.  Where the file ends `ReadNumber` throws, but `ReadStr` goes on: `sbumpc`
returns EOF, which becomes the character 0xFF (mdfblock.cpp lines 230-249). -/
def readBody (mode : BodyMode) (size : Nat) (rest : Bytes) : FinRes Bytes :=
  match mode with
  | .values => if rest.length < size then .throw else .ok (rest.take size)
  | .text => .ok (rest.take size ++ List.replicate (size - rest.length) 0xFF#8)
  | .data => .ok (rest.take size)

/-- `Read` of a block class: the header, the values and the blocks below.  The values of a class have a known format; here they are
the bytes of the block after the links.  Reading does not change the file, so the order in which the lists are read does not
matter (simplified: the values are read before the blocks below, `Read` of some classes does it the other way round; this only
decides which of several exceptions is thrown).  `fuel` bounds the depth and the length of lists: `hang` if it runs out. -/
def readNode (Sc : Schema) (data : Bytes) : (fuel : Nat) → (kind pos : Nat) → FinRes (RTree × Nat)
  | 0, _, _ => .hang
  | fuel + 1, kind, pos =>
    (FinRes.ofOption (readHeader data pos)).bind fun h =>
    (readBody (bodyMode kind) (h.1.len - (24 + 8 * h.1.links.length)) h.2).bind fun body =>
      (readAll (fun s =>
        if s.chain then readChain (readNode Sc data fuel s.kind) fuel (h.1.links.getD s.index 0)
        else readSingle (readNode Sc data fuel s.kind) (h.1.links.getD s.index 0)) (Sc kind)).map
        fun kids => (.mk h.1.ty body kids, h.1.links.getD 0 0)

end Mdf
