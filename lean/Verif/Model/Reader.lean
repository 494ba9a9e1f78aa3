import Verif.Model.Block

/-!
# Calls of a reader: reading the description of a file in steps

Models `ReadHeader`, `ReadMeasurementInfo`, `ReadEverythingButData` of `Mdf4File` (/repo/mdflib/src/mdf4file.cpp), `Mdf3File`
(/repo/mdflib/src/mdf3file.cpp), `Hd4Block` (hd4block.cpp), `Hd3Block` (hd3block.cpp) and `MdfReader` (mdfreader.cpp), with the
block objects they make and destroy, and the opening and closing of the file by the functions of `MdfReader`.

The reading of one block with its texts and sub blocks (`Read` of a block class) is a parameter; it may depend on the attachments that
are already read, since channels and events refer to them.  What is derived from the tree after reading (record ids of VLSD
channels, references of events and hierarchies, hd4block.cpp lines 223-299, mdf4file.cpp lines 59-71) is not part of the state.
-/

namespace Mdf

/-- The result of a reading function: it came to its end, it threw an exception, or it never ends. -/
inductive ReadOut where
  | ok | thrown | hang
deriving DecidableEq, Repr

/-- What reading a block gives: its links and everything else. -/
structure RBlk where
  links : List Nat
  val : Bytes
deriving DecidableEq, Repr

/-- `MdfBlock::Link` (mdfblock.h lines 128-130). -/
def RBlk.link (b : RBlk) (i : Nat) : Nat := b.links.getD i 0

/-- The block classes that are read as lists. -/
inductive BKind where
  | fh | dg | cg | cn | sr | at | ch | ev
deriving DecidableEq, Repr

/-- A block object: `id` stands for its address, no two objects ever made have the same. -/
structure Obj where
  id : Nat
  blk : RBlk
deriving DecidableEq, Repr

/-- A channel group object with its channels and sample reductions (`cn_list_`, `sr_list_`). -/
structure CgObj where
  self : Obj
  cn : List Obj
  sr : List Obj
deriving DecidableEq, Repr

/-- A data group object with its channel groups (`cg_list_`). -/
structure DgObj where
  self : Obj
  cg : List CgObj
deriving DecidableEq, Repr

/-- The header object and the number of objects made so far.  `read` tells that `file_position_` is set. -/
structure HdObj where
  read : Bool
  links : List Nat
  val : Bytes
  fh : List Obj
  dg : List DgObj
  att : List Obj
  ch : List Obj
  ev : List Obj
  made : Nat
deriving DecidableEq, Repr

/-- A reader that has read nothing but the ID block. -/
def HdObj.fresh : HdObj := ⟨false, [], [], [], [], [], [], [], 0⟩

def HdObj.link (h : HdObj) (i : Nat) : Nat := h.links.getD i 0

/-- The file as the reader sees it.  `hdLinks`: the links of the header block, and whether they could all be read; `hdVal`: the values
(`none`: exception); `hdMd`: whether the comment of the header can be read; `blk`: a block of a class at a position, given the
attachments read before (`none`: exception).  `fuel` bounds the lists; a list that does not end before has a loop. -/
structure Img where
  hdLinks : List Nat × Bool
  hdVal : Option Bytes
  hdMd : Bool
  blk : BKind → List RBlk → Nat → Option RBlk
  fuel : Nat

/-- The loop of `ReadLink4List` (mdfblock.h lines 428-435), also hd3block.cpp lines 224-231, dg3block.cpp lines 78-85, cg3block.cpp
lines 188-195. The link to the next block is link 0.  A block that cannot be read is not added. -/
def walk (rd : Nat → Option RBlk) : (fuel link made : Nat) → List Obj × Nat × ReadOut
  | 0, link, made => ([], made, if validLink link then .hang else .ok)
  | fuel + 1, link, made =>
    if validLink link then
      match rd link with
      | none => ([], made + 1, .thrown)
      | some b =>
        let r := walk rd fuel (b.link 0) (made + 1)
        (⟨made, b⟩ :: r.1, r.2)
    else ([], made, .ok)

/-- `ReadLink4List` (mdfblock.h lines 424-436). -/
def readObjList (rd : Nat → Option RBlk) (fuel : Nat) (old : List Obj) (link made : Nat) : List Obj × Nat × ReadOut :=
  if old = [] then walk rd fuel link made else (old, made, .ok)

/-- A step of a reading function. -/
abbrev ReadM := HdObj → HdObj × ReadOut

/-- Statements in sequence: an exception or an endless loop ends the function. -/
def ReadM.seq (a b : ReadM) : ReadM := fun h =>
  match a h with
  | (h', .ok) => b h'
  | r => r

/-- The loop over objects: `f` on one object after the other, up to the first that throws. -/
def eachObj {α : Type} (f : α → Nat → α × Nat × ReadOut) : List α → Nat → List α × Nat × ReadOut
  | [], made => ([], made, .ok)
  | x :: xs, made =>
    match f x made with
    | (x', made', .ok) => let r := eachObj f xs made'; (x' :: r.1, r.2)
    | (x', made', o) => (x' :: xs, made', o)

namespace Img

/-- `Hd4Block::Read` (hd4block.cpp lines 177-194), in `Mdf4File::ReadHeader` (mdf4file.cpp lines 38-42) only if the position is not set.
`ReadHeader4` sets the position before anything is read (mdfblock.cpp line 438). -/
def header4 (d : Img) : ReadM := fun h =>
  if h.read then (h, .ok) else
  let h := { h with read := true, links := d.hdLinks.1 }
  if d.hdLinks.2 then
    match d.hdVal with
    | none => (h, .thrown)
    | some v =>
      let h := { h with val := v }
      let r := readObjList (d.blk .fh []) d.fuel h.fh (h.link 1) h.made
      ({ h with fh := r.1, made := r.2.1 }, match r.2.2 with
        | .ok => if d.hdMd then .ok else .thrown
        | o => o)
  else (h, .thrown)

/-- `ReadLink4List(buffer, dg_list_, kIndexDg)` (hd4block.cpp line 200). -/
def dgList4 (d : Img) : ReadM := fun h =>
  if h.dg = [] then
    let r := walk (d.blk .dg []) d.fuel (h.link 0) h.made
    ({ h with dg := r.1.map (⟨·, []⟩), made := r.2.1 }, r.2.2)
  else (h, .ok)

/-- `Dg4Block::ReadCgList` (dg4block.cpp lines 200-202). -/
def cgList4 (d : Img) (g : DgObj) (made : Nat) : DgObj × Nat × ReadOut :=
  if g.cg = [] then
    let r := walk (d.blk .cg []) d.fuel (g.self.blk.link 1) made
    ({ g with cg := r.1.map (⟨·, [], []⟩) }, r.2)
  else (g, made, .ok)

/-- The loop over the data groups (hd4block.cpp lines 201-203). -/
def cgLists4 (d : Img) : ReadM := fun h =>
  let r := eachObj d.cgList4 h.dg h.made
  ({ h with dg := r.1, made := r.2.1 }, r.2.2)

/-- `ReadLink4List(buffer, at_list_, kIndexAt)` (hd4block.cpp line 207). -/
def atList4 (d : Img) : ReadM := fun h =>
  let r := readObjList (d.blk .at []) d.fuel h.att (h.link 3) h.made
  ({ h with att := r.1, made := r.2.1 }, r.2.2)

/-- `Hd4Block::ReadMeasurementInfo` (hd4block.cpp lines 196-208). -/
def info4 (d : Img) : ReadM := (d.dgList4.seq d.cgLists4).seq d.atList4

/-- `Cg4Block::ReadCnList` and `ReadSrList` (cg4block.cpp lines 266-272). -/
def cnList4 (d : Img) (att : List RBlk) (g : CgObj) (made : Nat) : CgObj × Nat × ReadOut :=
  let r := readObjList (d.blk .cn att) d.fuel g.cn (g.self.blk.link 1) made
  match r.2.2 with
  | .ok =>
    let q := readObjList (d.blk .sr att) d.fuel g.sr (g.self.blk.link 4) r.2.1
    ({ g with cn := r.1, sr := q.1 }, q.2)
  | o => ({ g with cn := r.1 }, r.2.1, o)

/-- The inner loop over the channel groups (hd4block.cpp lines 216-221). -/
def cnLists4 (d : Img) (att : List RBlk) (g : DgObj) (made : Nat) : DgObj × Nat × ReadOut :=
  let r := eachObj (d.cnList4 att) g.cg made
  ({ g with cg := r.1 }, r.2)

/-- The loops of `ReadEverythingButData` (hd4block.cpp lines 212-221). -/
def channels4 (d : Img) : ReadM := fun h =>
  let r := eachObj (d.cnLists4 (h.att.map (·.blk))) h.dg h.made
  ({ h with dg := r.1, made := r.2.1 }, r.2.2)

/-- `ReadLink4List(buffer, ch_list_, kIndexCh)` (hd4block.cpp line 290). -/
def chList4 (d : Img) : ReadM := fun h =>
  let r := readObjList (d.blk .ch (h.att.map (·.blk))) d.fuel h.ch (h.link 2) h.made
  ({ h with ch := r.1, made := r.2.1 }, r.2.2)

/-- `ReadLink4List(buffer, ev_list_, kIndexEv)` (hd4block.cpp line 291). -/
def evList4 (d : Img) : ReadM := fun h =>
  let r := readObjList (d.blk .ev (h.att.map (·.blk))) d.fuel h.ev (h.link 4) h.made
  ({ h with ev := r.1, made := r.2.1 }, r.2.2)

/-- `Hd4Block::ReadEverythingButData` (hd4block.cpp lines 210-300). -/
def rest4 (d : Img) : ReadM := (d.channels4.seq d.chList4).seq d.evList4

/-! ### MDF 3 -/

/-- `Hd3Block::Read` (hd3block.cpp lines 99-150), in `Mdf3File::ReadHeader` (mdf3file.cpp lines 53-57) only if the position is not set. -/
def header3 (d : Img) : ReadM := fun h =>
  if h.read then (h, .ok) else
  let h := { h with read := true, links := d.hdLinks.1 }
  if d.hdLinks.2 then
    match d.hdVal with
    | none => (h, .thrown)
    | some v => ({ h with val := v }, if d.hdMd then .ok else .thrown)
  else (h, .thrown)

/-- The loop of `Hd3Block::ReadMeasurementInfo` (hd3block.cpp lines 224-231) with that of `Dg3Block::Read` (dg3block.cpp lines 77-85):
the channel groups are read with their data group. -/
def walkDg3 (d : Img) : (fuel link made : Nat) → List DgObj × Nat × ReadOut
  | 0, link, made => ([], made, if validLink link then .hang else .ok)
  | fuel + 1, link, made =>
    if validLink link then
      match d.blk .dg [] link with
      | none => ([], made + 1, .thrown)
      | some b =>
        let r := walk (d.blk .cg []) d.fuel (b.link 1) (made + 1)
        match r.2.2 with
        | .ok =>
          let q := walkDg3 d fuel (b.link 0) r.2.1
          (⟨⟨made, b⟩, r.1.map (⟨·, [], []⟩)⟩ :: q.1, q.2)
        | o => ([], r.2.1, o)
    else ([], made, .ok)

/-- `Hd3Block::ReadMeasurementInfo` (hd3block.cpp lines 222-232): the data groups read before are destroyed. -/
def info3 (d : Img) : ReadM := fun h =>
  let r := d.walkDg3 d.fuel (h.link 0) h.made
  ({ h with dg := r.1, made := r.2.1 }, r.2.2)

/-- `Cg3Block::ReadCnList` and `ReadSrList` (cg3block.cpp lines 186-211). -/
def cnList3 (d : Img) (g : CgObj) (made : Nat) : CgObj × Nat × ReadOut :=
  let r := readObjList (d.blk .cn []) d.fuel g.cn (g.self.blk.link 1) made
  match r.2.2 with
  | .ok =>
    let q := readObjList (d.blk .sr []) d.fuel g.sr (g.self.blk.link 3) r.2.1
    ({ g with cn := r.1, sr := q.1 }, q.2)
  | o => ({ g with cn := r.1 }, r.2.1, o)

def cnLists3 (d : Img) (g : DgObj) (made : Nat) : DgObj × Nat × ReadOut :=
  let r := eachObj d.cnList3 g.cg made
  ({ g with cg := r.1 }, r.2)

/-- `Hd3Block::ReadEverythingButData` (hd3block.cpp lines 234-245). -/
def rest3 (d : Img) : ReadM := fun h =>
  let r := eachObj d.cnLists3 h.dg h.made
  ({ h with dg := r.1, made := r.2.1 }, r.2.2)

end Img

/-- The calls of `MdfReader` that read the description. -/
inductive RCall where
  | header | info | everything
deriving DecidableEq, Repr

/-- `Mdf4File::ReadHeader`, `ReadMeasurementInfo`, `ReadEverythingButData` (mdf4file.cpp lines 25-72). -/
def RCall.run4 (d : Img) : RCall → ReadM
  | .header => d.header4
  | .info => d.header4.seq d.info4
  | .everything => (d.header4.seq d.info4).seq d.rest4

/-- `Mdf3File::ReadHeader`, `ReadMeasurementInfo`, `ReadEverythingButData` (mdf3file.cpp lines 43-72). -/
def RCall.run3 (d : Img) : RCall → ReadM
  | .header => d.header3
  | .info => d.header3.seq d.info3
  | .everything => (d.header3.seq d.info3).seq d.rest3

/-- Calls one after the other: what the last state is and what each call returned (mdfreader.cpp lines 401-474: true unless an
exception was caught).  `none` if a call does not end. -/
def runCalls (run : RCall → ReadM) : List RCall → HdObj → Option (HdObj × List Bool)
  | [], h => some (h, [])
  | c :: cs, h =>
    match run c h with
    | (_, .hang) => none
    | (h', o) => (runCalls run cs h').map fun r => (r.1, decide (o = .ok) :: r.2)

/-- The addresses of the objects an application can hold: data groups, channel groups, channels, sample reductions, attachments,
hierarchies, events, histories. -/
def HdObj.live (h : HdObj) : List Nat :=
  h.fh.map (·.id) ++ h.att.map (·.id) ++ h.ch.map (·.id) ++ h.ev.map (·.id) ++
    h.dg.flatMap fun g => g.self.id :: g.cg.flatMap fun c => c.self.id :: (c.cn.map (·.id) ++ c.sr.map (·.id))

/-! ### Opening and closing -/

/-- The stream of a reader: the application's own stream (`filename_` is empty), or the file, open or closed. -/
inductive RStream where
  | own
  | file (isOpen : Bool)
deriving DecidableEq, Repr

/-- `MdfReader::IsOpen` (mdfreader.cpp lines 361-374).  An application's own stream is assumed not to be a closed `std::filebuf`. -/
def RStream.isOpen : RStream → Bool
  | .own => true
  | .file b => b

/-- `MdfReader::Open` (mdfreader.cpp lines 348-359) and `OpenMdfFile` (mdfblock.cpp lines 316-355): an open file is closed and opened
again; `can` tells whether opening succeeds. -/
def RStream.opened (can : Bool) : RStream → RStream × Bool
  | .own => (.own, true)
  | .file _ => (.file can, can)

/-- `MdfReader::Close` (mdfreader.cpp lines 376-399). -/
def RStream.closed : RStream → RStream
  | .own => .own
  | .file _ => .file false

/-- `ReadHeader`, `ReadMeasurementInfo`, `ReadEverythingButData`, `ExportAttachmentData`, `ReadData`, `ReadPartialData`, `ReadSrData`,
`ReadVlsdData` (mdfreader.cpp lines 401-565, 594-664, 690-732).  `can`: opening succeeds; `good`: the reading throws nothing. -/
def RStream.call (can good : Bool) (s : RStream) : RStream × Bool :=
  let r := if s.isOpen then (s, false) else s.opened can
  if r.1.isOpen then (if r.2 then r.1.closed else r.1, good) else (r.1, false)

/-- `MdfReader::ReadInDataBuffer` (mdfreader.cpp lines 567-592).  A file that could not be opened gives an exception when it is read. -/
def RStream.inBuffer (can good : Bool) (pos : Int) (nof : Nat) (s : RStream) : RStream × Bool :=
  if pos ≤ 0 then (s, false)
  else if nof = 0 then (s, true)
  else
    let r := s.opened can
    if r.1.isOpen && good then (if r.2 then r.1 else r.1.closed, true) else (r.1, false)

end Mdf
