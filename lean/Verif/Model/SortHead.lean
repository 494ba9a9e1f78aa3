import Verif.Model.HdComment
import Verif.Model.CommentKinds
import Verif.Model.Attach
import Verif.Model.StartTime

/-!
# The header of a sorted file

Models /repo/mdflib/src/sortingconfigadapter.cpp `CreateConfig`, /repo/mdflib/src/iheader.cpp `CopyFrom`,
/repo/mdflib/src/at4block.cpp `CopyFrom`, /repo/mdflib/src/mdfreader.cpp `ReadInDataBuffer` and /repo/mdflib/src/ifilehistory.cpp
`CopyFrom`.  The sorted file is always an MDF 4 file.

Simplifications: the reader has opened the source file; there is memory for the data of an attachment.  A `double` is its 64 bits.
-/

namespace Mdf

/-! ## Header -/

/-- What the functions of `IHeader` return for the header of the source. -/
structure HeadSrc where
  author : Bytes
  department : Bytes
  project : Bytes
  subject : Bytes
  description : Bytes
  /-- `MetaData()->XmlSnippet()`, `none` if `MetaData()` is the null pointer -/
  snippet : Option Bytes
  start : BitVec 64
  angle : Option (BitVec 64)
  distance : Option (BitVec 64)
deriving DecidableEq, Repr

/-- An `Hd4Block`: comment, start time, flags and the values (hd4block.h). -/
structure Head4 where
  comment : BlkComment := .none
  ts : Ts4 := ⟨0, 0, 0, 0⟩
  flags : Byte := 0
  angle : BitVec 64 := 0
  distance : BitVec 64 := 0
deriving DecidableEq

/-- `Hd4Block::StartAngle()` (hd4block.cpp lines 491-496); `kStartAngleValid` is 1. -/
def Head4.startAngle (h : Head4) : Option (BitVec 64) := if h.flags &&& 0x01#8 ≠ 0#8 then some h.angle else none

/-- `Hd4Block::StartDistance()` (hd4block.cpp lines 503-508); `kStartDistanceValid` is 2. -/
def Head4.startDistance (h : Head4) : Option (BitVec 64) := if h.flags &&& 0x02#8 ≠ 0#8 then some h.distance else none

/-- `Hd4Block::StartAngle(double)`.  hd4block.cpp lines 486-489. -/
def Head4.setAngle (h : Head4) (x : BitVec 64) : Head4 := { h with flags := h.flags ||| 0x01#8, angle := x }

/-- `Hd4Block::StartDistance(double)`.  hd4block.cpp lines 498-501. -/
def Head4.setDistance (h : Head4) (x : BitVec 64) : Head4 := { h with flags := h.flags ||| 0x02#8, distance := x }

/-- The text of the comment block: `ReadMdComment` makes an `Md4Block` of both kinds of blocks (mdfblock.cpp lines 507-514), whose
`XmlSnippet()` is the text (md4block.cpp line 480). -/
def BlkComment.snippet : BlkComment → Option Bytes
  | .none => Option.none
  | .tx s => some s
  | .md s => some s

/-- The header of an MDF 4 file as a source. -/
def Head4.src (h : Head4) : HeadSrc where
  author := (getHd .author h.comment).getD []
  department := (getHd .department h.comment).getD []
  project := (getHd .project h.comment).getD []
  subject := (getHd .subject h.comment).getD []
  description := getDescription h.comment
  snippet := h.comment.snippet
  start := h.ts.time
  angle := h.startAngle
  distance := h.startDistance

/-- The texts of an `Hd3Block` and its start time.  hd3block.cpp. -/
structure Head3 where
  author : Bytes
  department : Bytes
  project : Bytes
  subject : Bytes
  description : Bytes
  localNs : BitVec 64
deriving DecidableEq, Repr

/-- The header of an MDF 3 file as a source: `Hd3Block` does not override `MetaData()`, `StartAngle()` and `StartDistance()`, which return
nothing (iheader.cpp lines 24-34). -/
def Head3.src (h : Head3) : HeadSrc where
  author := h.author
  department := h.department
  project := h.project
  subject := h.subject
  description := h.description
  snippet := none
  start := h.localNs
  angle := none
  distance := none

/-- A setter of the header that is called for a text that is not empty.  If the comment has a `<` and is no XML text the result is not
modelled and taken to be the comment as it is; it is replaced later in any case. -/
def setIf (set : Bytes → BlkComment → Option BlkComment) (s : Bytes) (c : BlkComment) : BlkComment :=
  if s = [] then c else (set s c).getD c

/-- `GetHdComment` (iheader.cpp lines 61-66) into a new comment. -/
def HeadSrc.hdComment (s : HeadSrc) : HdCom :=
  match s.snippet with
  | none => {}
  | some x => ({} : HdCom).fromXml x

/-- `SetHdComment` (iheader.cpp lines 54-59): an MD block is made if there is none, and its whole text is replaced. -/
def Head4.setHdComment (h : Head4) (c : HdCom) : Head4 := { h with comment := .md c.toXml }

/-- `IHeader::CopyFrom` (iheader.cpp lines 68-98) of an `Hd4Block`. -/
def Head4.copyFrom (h : Head4) (s : HeadSrc) : Head4 :=
  let c := setIf (setHd .author) s.author h.comment
  let c := setIf (setHd .department) s.department c
  let c := setIf (setHd .project) s.project c
  let c := setIf (setHd .subject) s.subject c
  let c := setIf setDescription s.description c
  let h := { h with comment := c }.setHdComment s.hdComment
  let h := { h with ts := Ts4.setNs s.start }
  let h := match s.angle with
    | none => h
    | some x => h.setAngle x
  match s.distance with
  | none => h
  | some x => h.setDistance x

/-! ## Attachments -/

/-- An attachment of the source as it was read (at4block.cpp lines 146-166): the data is still in the file. -/
structure AtSrc where
  name : Bytes
  type : Bytes
  comment : BlkComment
  flags : BitVec 16
  creator : BitVec 16
  md5 : Bytes
  originalSize : BitVec 64
  nofBytes : Nat
  dataPos : Nat
deriving DecidableEq

/-- `ReadInDataBuffer` (mdfreader.cpp lines 567-592): the buffer has the wanted size, and what the file does not have stays zero; that an
exception was thrown is only logged. -/
def readInBuffer (file : Bytes) (pos n : Nat) : Bytes := (file.drop pos).take n ++ putZeros (n - (file.length - pos))

/-- A new attachment with the texts that go with it. -/
structure AtCopy where
  obj : AtObj
  type : Bytes
  comment : BlkComment
deriving DecidableEq

/-- `GetAtComment` into a new comment. -/
def AtSrc.atComment (s : AtSrc) : MdCom :=
  match s.comment.snippet with
  | none => {}
  | some x => ({} : MdCom).fromXml x

/-- "AT" -/
def bAT : Bytes := [0x41#8, 0x54#8]

/-- `At4Block::CopyFrom` of a new block (at4block.cpp lines 329-350). -/
def AtSrc.copy (s : AtSrc) (file : Bytes) : AtCopy where
  obj :=
    { pos := 0
      next := none
      name := s.name
      vals :=
        { flags := s.flags
          creator := s.creator
          md5 := s.md5
          originalSize := s.originalSize
          data := if 0 < s.dataPos ∧ 0 < s.nofBytes then readInBuffer file s.dataPos s.nofBytes else [] } }
  type := s.type
  comment := .md (s.atComment.toXml bAT)

/-! ## File histories -/

/-- An `Fh4Block`. -/
structure Hist where
  ts : Ts4
  comment : BlkComment
deriving DecidableEq

/-- `GetFhComment` into a new comment. -/
def Hist.fhComment (s : Hist) : FhCom :=
  match s.comment.snippet with
  | none => {}
  | some x => ({} : FhCom).fromXml x

/-- `IFileHistory::CopyFrom` (ifilehistory.cpp lines 24-29) of a new block. -/
def Hist.copy (s : Hist) : Hist := ⟨Ts4.setNs s.ts.time, .md s.fhComment.toXml⟩

/-! ## The whole -/

/-- The header of the source with what belongs to it; of the events and the hierarchies of channels only the numbers are here. -/
structure SortSrc where
  head : HeadSrc
  attachments : List AtSrc
  histories : List Hist
  events : Nat
  hierarchies : Nat

/-- The header of the new file. -/
structure SortDst where
  head : Head4 := {}
  attachments : List AtCopy := []
  histories : List Hist := []
  events : Nat := 0
  hierarchies : Nat := 0

/-- `SortingConfigAdapter::CreateConfig` (sortingconfigadapter.cpp lines 18-45): events and hierarchies of channels are left out.
`file` is the source file. -/
def SortDst.createConfig (d : SortDst) (s : SortSrc) (file : Bytes) : SortDst :=
  { d with
    head := d.head.copyFrom s.head
    attachments := s.attachments.foldl (fun l a => l ++ [a.copy file]) d.attachments
    histories := s.histories.foldl (fun l a => l ++ [a.copy]) d.histories }

end Mdf
