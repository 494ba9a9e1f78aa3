import Verif.Model.CommentApi

/-!
# The header comment

`/repo/mdflib/src/hdcomment.cpp`: a comment (`Model/Comment.lean`) with texts that are properties of fixed names, a time source and
constants.  The unit specification (`UNIT-SPEC`) is not modelled; it is taken to be empty.
-/

namespace Mdf

/-- The texts of a header comment. -/
inductive HdField where
  | author | department | project | subject | measurementUuid | recorderUuid
deriving DecidableEq, Repr

/-- "author" -/
def hcAuthor : Bytes := [0x61#8, 0x75#8, 0x74#8, 0x68#8, 0x6F#8, 0x72#8]
/-- "department" -/
def hcDepartment : Bytes := [0x64#8, 0x65#8, 0x70#8, 0x61#8, 0x72#8, 0x74#8, 0x6D#8, 0x65#8, 0x6E#8, 0x74#8]
/-- "project" -/
def hcProject : Bytes := [0x70#8, 0x72#8, 0x6F#8, 0x6A#8, 0x65#8, 0x63#8, 0x74#8]
/-- "subject" -/
def hcSubject : Bytes := [0x73#8, 0x75#8, 0x62#8, 0x6A#8, 0x65#8, 0x63#8, 0x74#8]
/-- "Measurement.UUID" -/
def hcMeasurement : Bytes :=
  [0x4D#8, 0x65#8, 0x61#8, 0x73#8, 0x75#8, 0x72#8, 0x65#8, 0x6D#8, 0x65#8, 0x6E#8, 0x74#8, 0x2E#8, 0x55#8, 0x55#8, 0x49#8, 0x44#8]
/-- "Recorder.UUID" -/
def hcRecorder : Bytes := [0x52#8, 0x65#8, 0x63#8, 0x6F#8, 0x72#8, 0x64#8, 0x65#8, 0x72#8, 0x2E#8, 0x55#8, 0x55#8, 0x49#8, 0x44#8]
/-- "Recorder.FileIndex" -/
def hcFileIndex : Bytes :=
  [0x52#8, 0x65#8, 0x63#8, 0x6F#8, 0x72#8, 0x64#8, 0x65#8, 0x72#8, 0x2E#8, 0x46#8, 0x69#8, 0x6C#8, 0x65#8, 0x49#8, 0x6E#8, 0x64#8, 0x65#8, 0x78#8]

/-- The names of the properties.  hdcomment.cpp lines 16-22. -/
def HdField.key : HdField → Bytes
  | .author => hcAuthor
  | .department => hcDepartment
  | .project => hcProject
  | .subject => hcSubject
  | .measurementUuid => hcMeasurement
  | .recorderUuid => hcRecorder

/-- `std::to_string(int64_t)`. -/
def intText (v : Int) : Bytes := if v < 0 then 0x2D#8 :: decText v.natAbs else decText v.natAbs

/-- "HD" -/
def hcHD : Bytes := [0x48#8, 0x44#8]
/-- "time_source" -/
def tTimeSource : Bytes := [0x74#8, 0x69#8, 0x6D#8, 0x65#8, 0x5F#8, 0x73#8, 0x6F#8, 0x75#8, 0x72#8, 0x63#8, 0x65#8]
/-- "constants" -/
def tConstants : Bytes := [0x63#8, 0x6F#8, 0x6E#8, 0x73#8, 0x74#8, 0x61#8, 0x6E#8, 0x74#8, 0x73#8]
/-- "const" -/
def tConst : Bytes := [0x63#8, 0x6F#8, 0x6E#8, 0x73#8, 0x74#8]

/-- `HdComment`.  `/repo/include/mdf/hdcomment.h` lines 56-60. -/
structure HdCom where
  com : MdCom := {}
  /-- `time_source_` -/
  timeSource : MdStr := {}
  /-- `constant_list_`, a map by the text of the name -/
  constants : List (MdStr × Bytes) := []
deriving Repr

/-- `AddConstant`.  hdcomment.cpp lines 113-127. -/
def addConstant (c : MdStr) (e : Bytes) (l : List (MdStr × Bytes)) : List (MdStr × Bytes) :=
  if c.text = [] then l else mapInsert (fun x : MdStr × Bytes => x.1.text) (c, e) l

/-- The calls by which a header comment is made. -/
inductive HcOp where
  | text (f : HdField) (s : Bytes)
  | fileIndex (v : BitVec 64)
  | timeSource (s : MdStr)
  | constant (c : MdStr) (e : Bytes)
  | comment (s : MdStr)
deriving DecidableEq, Repr

/-- `Author(..)` and so on, `RecorderFileIndex(..)`, `TimeSource(..)`, `AddConstant`, `Comment(..)`.  hdcomment.cpp lines 35-127,
mdcomment.cpp lines 24-26. -/
def HcOp.apply (h : HdCom) : HcOp → HdCom
  | .text f s => { h with com := { h.com with common := h.com.common.addProp { name := f.key, value := s } } }
  | .fileIndex v =>
    { h with com := { h.com with common := h.com.common.addProp { name := hcFileIndex, value := intText v.toInt, type := .integer } } }
  | .timeSource s => { h with timeSource := s }
  | .constant c e => { h with constants := addConstant c e h.constants }
  | .comment s => { h with com := { h.com with text := s } }

/-- `Author()` and so on.  hdcomment.cpp lines 39-81. -/
def HdCom.hdText (h : HdCom) (f : HdField) : Bytes := h.com.common.getText f.key

/-- `RecorderFileIndex()`.  hdcomment.cpp lines 91-103. -/
def HdCom.fileIndex (h : HdCom) : BitVec 64 :=
  if h.com.common.getText hcFileIndex = [] then -1 else BitVec.ofInt 64 ((stollText (h.com.common.getText hcFileIndex)).getD (-1))

/-- A constant in the XML text.  hdcomment.cpp lines 158-170. -/
def constNode (c : MdStr × Bytes) : XmlTree := .mk tConst (c.1.std.write [(kName, c.1.text)]) c.2 []

/-- The nodes of `HdComment::ToXml`.  hdcomment.cpp lines 149-176. -/
def HdCom.node (h : HdCom) : XmlTree :=
  .mk (trim (hcHD ++ tComment)) [] []
    (h.com.text.nodes tTX ++ h.timeSource.nodes tTimeSource ++
     (if h.constants = [] then [] else [.mk tConstants [] [] (h.constants.map constNode)]) ++
     if h.com.common.isActive then [.mk tCommon [] [] h.com.common.inner] else [])

/-- `HdComment::ToXml`.  hdcomment.cpp lines 145-181. -/
def HdCom.toXml (h : HdCom) : Bytes := h.node.text

/-- One constant that is read.  hdcomment.cpp lines 219-229. -/
def readConst (l : List (MdStr × Bytes)) (t : XmlTree) : List (MdStr × Bytes) :=
  if t.isTagName tConst then addConstant { MdStr.read {} t with text := trim (attrText t.attrs kName) } (trim t.value) l else l

/-- One child of the root node.  hdcomment.cpp lines 210-233. -/
def HdCom.readKid (h : HdCom) (t : XmlTree) : HdCom :=
  if t.isTagName tTimeSource then { h with timeSource := h.timeSource.read t }
  else if t.isTagName tConstants then { h with constants := t.kids.foldl readConst h.constants }
  else h

/-- `HdComment::FromXml`; an exception in `MdComment::FromXml` ends it.  hdcomment.cpp lines 184-237. -/
def HdCom.fromXml (h : HdCom) (snippet : Bytes) : HdCom :=
  match snippet with
  | [] => h
  | b :: _ =>
    if b ≠ 0x3C#8 then { h with com := { h.com with text := { text := snippet } } }
    else
      match xmlParse snippet with
      | none => h
      | some t =>
        match h.com.fromKids t.kids with
        | (c, true) => { h with com := c }
        | (c, false) => t.kids.foldl HdCom.readKid { h with com := c }

end Mdf
