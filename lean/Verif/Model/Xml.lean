import Verif.Model.XmlParse
import Verif.Model.Id

/-!
# Metadata as XML

The comments and metadata of an MDF 4 file are XML texts in MD blocks.  Each setter reads the XML text, changes the tree of nodes and
writes the whole text anew.  The functions follow `/repo/mdflib/src/ixmlnode.cpp`, `ixmlnode.h`, `imetadata.cpp`, `mdfblock.cpp`,
`md4block.cpp` and `hd4block.cpp`.

Simplified: texts hold no zero (the C functions stop at a zero).
-/

namespace Mdf

/-- "TX" -/
def tTX : Bytes := [0x54#8, 0x58#8]
/-- "e" -/
def tE : Bytes := [0x65#8]
/-- "tree" -/
def tTree : Bytes := [0x74#8, 0x72#8, 0x65#8, 0x65#8]
/-- "common_properties" -/
def tCommon : Bytes :=
  [0x63#8, 0x6F#8, 0x6D#8, 0x6D#8, 0x6F#8, 0x6E#8, 0x5F#8, 0x70#8, 0x72#8, 0x6F#8, 0x70#8, 0x65#8, 0x72#8, 0x74#8, 0x69#8, 0x65#8, 0x73#8]
/-- "name" -/
def kName : Bytes := [0x6E#8, 0x61#8, 0x6D#8, 0x65#8]
/-- "desc" -/
def kDesc : Bytes := [0x64#8, 0x65#8, 0x73#8, 0x63#8]
/-- "ci" -/
def kCi : Bytes := [0x63#8, 0x69#8]
/-- "type" -/
def kType : Bytes := [0x74#8, 0x79#8, 0x70#8, 0x65#8]
/-- "xml:lang" -/
def kLang : Bytes := [0x78#8, 0x6D#8, 0x6C#8, 0x3A#8, 0x6C#8, 0x61#8, 0x6E#8, 0x67#8]
/-- "ro" -/
def kRo : Bytes := [0x72#8, 0x6F#8]
/-- "unit" -/
def kUnit : Bytes := [0x75#8, 0x6E#8, 0x69#8, 0x74#8]
/-- "unit_ref" -/
def kUnitRef : Bytes := [0x75#8, 0x6E#8, 0x69#8, 0x74#8, 0x5F#8, 0x72#8, 0x65#8, 0x66#8]
/-- "HDcomment" -/
def tHdComment : Bytes := [0x48#8, 0x44#8, 0x63#8, 0x6F#8, 0x6D#8, 0x6D#8, 0x65#8, 0x6E#8, 0x74#8]
/-- "true" -/
def wTrue : Bytes := [0x74#8, 0x72#8, 0x75#8, 0x65#8]
/-- "integer" -/
def wInteger : Bytes := [0x69#8, 0x6E#8, 0x74#8, 0x65#8, 0x67#8, 0x65#8, 0x72#8]
/-- "string" -/
def wString : Bytes := [0x73#8, 0x74#8, 0x72#8, 0x69#8, 0x6E#8, 0x67#8]

/-! ## Writing -/

/-- One character of `XmlString`.  ixmlnode.cpp lines 17-41. -/
def escByte (c : Byte) : Bytes :=
  if c = 0x3C#8 then [0x26#8, 0x6C#8, 0x74#8, 0x3B#8]
  else if c = 0x3E#8 then [0x26#8, 0x67#8, 0x74#8, 0x3B#8]
  else if c = 0x26#8 then [0x26#8, 0x61#8, 0x6D#8, 0x70#8, 0x3B#8]
  else if c = 0x22#8 then [0x26#8, 0x71#8, 0x75#8, 0x6F#8, 0x74#8, 0x3B#8]
  else if c = 0x27#8 then [0x26#8, 0x61#8, 0x70#8, 0x6F#8, 0x73#8, 0x3B#8]
  else [c]

/-- `XmlString`.  ixmlnode.cpp lines 14-44. -/
def xmlString (s : Bytes) : Bytes := s.flatMap escByte

/-- Two blanks for each level.  ixmlnode.cpp lines 144-146 and 163-165. -/
def indent (level : Nat) : Bytes := List.replicate (2 * level) 0x20#8

/-- The attributes of a start tag.  ixmlnode.cpp lines 148-150. -/
def writeAttrs (as : List (Bytes × Bytes)) : Bytes :=
  as.flatMap fun a => 0x20#8 :: a.1 ++ [0x3D#8, 0x27#8] ++ xmlString a.2 ++ [0x27#8]

mutual
/-- `IXmlNode::Write`.  ixmlnode.cpp lines 142-168. -/
def XmlTree.write : (level : Nat) → XmlTree → Bytes
  | level, .mk tag attrs value kids =>
    indent level ++ 0x3C#8 :: tag ++ writeAttrs attrs ++
    (if kids.isEmpty && value.isEmpty then [0x2F#8, 0x3E#8, 0x0A#8]
     else if kids.isEmpty then 0x3E#8 :: xmlString value ++ [0x3C#8, 0x2F#8] ++ tag ++ [0x3E#8, 0x0A#8]
     else [0x3E#8, 0x0A#8] ++ writeNodes (level + 1) kids ++ indent level ++ [0x3C#8, 0x2F#8] ++ tag ++ [0x3E#8, 0x0A#8])
/-- The loop over the children.  ixmlnode.cpp lines 157-162. -/
def writeNodes : (level : Nat) → List XmlTree → Bytes
  | _, [] => []
  | level, t :: ts => t.write level ++ writeNodes level ts
end

/-- `WriteString(true)`.  `/repo/mdflib/src/ixmlfile.cpp` lines 98-121. -/
def XmlTree.text (t : XmlTree) : Bytes := t.write 0

/-! ## Finding and changing nodes -/

/-- `Platform::stricmp(..) == 0`.  `/repo/mdflib/src/platform.cpp` lines 15-21. -/
def sameWord (a b : Bytes) : Bool := a.map lowerByte == b.map lowerByte

/-- What stands behind the first colon, if there is one.  ixmlnode.cpp lines 123-125. -/
def afterColon : Bytes → Option Bytes
  | [] => none
  | c :: s => if c = 0x3A#8 then some s else afterColon s

/-- `IsTagName`.  ixmlnode.cpp lines 118-131. -/
def XmlTree.isTagName (t : XmlTree) (tag : Bytes) : Bool :=
  sameWord tag t.tag || (match afterColon t.tag with | some s => sameWord tag s | none => false)

/-- `IsAttribute`.  ixmlnode.cpp lines 133-140. -/
def XmlTree.isAttribute (t : XmlTree) (key value : Bytes) : Bool := t.attrs.any fun a => sameWord a.1 key && sameWord a.2 value

/-- `Attribute<std::string>`: the text of the attribute without blanks around it, empty if there is none.  ixmlnode.h lines 258-269. -/
def XmlTree.attribute (t : XmlTree) (key : Bytes) : Option Bytes := (t.attrs.find? fun a => sameWord a.1 key).map fun a => trim a.2

/-- `SetAttribute`: `insert` into the map, which does nothing if the key is there.  ixmlnode.h lines 270-275, ixmlnode.cpp 215-218. -/
def XmlTree.setAttribute (key value : Bytes) : XmlTree → XmlTree
  | .mk tag attrs v kids => .mk tag (if attrs.any (fun a => a.1 == key) then attrs else attrs ++ [(key, value)]) v kids

/-- `Value(const std::string&)`.  ixmlnode.cpp lines 210-213. -/
def XmlTree.setValue (v : Bytes) : XmlTree → XmlTree
  | .mk tag attrs _ kids => .mk tag attrs v kids

/-- The children of a node are changed. -/
def XmlTree.mapKids (f : List XmlTree → List XmlTree) : XmlTree → XmlTree
  | .mk tag attrs v kids => .mk tag attrs v (f kids)

/-- `AddUniqueNode` followed by what is done with the node it returns: the first node with the property `p` is changed, and if there is
none a new node is put at the end and changed.  ixmlnode.cpp lines 64-86. -/
def changeNode (p : XmlTree → Bool) (new : XmlTree) (f : XmlTree → XmlTree) : List XmlTree → List XmlTree
  | [] => [f new]
  | t :: ts => if p t then f t :: ts else t :: changeNode p new f ts

/-- `CreateNode`: the constructor of `IXmlNode` takes away blanks around the name.  ixmlnode.cpp lines 49-51 and 88-90. -/
def newNode (tag : Bytes) : XmlTree := .mk (trim tag) [] [] []

/-- `SetProperty`.  ixmlnode.h lines 136-140. -/
def XmlTree.setProperty (tag value : Bytes) (t : XmlTree) : XmlTree :=
  t.mapKids (changeNode (·.isTagName tag) (newNode tag) (·.setValue value))

/-- `Property<std::string>`.  ixmlnode.h lines 123-127 and 298-303, ixmlnode.cpp lines 92-97. -/
def XmlTree.property (t : XmlTree) (tag : Bytes) : Bytes :=
  match t.kids.find? (·.isTagName tag) with
  | some n => trim n.value
  | none => []

/-! ## The common properties -/

/-- The values of an `ETag` other than the tags below it.  `/repo/include/mdf/etag.h` lines 193-201. -/
structure TagInfo where
  /-- `name_` -/
  name : Bytes
  /-- `desc_` -/
  desc : Bytes := []
  /-- `unit_` -/
  unit : Bytes := []
  /-- `unit_ref_` -/
  unitRef : Bytes := []
  /-- `type_` -/
  type : Bytes := []
  /-- `language_` -/
  lang : Bytes := []
  /-- `value_` -/
  value : Bytes := []
  /-- `read_only_` -/
  readOnly : Bool := false
  /-- `creator_index_`, `none` for a negative value (no creator) -/
  creator : Option Nat := none
deriving DecidableEq

/-- `ETag`.  `/repo/include/mdf/etag.h` lines 193-203. -/
inductive Tag where
  | mk (info : TagInfo) (tree : List Tag)

/-- `Name()` … -/
def Tag.info : Tag → TagInfo | .mk i _ => i
/-- `TreeList()` -/
def Tag.tree : Tag → List Tag | .mk _ t => t

/-- A number in decimal digits, `operator<<`.  Used by ixmlnode.h lines 270-275. -/
def decText (n : Nat) : Bytes := (Nat.toDigits 10 n).map fun c => BitVec.ofNat 8 c.toNat

/-- `operator>>` for a number that is not negative: the digits at the start.  ixmlnode.h lines 231-236.  (Overflow and signs are left
out: the texts read here were written by `operator<<`.) -/
def decNumber (s : Bytes) : Nat :=
  (s.takeWhile fun c => 0x30#8 ≤ c && c ≤ 0x39#8).foldl (fun n c => n * 10 + (c.toNat - 48)) 0

/-- `Attribute("ro", false)`: "1", "on", or a text that starts with T or Y.  ixmlnode.h lines 242-256. -/
def boolText (s : Bytes) : Bool :=
  sameWord s [0x31#8] || sameWord s [0x4F#8, 0x4E#8] || sameStart s [0x54#8] || sameStart s [0x59#8]

/-- `SetAttribute` of a text that is not empty.  imetadata.cpp lines 22-24, 33-53. -/
def setText (key value : Bytes) (t : XmlTree) : XmlTree := if value.isEmpty then t else t.setAttribute key value

/-- `SetAttribute("ci", ..)`.  imetadata.cpp lines 25-27, 36-38. -/
def setCreator (c : Option Nat) (t : XmlTree) : XmlTree :=
  match c with
  | some n => t.setAttribute kCi (decText n)
  | none => t

/-- The attributes and the value of a tag that is no tree.  imetadata.cpp lines 33-54. -/
def setLeaf (i : TagInfo) (t : XmlTree) : XmlTree :=
  (setText kUnitRef i.unitRef (setText kUnit i.unit ((if i.readOnly then (·.setAttribute kRo wTrue) else id)
    (setText kLang i.lang (setText kType i.type (setCreator i.creator (setText kDesc i.desc t))))))).setValue i.value

/-- The node `AddUniqueNode(tag, "name", name)` looks for.  ixmlnode.cpp lines 76-79 and 102-105. -/
def isNamed (tag name : Bytes) (t : XmlTree) : Bool := t.isTagName tag && t.isAttribute kName name

/-- The node `AddUniqueNode(tag, "name", name)` makes.  ixmlnode.cpp lines 83-84. -/
def namedNode (tag name : Bytes) : XmlTree := (newNode tag).setAttribute kName name

mutual
/-- `InsertETag`.  imetadata.cpp lines 13-56. -/
def insertTag : Tag → XmlTree → XmlTree
  | .mk i tree, root =>
    if i.name.isEmpty then root
    else if tree.isEmpty then
      root.mapKids (changeNode (isNamed tE i.name) (namedNode tE i.name) (setLeaf i))
    else
      root.mapKids (changeNode (isNamed tTree i.name) (namedNode tTree i.name)
        (fun t => insertTags tree (setCreator i.creator (setText kDesc i.desc t))))
/-- The loop over the tags of a tree.  imetadata.cpp lines 28-30. -/
def insertTags : List Tag → XmlTree → XmlTree
  | [], root => root
  | t :: ts, root => insertTags ts (insertTag t root)
end

mutual
/-- `FetchETag`.  imetadata.cpp lines 58-81. -/
def fetchTag : XmlTree → Tag
  | .mk tag attrs v kids =>
    .mk { name := ((XmlTree.mk tag attrs v kids).attribute kName).getD []
          desc := ((XmlTree.mk tag attrs v kids).attribute kDesc).getD []
          creator := ((XmlTree.mk tag attrs v kids).attribute kCi).map decNumber
          type := ((XmlTree.mk tag attrs v kids).attribute kType).getD []
          lang := ((XmlTree.mk tag attrs v kids).attribute kLang).getD []
          readOnly := (((XmlTree.mk tag attrs v kids).attribute kRo).map boolText).getD false
          unit := ((XmlTree.mk tag attrs v kids).attribute kUnit).getD []
          unitRef := ((XmlTree.mk tag attrs v kids).attribute kUnitRef).getD []
          value := trim v } (fetchTags kids)
/-- The loop over the children.  imetadata.cpp lines 69-80 and 201-216. -/
def fetchTags : List XmlTree → List Tag
  | [] => []
  | t :: ts => if t.isTagName tE || t.isTagName tTree then fetchTag t :: fetchTags ts else fetchTags ts
end

/-- `CommonProperty(const ETag&)` and `CommonProperties(list)` on the tree.  imetadata.cpp lines 139-141, 166-170. -/
def XmlTree.addCommon (tags : List Tag) (root : XmlTree) : XmlTree :=
  root.mapKids (changeNode (·.isTagName tCommon) (newNode tCommon) (insertTags tags))

/-- `CommonProperty(name)` on the tree, `none` for an empty `ETag`.  imetadata.cpp lines 148-158. -/
def XmlTree.commonTag (root : XmlTree) (name : Bytes) : Option Tag :=
  match root.kids.find? (·.isTagName tCommon) with
  | none => none
  | some c =>
    match c.kids.find? (isNamed tTree name), c.kids.find? (isNamed tE name) with
    | some t, _ => some (fetchTag t)
    | none, some e => some (fetchTag e)
    | none, none => none

/-- `CommonProperties()` on the tree.  imetadata.cpp lines 199-217. -/
def XmlTree.commonTags (root : XmlTree) : List Tag :=
  match root.kids.find? (·.isTagName tCommon) with
  | none => []
  | some c => fetchTags c.kids

/-! ## A metadata block

The setters and getters work on the XML text of the block.  `none`: the text of the block is no XML text; then the setters work on what
was read before the error, of which nothing is said here. -/

/-- `StringProperty(tag, value)`.  imetadata.cpp lines 97-103. -/
def stringSet (tag value : Bytes) (snippet : Bytes) : Option Bytes :=
  (xmlParse snippet).map fun t => (t.setProperty tag value).text

/-- `StringProperty(tag)`.  imetadata.cpp lines 105-119. -/
def stringGet (snippet tag : Bytes) : Bytes :=
  match xmlParse snippet with
  | none => []
  | some t => t.property tag

/-- `CommonProperty(tag)` and `CommonProperties(list)`.  imetadata.cpp lines 135-143 and 163-172. -/
def commonSet (tags : List Tag) (snippet : Bytes) : Option Bytes :=
  (xmlParse snippet).map fun t => (t.addCommon tags).text

/-- `CommonProperty(name)`.  imetadata.cpp lines 145-160. -/
def commonGet (snippet name : Bytes) : Option Tag := (xmlParse snippet).bind (·.commonTag name)

/-- `CommonProperties()`.  imetadata.cpp lines 195-219. -/
def commonList (snippet : Bytes) : Option (List Tag) := (xmlParse snippet).map (·.commonTags)

/-- The comment of a block: none, a plain text (TX block), or an XML text (MD block).  `md_comment_` of mdfblock.h. -/
inductive BlkComment where
  | none
  | tx (text : Bytes)
  | md (snippet : Bytes)
deriving DecidableEq

/-- `CreateMd4Block`: the MD block of a block with the id `blockType`.  mdfblock.cpp lines 836-863. -/
def createMd (blockType : Bytes) : BlkComment → Bytes
  | .md s => s
  | .tx s =>
    (if blockType = [0x48#8, 0x44#8] then
       ((newNode (blockType ++ tHdComment.drop 2)).setProperty tTX (trim s)).setProperty tTX []
     else (newNode (blockType ++ tHdComment.drop 2)).setProperty tTX (trim s)).text
  | .none =>
    (if blockType = [0x48#8, 0x44#8] then (newNode (blockType ++ tHdComment.drop 2)).setProperty tTX []
     else newNode (blockType ++ tHdComment.drop 2)).text

/-! ## The header -/

/-- The texts of the header: `Author`, `Department`, `Project`, `Subject`, `MeasurementId`, `RecorderId`, `RecorderIndex`.
hd4block.cpp lines 304-334 and 350-372. -/
inductive HdText where
  | author | department | project | subject | measurementId | recorderId | recorderIndex
deriving DecidableEq

/-- The name of the property.  hd4block.cpp lines 304-372. -/
def HdText.key : HdText → Bytes
  | .author => [0x61#8, 0x75#8, 0x74#8, 0x68#8, 0x6F#8, 0x72#8]
  | .department => [0x64#8, 0x65#8, 0x70#8, 0x61#8, 0x72#8, 0x74#8, 0x6D#8, 0x65#8, 0x6E#8, 0x74#8]
  | .project => [0x70#8, 0x72#8, 0x6F#8, 0x6A#8, 0x65#8, 0x63#8, 0x74#8]
  | .subject => [0x73#8, 0x75#8, 0x62#8, 0x6A#8, 0x65#8, 0x63#8, 0x74#8]
  | .measurementId =>
    [0x4D#8, 0x65#8, 0x61#8, 0x73#8, 0x75#8, 0x72#8, 0x65#8, 0x6D#8, 0x65#8, 0x6E#8, 0x74#8, 0x2E#8, 0x55#8, 0x55#8, 0x49#8, 0x44#8]
  | .recorderId => [0x52#8, 0x65#8, 0x63#8, 0x6F#8, 0x72#8, 0x64#8, 0x65#8, 0x72#8, 0x2E#8, 0x55#8, 0x55#8, 0x49#8, 0x44#8]
  | .recorderIndex =>
    [0x52#8, 0x65#8, 0x63#8, 0x6F#8, 0x72#8, 0x64#8, 0x65#8, 0x72#8, 0x2E#8, 0x46#8, 0x69#8, 0x6C#8, 0x65#8, 0x49#8, 0x6E#8, 0x64#8,
     0x65#8, 0x78#8]

/-- The value of the `type` attribute: `std::string` or `int64_t`.  hd4block.cpp lines 54-62. -/
def HdText.type : HdText → Bytes
  | .recorderIndex => wInteger
  | _ => wString

/-- The node the setters of the header start from: the tree of the comment if it is an XML text.  A plain text without `<` is refused by
the parser before any node is made, and a new tree is made.  hd4block.cpp lines 45-50 and 337-342, ixmlfile.cpp lines 56-63.
`none`: the comment has a `<` but is no XML text. -/
def hdRoot : BlkComment → Option XmlTree
  | .none => some (newNode tHdComment)
  | .tx s =>
    match xmlParse (trim s) with
    | some (.mk _ a v k) => some (.mk tHdComment a v k)
    | none => if s.contains 0x3C#8 then none else some (newNode tHdComment)
  | .md s => (xmlParse (trim s)).map fun t => .mk tHdComment t.attrs t.value t.kids

/-- `SetCommonProperty`.  hd4block.cpp lines 42-65. -/
def setHd (f : HdText) (value : Bytes) (c : BlkComment) : Option BlkComment :=
  (hdRoot c).map fun root => .md (((root.mapKids (changeNode (·.isTagName tTX) (newNode tTX) id)).mapKids
    (changeNode (·.isTagName tCommon) (newNode tCommon) (·.mapKids (changeNode (isNamed tE f.key) (namedNode tE f.key)
      (fun t => (t.setAttribute kType f.type).setValue value))))).text)

/-- `GetCommonProperty<std::string>`.  hd4block.cpp lines 24-40.  The text the number of `RecorderIndex` is read from is returned as it
is.  `none`: the comment is an MD block that is no XML text. -/
def getHd (f : HdText) : BlkComment → Option Bytes
  | .none => some []
  | .tx _ => some []
  | .md s => (xmlParse (trim s)).map fun root =>
    match root.kids.find? (·.isTagName tCommon) with
    | none => []
    | some c =>
      match c.kids.find? (isNamed tE f.key) with
      | none => []
      | some t => trim t.value

/-- `Hd4Block::Description(text)`.  hd4block.cpp lines 336-346. -/
def setDescription (value : Bytes) (c : BlkComment) : Option BlkComment :=
  (hdRoot c).map fun root => .md (root.setProperty tTX value).text

/-- `Hd4Block::Description()`, which is `MdfBlock::Comment`.  hd4block.cpp line 348, mdfblock.cpp lines 581-587, md4block.cpp lines
284-303. -/
def getDescription : BlkComment → Bytes
  | .none => []
  | .tx s => trim s
  | .md s =>
    if s.isEmpty = false ∧ s.head? ≠ some 0x3C#8 then s
    else
      match xmlParse s with
      | none => s
      | some t => t.property tTX

/-- The text of a block after the file was saved and opened again.  `/repo/mdflib/src/tx4block.cpp` lines 77-98: the text and a zero
are written, and `ReadStr` reads the rest of the block. -/
def reopened (s : Bytes) : Bytes := (readStr (s.length + 1) (writeStr s (s.length + 1))).1

/-- The comment of a block after the file was saved and opened again.  A text that starts with `<` is saved as MD block, any other as TX
block.  tx4block.cpp lines 88-89. -/
def BlkComment.reopen : BlkComment → BlkComment
  | .none => .none
  | .tx s => if s.head? = some 0x3C#8 then .md (reopened s) else .tx (reopened s)
  | .md s => if s.head? = some 0x3C#8 then .md (reopened s) else .tx (reopened s)

end Mdf
