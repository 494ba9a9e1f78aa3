import Verif.Model.Number

/-!
# The comments of channels, events, file history, sources and units

`CnComment`, `EvComment`, `FhComment`, `SiComment`, `CcUnit`: a comment with further nodes of its own.
`/repo/mdflib/src/cncomment.cpp`, `evcomment.cpp`, `fhcomment.cpp`, `sicomment.cpp`, `ccunit.cpp`.
-/

namespace Mdf

/-- "linker_name" -/
def tLinkerName : Bytes := [0x6C#8, 0x69#8, 0x6E#8, 0x6B#8, 0x65#8, 0x72#8, 0x5F#8, 0x6E#8, 0x61#8, 0x6D#8, 0x65#8]
/-- "linker_address" -/
def tLinkerAddress : Bytes := [0x6C#8, 0x69#8, 0x6E#8, 0x6B#8, 0x65#8, 0x72#8, 0x5F#8, 0x61#8, 0x64#8, 0x64#8, 0x72#8, 0x65#8, 0x73#8, 0x73#8]
/-- "axis_monotony" -/
def tMonotony : Bytes := [0x61#8, 0x78#8, 0x69#8, 0x73#8, 0x5F#8, 0x6D#8, 0x6F#8, 0x6E#8, 0x6F#8, 0x74#8, 0x6F#8, 0x6E#8, 0x79#8]
/-- "raster" -/
def tRaster : Bytes := [0x72#8, 0x61#8, 0x73#8, 0x74#8, 0x65#8, 0x72#8]
/-- "address" -/
def tAddress : Bytes := [0x61#8, 0x64#8, 0x64#8, 0x72#8, 0x65#8, 0x73#8, 0x73#8]
/-- "pre_trigger_interval" -/
def tPre : Bytes := [0x70#8, 0x72#8, 0x65#8, 0x5F#8, 0x74#8, 0x72#8, 0x69#8, 0x67#8, 0x67#8, 0x65#8, 0x72#8, 0x5F#8, 0x69#8, 0x6E#8, 0x74#8, 0x65#8, 0x72#8, 0x76#8, 0x61#8, 0x6C#8]
/-- "post_trigger_interval" -/
def tPost : Bytes := [0x70#8, 0x6F#8, 0x73#8, 0x74#8, 0x5F#8, 0x74#8, 0x72#8, 0x69#8, 0x67#8, 0x67#8, 0x65#8, 0x72#8, 0x5F#8, 0x69#8, 0x6E#8, 0x74#8, 0x65#8, 0x72#8, 0x76#8, 0x61#8, 0x6C#8]
/-- "timeout" -/
def tTimeout : Bytes := [0x74#8, 0x69#8, 0x6D#8, 0x65#8, 0x6F#8, 0x75#8, 0x74#8]
/-- "tool_id" -/
def tToolId : Bytes := [0x74#8, 0x6F#8, 0x6F#8, 0x6C#8, 0x5F#8, 0x69#8, 0x64#8]
/-- "tool_vendor" -/
def tToolVendor : Bytes := [0x74#8, 0x6F#8, 0x6F#8, 0x6C#8, 0x5F#8, 0x76#8, 0x65#8, 0x6E#8, 0x64#8, 0x6F#8, 0x72#8]
/-- "tool_version" -/
def tToolVersion : Bytes := [0x74#8, 0x6F#8, 0x6F#8, 0x6C#8, 0x5F#8, 0x76#8, 0x65#8, 0x72#8, 0x73#8, 0x69#8, 0x6F#8, 0x6E#8]
/-- "user_name" -/
def tUserName : Bytes := [0x75#8, 0x73#8, 0x65#8, 0x72#8, 0x5F#8, 0x6E#8, 0x61#8, 0x6D#8, 0x65#8]
/-- "path" -/
def tPath : Bytes := [0x70#8, 0x61#8, 0x74#8, 0x68#8]
/-- "bus" -/
def tBus : Bytes := [0x62#8, 0x75#8, 0x73#8]
/-- "protocol" -/
def tProtocol : Bytes := [0x70#8, 0x72#8, 0x6F#8, 0x74#8, 0x6F#8, 0x63#8, 0x6F#8, 0x6C#8]
/-- "ho_unit" -/
def tHoUnit : Bytes := [0x68#8, 0x6F#8, 0x5F#8, 0x75#8, 0x6E#8, 0x69#8, 0x74#8]
/-- "unit" -/
def wUnitRoot : Bytes := [0x75#8, 0x6E#8, 0x69#8, 0x74#8]
/-- "CN" -/
def bCN : Bytes := [0x43#8, 0x4E#8]
/-- "CC" -/
def bCC : Bytes := [0x43#8, 0x43#8]
/-- "EV" -/
def bEV : Bytes := [0x45#8, 0x56#8]
/-- "FH" -/
def bFH : Bytes := [0x46#8, 0x48#8]
/-- "SI" -/
def bSI : Bytes := [0x53#8, 0x49#8]

/-! ## Common parts -/

/-- The node for alternative names in a node with another name.  mdalternativename.cpp lines 95-117. -/
def MdNames.nodeAs (n : MdNames) (tag : Bytes) : XmlTree := .mk tag n.node.attrs [] n.node.kids

/-- `ToNames`.  mdcomment.cpp lines 155-159. -/
def MdCom.nameNodes (c : MdCom) : List XmlTree := if c.names.isActive then [c.names.node] else []

/-- `ToFormula`.  mdcomment.cpp lines 148-153. -/
def MdCom.formulaNodes (c : MdCom) : List XmlTree := if c.formula.syntax_.str.text = [] then [] else [c.formula.node]

/-- `ToCommonProp`, without extensions.  mdcomment.cpp lines 161-177. -/
def MdCom.commonNodes (c : MdCom) : List XmlTree := if c.common.isActive then [.mk tCommon [] [] c.common.inner] else []

/-- The loop over the children of the root node; an exception (`true`) ends it.  cncomment.cpp lines 149-168. -/
def kidLoop {σ : Type} (f : σ → XmlTree → Option σ) (s : σ) : List XmlTree → σ × Bool
  | [] => (s, false)
  | t :: ts =>
    match f s t with
    | none => (s, true)
    | some s' => kidLoop f s' ts

/-! ## Channels -/

/-- `MdMonotony`.  `/repo/include/mdf/cncomment.h` lines 18-26. -/
inductive MdMono where
  | decrease | increase | strictDecrease | strictIncrease | monotonous | strict | none
deriving DecidableEq, Repr

/-- `MdMonotonyToString`.  cncomment.cpp lines 15-18 and 23-26. -/
def MdMono.word : MdMono → Bytes
  | .decrease => [0x4D#8, 0x4F#8, 0x4E#8, 0x5F#8, 0x44#8, 0x45#8, 0x43#8, 0x52#8, 0x45#8, 0x41#8, 0x53#8, 0x45#8]
  | .increase => [0x4D#8, 0x4F#8, 0x4E#8, 0x5F#8, 0x49#8, 0x4E#8, 0x43#8, 0x52#8, 0x45#8, 0x41#8, 0x53#8, 0x45#8]
  | .strictDecrease => [0x53#8, 0x54#8, 0x52#8, 0x49#8, 0x43#8, 0x54#8, 0x5F#8, 0x44#8, 0x45#8, 0x43#8, 0x52#8, 0x45#8, 0x41#8, 0x53#8, 0x45#8]
  | .strictIncrease => [0x53#8, 0x54#8, 0x52#8, 0x49#8, 0x43#8, 0x54#8, 0x5F#8, 0x49#8, 0x4E#8, 0x43#8, 0x52#8, 0x45#8, 0x41#8, 0x53#8, 0x45#8]
  | .monotonous => [0x4D#8, 0x4F#8, 0x4E#8, 0x4F#8, 0x54#8, 0x4F#8, 0x4E#8, 0x4F#8, 0x55#8, 0x53#8]
  | .strict => [0x53#8, 0x54#8, 0x52#8, 0x49#8, 0x43#8, 0x54#8, 0x5F#8, 0x4D#8, 0x4F#8, 0x4E#8]
  | .none => [0x4E#8, 0x4F#8, 0x54#8, 0x5F#8, 0x4D#8, 0x4F#8, 0x4E#8]

/-- `StringToMdMonotony`.  cncomment.cpp lines 28-35. -/
def MdMono.ofWord (s : Bytes) : MdMono :=
  ([.decrease, .increase, .strictDecrease, .strictIncrease, .monotonous, .strict, .none].find? fun m => m.word == s).getD .none

/-- `CnComment`.  `/repo/include/mdf/cncomment.h` lines 55-59; the constructor sets the types of the numbers.  cncomment.cpp lines 37-42. -/
structure CnCom where
  com : MdCom := {}
  linkerName : MdStr := {}
  linkerAddress : MdNum := { type := .hex }
  monotony : Option MdMono := none
  raster : MdNum := { type := .decimal }
  address : MdNum := { type := .hex }
deriving Repr

/-- The text for the offset.  mdstring.cpp lines 84-87. -/
def offsetText : Option Nat → Bytes
  | some o => if o > 0 then decText o else []
  | none => []

/-- `MdString::ToXml` for the linker name, with its offset.  mdstring.cpp lines 77-89. -/
def MdStr.linkerNodes (s : MdStr) : List XmlTree :=
  if s.text = [] then [] else [.mk tLinkerName (setAll (s.std.write []) [(kOffset, offsetText s.offset)]) s.text []]

/-- The node for the monotony.  cncomment.cpp lines 103-106, `SetProperty` ixmlnode.h lines 137-140. -/
def monoNodes : Option MdMono → List XmlTree
  | some m => [.mk tMonotony [] m.word []]
  | none => []

/-- The nodes of `CnComment::ToXml`.  cncomment.cpp lines 95-117. -/
def CnCom.kids (c : CnCom) : List XmlTree :=
  c.com.text.nodes tTX ++ (c.com.nameNodes ++ (c.linkerName.linkerNodes ++ (c.linkerAddress.nodes tLinkerAddress ++
    (monoNodes c.monotony ++ (c.raster.nodes tRaster ++ (c.com.formulaNodes ++ (c.address.nodes tAddress ++ c.com.commonNodes)))))))

/-- `CnComment::ToXml`.  cncomment.cpp lines 92-123. -/
def CnCom.toXml (c : CnCom) : Bytes := (XmlTree.mk (trim (bCN ++ tComment)) [] [] c.kids).text

/-- One child of the root node.  cncomment.cpp lines 151-167. -/
def CnCom.readKid (c : CnCom) (t : XmlTree) : Option CnCom :=
  if t.isTagName tLinkerName then some { c with linkerName := c.linkerName.read t }
  else if t.isTagName tLinkerAddress then (c.linkerAddress.read t).map fun n => { c with linkerAddress := n }
  else if t.isTagName tMonotony then some (if trim t.value = [] then c else { c with monotony := some (.ofWord (trim t.value)) })
  else if t.isTagName tRaster then (c.raster.read t).map fun n => { c with raster := n }
  else if t.isTagName tAddress then (c.address.read t).map fun n => { c with address := n }
  else some c

/-- `CnComment::FromXml`: first the parts of all comments.  cncomment.cpp lines 125-173. -/
def CnCom.fromXml (c : CnCom) (snippet : Bytes) : CnCom :=
  match snippet with
  | [] => c
  | b :: _ =>
    if b ≠ 0x3C#8 then { c with com := { c.com with text := { text := snippet } } }
    else
      match xmlParse snippet with
      | none => c
      | some t =>
        match c.com.fromKids t.kids with
        | (m, true) => { c with com := m }
        | (m, false) => (kidLoop CnCom.readKid { c with com := m } t.kids).1

/-- `LinkerAddress(number)`: the type is set, the text stays as it is.  cncomment.cpp lines 57-60. -/
def CnCom.setLinkerAddress (c : CnCom) (n : MdNum) : CnCom := { c with linkerAddress := { n with type := .hex } }

/-- `Address(number)`.  cncomment.cpp lines 83-86. -/
def CnCom.setAddress (c : CnCom) (n : MdNum) : CnCom := { c with address := { n with type := .hex } }

/-- `AxisMonotony()`.  cncomment.cpp lines 70-73. -/
def CnCom.axisMonotony (c : CnCom) : MdMono := c.monotony.getD .none

/-! ## Events -/

/-- `EvComment`.  `/repo/include/mdf/evcomment.h` lines 30-32. -/
structure EvCom where
  com : MdCom := {}
  pre : MdNum := {}
  post : MdNum := {}
  timeout : MdNum := {}
deriving Repr

/-- The nodes of `EvComment::ToXml`: no alternative names.  evcomment.cpp lines 51-64. -/
def EvCom.kids (c : EvCom) : List XmlTree :=
  c.com.text.nodes tTX ++ (c.pre.nodes tPre ++ (c.post.nodes tPost ++ (c.com.formulaNodes ++ (c.timeout.nodes tTimeout ++ c.com.commonNodes))))

/-- `EvComment::ToXml`.  evcomment.cpp lines 48-70. -/
def EvCom.toXml (c : EvCom) : Bytes := (XmlTree.mk (trim (bEV ++ tComment)) [] [] c.kids).text

/-- One child of the root node.  evcomment.cpp lines 98-108. -/
def EvCom.readKid (c : EvCom) (t : XmlTree) : Option EvCom :=
  if t.isTagName tPre then (c.pre.read t).map fun n => { c with pre := n }
  else if t.isTagName tPost then (c.post.read t).map fun n => { c with post := n }
  else if t.isTagName tTimeout then (c.timeout.read t).map fun n => { c with timeout := n }
  else some c

/-- `EvComment::FromXml`.  evcomment.cpp lines 72-113. -/
def EvCom.fromXml (c : EvCom) (snippet : Bytes) : EvCom :=
  match snippet with
  | [] => c
  | b :: _ =>
    if b ≠ 0x3C#8 then { c with com := { c.com with text := { text := snippet } } }
    else
      match xmlParse snippet with
      | none => c
      | some t =>
        match c.com.fromKids t.kids with
        | (m, true) => { c with com := m }
        | (m, false) => (kidLoop EvCom.readKid { c with com := m } t.kids).1

/-! ## File history -/

/-- `FhComment`.  `/repo/include/mdf/fhcomment.h` lines 39-42. -/
structure FhCom where
  com : MdCom := {}
  toolId : MdStr := {}
  toolVendor : MdStr := {}
  toolVersion : MdStr := {}
  userName : MdStr := {}
deriving Repr

/-- The nodes of `FhComment::ToXml`: neither alternative names nor a formula.  fhcomment.cpp lines 60-75. -/
def FhCom.kids (c : FhCom) : List XmlTree :=
  c.com.text.nodes tTX ++ (c.toolId.nodes tToolId ++ (c.toolVendor.nodes tToolVendor ++ (c.toolVersion.nodes tToolVersion ++
    (c.userName.nodes tUserName ++ c.com.commonNodes))))

/-- `FhComment::ToXml`.  fhcomment.cpp lines 57-81. -/
def FhCom.toXml (c : FhCom) : Bytes := (XmlTree.mk (trim (bFH ++ tComment)) [] [] c.kids).text

/-- One child of the root node.  fhcomment.cpp lines 107-120. -/
def FhCom.readKid (c : FhCom) (t : XmlTree) : Option FhCom :=
  some <|
    if t.isTagName tToolId then { c with toolId := c.toolId.read t }
    else if t.isTagName tToolVendor then { c with toolVendor := c.toolVendor.read t }
    else if t.isTagName tToolVersion then { c with toolVersion := c.toolVersion.read t }
    else if t.isTagName tUserName then { c with userName := c.userName.read t }
    else c

/-- `FhComment::FromXml`: first its own parts.  fhcomment.cpp lines 83-125. -/
def FhCom.fromXml (c : FhCom) (snippet : Bytes) : FhCom :=
  match snippet with
  | [] => c
  | b :: _ =>
    if b ≠ 0x3C#8 then { c with com := { c.com with text := { text := snippet } } }
    else
      match xmlParse snippet with
      | none => c
      | some t =>
        match kidLoop FhCom.readKid c t.kids with
        | (r, true) => r
        | (r, false) => { r with com := (r.com.fromKids t.kids).1 }

/-! ## Sources -/

/-- `SiComment`.  `/repo/include/mdf/sicomment.h` lines 32-34. -/
structure SiCom where
  com : MdCom := {}
  path : MdNames := {}
  bus : MdNames := {}
  protocol : MdStr := {}
deriving Repr

/-- The nodes of `SiComment::ToXml`: no formula.  sicomment.cpp lines 54-68. -/
def SiCom.kids (c : SiCom) : List XmlTree :=
  c.com.text.nodes tTX ++ (c.com.nameNodes ++ ((if c.path.isActive then [c.path.nodeAs tPath] else []) ++
    ((if c.bus.isActive then [c.bus.nodeAs tBus] else []) ++ (c.protocol.nodes tProtocol ++ c.com.commonNodes))))

/-- `SiComment::ToXml`.  sicomment.cpp lines 50-74. -/
def SiCom.toXml (c : SiCom) : Bytes := (XmlTree.mk (trim (bSI ++ tComment)) [] [] c.kids).text

/-- One child of the root node.  sicomment.cpp lines 100-111. -/
def SiCom.readKid (c : SiCom) (t : XmlTree) : Option SiCom :=
  if t.isTagName tPath then (c.path.read t).map fun n => { c with path := n }
  else if t.isTagName tBus then (c.bus.read t).map fun n => { c with bus := n }
  else if t.isTagName tProtocol then some { c with protocol := c.protocol.read t }
  else some c

/-- `SiComment::FromXml`: first its own parts.  sicomment.cpp lines 76-116. -/
def SiCom.fromXml (c : SiCom) (snippet : Bytes) : SiCom :=
  match snippet with
  | [] => c
  | b :: _ =>
    if b ≠ 0x3C#8 then { c with com := { c.com with text := { text := snippet } } }
    else
      match xmlParse snippet with
      | none => c
      | some t =>
        match kidLoop SiCom.readKid c t.kids with
        | (r, true) => r
        | (r, false) => { r with com := (r.com.fromKids t.kids).1 }

/-! ## Units -/

/-- `CcUnit`, `CnUnit`; the unit is the text of the comment.  `/repo/include/mdf/ccunit.h` line 30. -/
structure CcUn where
  com : MdCom := {}
  unitRef : MdStr := {}
deriving Repr

/-- The nodes of `CcUnit::ToXml`.  ccunit.cpp lines 53-59, mdcomment.cpp lines 137-142. -/
def CcUn.kids (c : CcUn) : List XmlTree :=
  c.com.text.nodes tTX ++ (c.com.nameNodes ++ (c.com.formulaNodes ++ (c.com.commonNodes ++
    if c.unitRef.text = [] then [] else [.mk tHoUnit (setAll (c.unitRef.std.write []) [(kUnitRef, c.unitRef.text)]) [] []])))

/-- `CcUnit::ToXml`; `block` is `CC` or `CN`.  ccunit.cpp lines 38-65. -/
def CcUn.toXml (c : CcUn) (block : Bytes) : Bytes := (XmlTree.mk (trim (block ++ wUnitRoot)) [] [] c.kids).text

/-- One child of the root node.  ccunit.cpp lines 91-102. -/
def CcUn.readKid (c : CcUn) (t : XmlTree) : Option CcUn :=
  if t.isTagName tHoUnit then
    (c.unitRef.std.read t.attrs).map fun s =>
      let x := trim (attrText t.attrs kUnitRef)
      { c with unitRef := { c.unitRef with std := s, text := if x = [] then trim t.value else x } }
  else some c

/-- `CcUnit::FromXml`: first its own parts.  ccunit.cpp lines 67-107. -/
def CcUn.fromXml (c : CcUn) (snippet : Bytes) : CcUn :=
  match snippet with
  | [] => c
  | b :: _ =>
    if b ≠ 0x3C#8 then { c with com := { c.com with text := { text := snippet } } }
    else
      match xmlParse snippet with
      | none => c
      | some t =>
        match kidLoop CcUn.readKid c t.kids with
        | (r, true) => r
        | (r, false) => { r with com := (r.com.fromKids t.kids).1 }

end Mdf
