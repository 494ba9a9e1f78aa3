import Verif.Model.CommentKinds
import Verif.Model.CommentApi
import Verif.Model.BusName

/-!
# The source information of a bus group

Models `IConfigAdapter::CreateSourceInformation` for groups and for channels (/repo/mdflib/src/iconfigadapter.cpp), `SetSiComment` and
`GetSiComment` (/repo/mdflib/src/isourceinformation.cpp), and the conversion `CreateBusChannel` makes for a fixed channel.

Texts are bytes.  The meta data are the XML text; `none` if there are none.
-/

namespace Mdf

/-- "ChannelNo" -/
def kChannelNo : Bytes :=
  [0x43#8, 0x68#8, 0x61#8, 0x6E#8, 0x6E#8, 0x65#8, 0x6C#8, 0x4E#8, 0x6F#8]
/-- "MessageID" -/
def kMessageId : Bytes :=
  [0x4D#8, 0x65#8, 0x73#8, 0x73#8, 0x61#8, 0x67#8, 0x65#8, 0x49#8, 0x44#8]
/-- "MessageLength" -/
def kMessageLength : Bytes :=
  [0x4D#8, 0x65#8, 0x73#8, 0x73#8, 0x61#8, 0x67#8, 0x65#8, 0x4C#8, 0x65#8, 0x6E#8, 0x67#8, 0x74#8, 0x68#8]
/-- "Message" -/
def kMessage : Bytes :=
  [0x4D#8, 0x65#8, 0x73#8, 0x73#8, 0x61#8, 0x67#8, 0x65#8]
/-- "Configurations for the bus" -/
def wBusConfig : Bytes :=
  [0x43#8, 0x6F#8, 0x6E#8, 0x66#8, 0x69#8, 0x67#8, 0x75#8, 0x72#8, 0x61#8, 0x74#8, 0x69#8, 0x6F#8, 0x6E#8, 0x73#8, 0x20#8, 0x66#8, 0x6F#8, 0x72#8, 0x20#8, 0x74#8, 0x68#8, 0x65#8, 0x20#8, 0x62#8, 0x75#8, 0x73#8]

/-- The settings of an adapter.  include/mdf/iconfigadapter.h lines 130-145. -/
structure SrcAdapter where
  busType : BitVec 16
  busName : Bytes
  network : Bytes := []
  device : Bytes := []
  protocol : Bytes := []
  message : Bytes := []
  channel : Byte := 0
  messageId : BitVec 64 := 0
  messageLength : BitVec 64 := 0
deriving DecidableEq, Repr

/-- `SourceType` and `BusType` are the numbers of include/mdf/isourceinformation.h lines 21-42. -/
structure SrcInfo where
  name : Bytes
  path : Bytes
  type : Nat
  bus : Nat
  xml : Option Bytes
deriving DecidableEq, Repr

/-- `info->Type(...)`.  iconfigadapter.cpp lines 159, 235. -/
def srcType (busType : BitVec 16) : Nat := if busType ≠ 0 then 2 else 0

/-- `switch (bus_type_)`.  iconfigadapter.cpp lines 161-185, 237-261. -/
def srcBus (busType : BitVec 16) : Nat :=
  if busType = 0x1 then 2
  else if busType = 0x2 then 3
  else if busType = 0x8 then 4
  else if busType = 0x4 then 5
  else if busType = 0x10 then 7
  else 1

/-- A property with a number.  iconfigadapter.cpp lines 192-194. -/
def srcNum (name : Bytes) (v : Nat) : MdProp := { name := name, value := decText v, type := .integer }

/-- The properties in the order they are added.  iconfigadapter.cpp lines 191-209, 267-285. -/
def SrcAdapter.props (a : SrcAdapter) : List MdProp :=
  (if a.channel ≠ 0 then [srcNum kChannelNo a.channel.toNat] else []) ++
  ((if a.messageId ≠ 0 then [srcNum kMessageId a.messageId.toNat] else []) ++
  ((if a.messageLength ≠ 0 then [srcNum kMessageLength a.messageLength.toNat] else []) ++
  (if a.message ≠ [] then [{ name := kMessage, value := a.message }] else [])))

/-- `SiComment comment("Configurations for the bus")` and what is added to it.  iconfigadapter.cpp lines 189-213, 265-289. -/
def SrcAdapter.comment (a : SrcAdapter) : SiCom :=
  { com := { text := { text := wBusConfig }, common := MdTree.empty.addProps a.props },
    protocol := if a.protocol ≠ [] then { text := a.protocol } else {} }

/-- The condition for a comment.  iconfigadapter.cpp lines 187-188, 263-264. -/
def SrcAdapter.commented (a : SrcAdapter) : Bool := a.protocol ≠ [] || a.messageId ≠ 0 || a.channel ≠ 0 || a.message ≠ []

/-- `IConfigAdapter::CreateSourceInformation(IChannelGroup&)`.  iconfigadapter.cpp lines 141-217. -/
def SrcAdapter.groupInfo (a : SrcAdapter) (group : Bytes) : SrcInfo :=
  { name := if a.network ≠ [] then a.network else if a.device ≠ [] then a.device else if a.busName ≠ [] then a.busName else group
    path := group
    type := srcType a.busType
    bus := srcBus a.busType
    xml := if a.commented then some a.comment.toXml else none }

/-- `IConfigAdapter::CreateSourceInformation(IChannel&)`; `group` is the name of the group of the channel.  iconfigadapter.cpp lines 219-293. -/
def SrcAdapter.channelInfo (a : SrcAdapter) (group : Bytes) : SrcInfo :=
  { name := if a.network ≠ [] then a.network else group
    path := if a.device ≠ [] then a.device else group
    type := srcType a.busType
    bus := srcBus a.busType
    xml := if a.commented then some a.comment.toXml else none }

/-- `ISourceInformation::GetSiComment` into a new comment.  isourceinformation.cpp lines 17-22. -/
def SrcInfo.comment (i : SrcInfo) : SiCom :=
  match i.xml with
  | none => {}
  | some x => ({} : SiCom).fromXml x

/-- `fixed_channel` of `CreateBusChannel`: `MessageFilter()` is a value of the enumeration, `NoFilter`, and not the filter of the adapter
(`FilterType()`).  iconfigadapter.cpp lines 364-365. -/
def fixedChannel (channel : Byte) (_filter : BusFilter) : Bool := decide (0 < channel.toNat) && decide (BusFilter.noFilter ≠ .noFilter)

end Mdf
