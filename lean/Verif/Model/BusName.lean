import Verif.Model.Lin
import Verif.Model.Eth
import Verif.Model.Most
import Verif.Model.FlexRay

/-!
The names of bus groups and what they are used for: `IConfigAdapter::MakeGroupName` (/repo/mdflib/src/iconfigadapter.cpp), the configuration
adapters, and `SampleQueue::Save...Message` (/repo/mdflib/src/samplequeue.cpp), which look for a part of the name of the group.
-/

namespace Mdf

/-- `MessageFilter` (include/mdf/iconfigadapter.h lines 23-27) with `bus_channel_`, which is a `uint8_t`, and `message_id_` (lines 138-139). -/
inductive BusFilter where
  | noFilter
  | channel (channel : Byte)
  | messageId (channel : Byte) (id : BitVec 64)
deriving DecidableEq, Repr

/-- `name << bus_channel_`: a `uint8_t` is printed as a character. -/
def channelText (channel : Byte) : List Char := [Char.ofNat channel.toNat]

/-- The bus name used (iconfigadapter.cpp lines 333-339). -/
def usedBusName (bus : List Char) : List Char :=
  if bus = "FlexRay".toList ∨ bus = "FlxRay".toList then "FLX".toList
  else if containsName "CAN".toList bus then "CAN".toList
  else bus

/-- `IConfigAdapter::MakeGroupName` (iconfigadapter.cpp lines 330-359). -/
def makeGroupName (bus : List Char) (filter : BusFilter) (base : List Char) : List Char :=
  match filter with
  | .noFilter => usedBusName bus ++ '_' :: base
  | .channel c => usedBusName bus ++ (channelText c ++ '_' :: base)
  | .messageId c id => usedBusName bus ++ ((if 0 < c then channelText c else []) ++ '_' :: (base ++ '_' :: Nat.toDigits 10 id.toNat))

/-- canconfigadapter.cpp lines 32, 60, 75, 104. -/
def CanFrame.groupBase : CanFrame → List Char
  | .data => "DataFrame".toList
  | .remote => "RemoteFrame".toList
  | .error => "ErrorFrame".toList
  | .overload => "OverloadFrame".toList

/-- linconfigadapter.cpp lines 29, 39, 49, 59, 68, 78, 88, 98. -/
def LinKind.groupBase : LinKind → List Char
  | .frame => "Frame".toList
  | .wakeUp => "WakeUp".toList
  | .checksumError => "ChecksumError".toList
  | .transmissionError => "TransmissionError".toList
  | .syncError => "SyncError".toList
  | .receiveError => "ReceiveError".toList
  | .spike => "Spike".toList
  | .longDom => "LongDom".toList

/-- mostconfigadapter.cpp lines 43, 69, 96, 121, 133, 145, 158, 184, 196. -/
def MostKind.groupBase : MostKind → List Char
  | .message => "Message".toList
  | .packet => "Packet".toList
  | .ethernetPacket => "EthernetPacket".toList
  | .signalState => "SignalState".toList
  | .maxPosInfo => "MaxPosInfo".toList
  | .boundDesc => "BoundDesc".toList
  | .allocTable => "AllocTable".toList
  | .sysLockState => "SysLockState".toList
  | .shutdownFlag => "ShutdownFlag".toList

/-- flexrayconfigadapter.cpp lines 41, 67, 93, 120, 147, 174. -/
def FlxKind.groupBase : FlxKind → List Char
  | .frame => "Frame".toList
  | .pdu => "Pdu".toList
  | .frameHeader => "FrameHeader".toList
  | .nullFrame => "NullFrame".toList
  | .errorFrame => "ErrorFrame".toList
  | .symbol => "Symbol".toList

/-- The names of the Ethernet groups (ethconfigadapter.cpp lines 73, 96, 120, 144): without channel and identity. -/
def EthKind.groupName : EthKind → List Char
  | .frame => "ETH_Frame".toList
  | .checksumError => "ETH_ChecksumError".toList
  | .lengthError => "ETH_LengthError".toList
  | .receiveError => "ETH_ReceiveError".toList

/-- The texts `SaveCanMessage` looks for, in that order (samplequeue.cpp lines 191-203). -/
def CanFrame.text : CanFrame → List Char
  | .data => "_DataFrame".toList
  | .remote => "_RemoteFrame".toList
  | .error => "_ErrorFrame".toList
  | .overload => "_OverloadFrame".toList

/-- The kind of message `SaveCanMessage` makes for a group. -/
def canKindOf (group : List Char) : Option CanFrame :=
  [CanFrame.data, .remote, .error, .overload].find? fun k => containsName k.text group

/-- The texts `SaveEthMessage` looks for, in that order (samplequeue.cpp lines 255-266). -/
def EthKind.text : EthKind → List Char
  | .frame => "_Frame".toList
  | .checksumError => "_ChecksumError".toList
  | .lengthError => "_LengthError".toList
  | .receiveError => "_ReceiveError".toList

/-- The kind of message `SaveEthMessage` makes for a group. -/
def ethKindOf (group : List Char) : Option EthKind :=
  [EthKind.frame, .checksumError, .lengthError, .receiveError].find? fun k => containsName k.text group

/-- The texts `SaveMostMessage` looks for (samplequeue.cpp lines 273-327). -/
def MostKind.text : MostKind → List Char
  | .message => "_Message".toList
  | .packet => "_Packet".toList
  | .ethernetPacket => "_EthernetPacket".toList
  | .signalState => "_SignalState".toList
  | .maxPosInfo => "_MaxPosInfo".toList
  | .boundDesc => "_BoundDesc".toList
  | .allocTable => "_AllocTable".toList
  | .sysLockState => "_SysLockState".toList
  | .shutdownFlag => "_ShutdownFlag".toList

/-- A MOST message of this kind is stored in this group. -/
def mostAccepts (kind : MostKind) (group : List Char) : Bool := containsName kind.text group

/-- A FlexRay message of this kind is stored in this group (`FlxMsg.saveTo`). -/
def flxAccepts (kind : FlxKind) (group : List Char) : Bool := containsName kind.text group

end Mdf
