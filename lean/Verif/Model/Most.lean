import Verif.Model.Bus

/-!
MOST messages: /repo/mdflib/src/mostmessage.cpp and the channels of /repo/mdflib/src/mostconfigadapter.cpp.
-/

namespace Mdf

/-- mostmessage.h lines 19-29 `enum class MostMessageType`. -/
inductive MostKind where
  | message | packet | ethernetPacket | signalState | maxPosInfo | boundDesc | allocTable | sysLockState | shutdownFlag
deriving DecidableEq, Repr

/-- The members of the classes of mostmessage.h (lines 166-302); a message of one kind uses some of them.  Enumerates are given by their numbers.
`flag` is `ring_is_closed_` or `shutdown_flag_`, `small` is `state_` or `device_count_`, `count` is `boundary_count_` or `free_byte_count_`, and
`data` is `data_bytes_` or `table_data_`. -/
structure MostMsg where
  busChannel : Byte
  speed : Byte
  transfer : Byte
  direction : Byte
  source : BitVec 64
  destination : BitVec 64
  specified : BitVec 16
  received : BitVec 16
  data : Bytes
  crc : BitVec 32
  completeAck : Byte
  preemptiveAck : Byte
  txAck : Byte
  packetIndex : Byte
  txFailed : Bool
  control : Byte
  small : Byte
  count : BitVec 16
  layout : Byte
  flag : Bool
deriving DecidableEq, Repr

/-- `MostEthernetPacket::DataBytes(std::vector)` (mostmessage.cpp lines 21-30).  The comparison is done in 32 bits, the assignment keeps 16. -/
def MostMsg.setData (m : MostMsg) (data : Bytes) : MostMsg :=
  let n := data.length % 2 ^ 32
  { m with
    data := data
    specified := if m.specified.toNat < n then BitVec.ofNat 16 n else m.specified
    received := if m.received.toNat < n then BitVec.ofNat 16 n else m.received }

/-- The bus channel and the mode (mostmessage.cpp lines 49-52, 93-96, 136-139). -/
def MostMsg.head (m : MostMsg) : List BusOp :=
  [.set 8 m.busChannel, .set 9 (m.speed &&& 0x03#8), .or 9 ((m.transfer &&& 0x01#8) <<< 2), .or 9 ((m.direction &&& 0x01#8) <<< 3)]

/-- The addresses and lengths of packets and messages (mostmessage.cpp lines 97-101, 140-144). -/
def MostMsg.short (m : MostMsg) : List BusOp :=
  [.raw 10 16 m.source, .raw 12 16 m.destination, .raw 14 16 (m.specified.setWidth 64), .raw 16 16 (m.received.setWidth 64),
   .raw 18 16 (BitVec.ofNat 64 m.data.length)]

/-- The writes of the functions `ToRaw` (mostmessage.cpp lines 41-294).  `mandatory` is the setting of the data group. -/
def MostMsg.ops (m : MostMsg) (kind : MostKind) (mandatory : Bool) : List BusOp :=
  match kind with
  | .ethernetPacket =>
    m.head ++ [.raw 10 48 m.source, .raw 16 48 m.destination, .raw 22 16 (m.specified.setWidth 64), .raw 24 16 (m.received.setWidth 64),
      .raw 26 16 (BitVec.ofNat 64 m.data.length)] ++ (if mandatory then [.raw 28 64 0] else
      [.raw 28 32 (m.crc.setWidth 64), .set 32 (m.completeAck &&& 0x07#8), .or 32 ((m.preemptiveAck &&& 0x07#8) <<< 3), .set 33 m.txAck,
       .raw 34 64 0])
  | .packet =>
    m.head ++ m.short ++ (if mandatory then [.raw 20 64 0] else
      [.raw 20 32 (m.crc.setWidth 64), .set 24 (m.completeAck &&& 0x07#8), .or 24 ((m.preemptiveAck &&& 0x07#8) <<< 3), .set 25 m.txAck,
       .set 26 m.packetIndex, .raw 27 64 0])
  | .message =>
    m.head ++ m.short ++ (if mandatory then [.raw 20 64 0] else
      [.raw 20 32 (m.crc.setWidth 64), .set 24 (m.completeAck &&& 0x07#8), .or 24 ((m.preemptiveAck &&& 0x07#8) <<< 3),
       .or 24 (((if m.txFailed then 1#8 else 0#8) &&& 0x01#8) <<< 6), .set 25 (m.txAck &&& 0x0F#8), .or 25 ((m.control &&& 0x0F#8) <<< 4),
       .set 26 m.packetIndex, .raw 27 64 0])
  | .signalState | .maxPosInfo => [.set 8 m.busChannel, .set 9 m.small]
  | .boundDesc => [.set 8 m.busChannel, .raw 9 16 (m.count.setWidth 64)]
  | .allocTable =>
    [.set 8 m.busChannel, .raw 9 16 (m.count.setWidth 64), .set 11 m.layout, .raw 12 16 ((BitVec.ofNat 16 m.data.length).setWidth 64),
     .raw 14 64 0]
  | .sysLockState | .shutdownFlag => [.set 8 m.busChannel, .set 9 (if m.flag then 1 else 0)]

/-- The size of the record (mostmessage.cpp lines 44, 88, 131, 175, 192, 210, 236, 266, 284). -/
def mostSize (kind : MostKind) (mandatory : Bool) : Nat :=
  match kind with
  | .ethernetPacket => if mandatory then 36 else 42
  | .packet | .message => if mandatory then 28 else 35
  | .boundDesc => 11
  | .allocTable => 22
  | _ => 10

/-- The variable length data (mostmessage.cpp lines 59-60, 103-104, 146-147, 248-249, and `clear` in the others). -/
def MostMsg.var (m : MostMsg) (kind : MostKind) : BusVar :=
  match kind with
  | .ethernetPacket | .packet | .message | .allocTable => .set m.data
  | _ => .clear

/-- `ToRaw` of the classes (mostmessage.cpp). -/
def MostMsg.toRaw (m : MostMsg) (kind : MostKind) (mandatory : Bool) (s : CanSample) : Option CanSample :=
  busRecord (mostSize kind mandatory) (m.ops kind mandatory) (m.var kind) s

/-! ### The channels -/

/-- A MOST group as configured.  `mandatory` is `MandatoryMembersOnly` of the configuration adapter, given to the data group
(mostconfigadapter.cpp line 22). -/
structure MostCfg where
  kind : MostKind
  mandatory : Bool
deriving DecidableEq, Repr

/-- The members of the frames. -/
inductive MostName where
  | busChannel | speed | transfer | dir | source | destination | specified | received | dataLength | crc | completeAck | preemptiveAck | txAck
  | packetIndex | txFailed | control | dataBytes | state | deviceCount | sbc | freeBytes | tableLayout | tableLength | tableData | lockState
  | shutdown
deriving DecidableEq, Repr

/-- `CreateMandatoryMembers` (mostconfigadapter.cpp lines 432-443). -/
def mostShort : List (MostName × Chan) :=
  [(.busChannel, canBits 8 0 8), (.speed, canBits 9 0 2), (.transfer, canBits 9 2 1), (.dir, canBits 9 3 1), (.source, canBits 10 0 16),
   (.destination, canBits 12 0 16), (.specified, canBits 14 0 16), (.received, canBits 16 0 16), (.dataLength, canBits 18 0 16)]

/-- The composition channels in the order of their creation (mostconfigadapter.cpp lines 206-430 with the helpers of lines 445-760). -/
def MostCfg.members (cfg : MostCfg) : List (MostName × Chan) :=
  match cfg.kind with
  | .ethernetPacket =>
    [(.busChannel, canBits 8 0 8), (.speed, canBits 9 0 2), (.transfer, canBits 9 2 1), (.dir, canBits 9 3 1), (.source, canBits 10 0 48),
     (.destination, canBits 16 0 48), (.specified, canBits 22 0 16), (.received, canBits 24 0 16), (.dataLength, canBits 26 0 16)] ++
    (if cfg.mandatory then [(.dataBytes, busVlsd 28)] else
      [(.crc, canBits 28 0 32), (.completeAck, canBits 32 0 3), (.preemptiveAck, canBits 32 3 3), (.txAck, canBits 33 0 4),
       (.dataBytes, busVlsd 34)])
  | .packet =>
    mostShort ++ (if cfg.mandatory then [(.dataBytes, busVlsd 20)] else
      [(.crc, canBits 20 0 32), (.completeAck, canBits 24 0 3), (.preemptiveAck, canBits 24 3 3), (.txAck, canBits 25 0 4),
       (.packetIndex, canBits 26 0 8), (.dataBytes, busVlsd 27)])
  | .message =>
    mostShort ++ (if cfg.mandatory then [(.dataBytes, busVlsd 20)] else
      [(.txFailed, canBits 24 6 1), (.crc, canBits 20 0 32), (.completeAck, canBits 24 0 3), (.preemptiveAck, canBits 24 3 3),
       (.txAck, canBits 25 0 4), (.packetIndex, canBits 26 0 8), (.control, canBits 25 4 4), (.dataBytes, busVlsd 27)])
  | .signalState => [(.busChannel, canBits 8 0 8), (.state, canBits 9 0 8)]
  | .maxPosInfo => [(.busChannel, canBits 8 0 8), (.deviceCount, canBits 9 0 8)]
  | .boundDesc => [(.busChannel, canBits 8 0 8), (.sbc, canBits 9 0 16)]
  | .allocTable =>
    [(.busChannel, canBits 8 0 8), (.freeBytes, canBits 9 0 16), (.tableLayout, canBits 11 0 8), (.tableLength, canBits 12 0 16),
     (.tableData, busVlsd 14)]
  | .sysLockState => [(.busChannel, canBits 8 0 8), (.lockState, canBits 9 0 1)]
  | .shutdownFlag => [(.busChannel, canBits 8 0 8), (.shutdown, canBits 9 0 1)]

/-- The number of bytes given to the frame channel (mostconfigadapter.cpp lines 216-220, 256-260, 289-293, 324, 343, 362, 381, 403, 422). -/
def MostCfg.frameBytes (cfg : MostCfg) : Nat :=
  match cfg.kind with
  | .ethernetPacket => if cfg.mandatory then 36 - 8 else 42 - 8
  | .packet | .message => if cfg.mandatory then 28 - 8 else 35 - 8
  | .boundDesc => 11 - 8
  | .allocTable => 22 - 8
  | _ => 10 - 8

/-- The record of a message stored in a group of its kind: `SampleQueue::SaveMostMessage` (samplequeue.cpp lines 271-337). -/
def MostCfg.save (cfg : MostCfg) (m : MostMsg) (s : CanSample) : Option CanSample := m.toRaw cfg.kind cfg.mandatory s

end Mdf
