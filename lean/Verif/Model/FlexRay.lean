import Verif.Model.Bus

/-!
FlexRay messages: /repo/mdflib/src/flexraymessage.cpp and the channels of /repo/mdflib/src/flexrayconfigadapter.cpp.
-/

namespace Mdf

/-- flexraymessage.h lines 18-25 `enum class FlexRayMessageType`. -/
inductive FlxKind where
  | frame | pdu | frameHeader | nullFrame | errorFrame | symbol
deriving DecidableEq, Repr

/-- The members of `IFlexRayEvent`, `FlexRayFrame`, `FlexRayPdu`, `FlexRayErrorFrame` and `FlexRaySymbol` (flexraymessage.h); a message of one kind
uses some of them.  Enumerates are given by their numbers.  `length` is the length of a PDU or of a symbol. -/
structure FlxMsg where
  busChannel : Byte
  frameId : BitVec 16
  cycle : Byte
  channel : Byte
  direction : Byte
  data : Bytes
  payloadLength : Byte
  crc : BitVec 32
  headerCrc : BitVec 16
  reserved : Bool
  preamble : Bool
  nullFlag : Byte
  sync : Bool
  startup : Bool
  frameLength : BitVec 32
  length : Byte
  multiplexed : Bool
  switch : BitVec 16
  valid : Bool
  updateBitPos : BitVec 16
  byteOffset : Byte
  bitOffset : Byte
  syntaxError : Bool
  contentError : Bool
  boundaryError : Bool
  txConflict : Bool
  channelMask : Byte
  symbolType : Byte
deriving DecidableEq, Repr

/-- `FlexRayChannel()` in the record functions (flexraymessage.cpp line 55 and others) is not the member of the message (that is `Channel()`): it is a
new value of the type `enum class FlexRayChannel`, which is 0. -/
def flexRayChannelValue : Byte := 0
/-- `FlexRayChannelMask()` (flexraymessage.cpp line 305): the same for the type `enum class FlexRayChannelMask`. -/
def flexRayChannelMaskValue : Byte := 0

/-- The first writes (flexraymessage.cpp lines 53-56, 105-108, 154-157, 201-204, 248-251). -/
def FlxMsg.head (m : FlxMsg) : List BusOp :=
  [.set 8 m.busChannel, .raw 9 11 (m.frameId.setWidth 64), .set 11 (m.cycle &&& 0x3F#8), .or 11 ((flexRayChannelValue &&& 0x01#8) <<< 6)]

/-- The direction (flexraymessage.cpp line 57). -/
def FlxMsg.dirOp (m : FlxMsg) : List BusOp := [.or 11 ((m.direction &&& 0x01#8) <<< 7)]

/-- The checksums and the flags (flexraymessage.cpp lines 71-77, 174-180, 221-227, 268-274). -/
def FlxMsg.crcs (m : FlxMsg) : List BusOp :=
  [.raw 14 24 (m.crc.setWidth 64), .raw 17 16 (m.headerCrc.setWidth 64), .set 19 (if m.reserved then 1 else 0), .or 19 (flagBit m.preamble 1),
   .or 19 ((m.nullFlag &&& 0x01#8) <<< 2), .or 19 (flagBit m.sync 3), .or 19 (flagBit m.startup 4)]

/-- The writes of the functions `ToRaw` (flexraymessage.cpp lines 43-312).  `mandatory` is the setting of the data group. -/
def FlxMsg.ops (m : FlxMsg) (kind : FlxKind) (mandatory : Bool) : List BusOp :=
  match kind with
  | .frame =>
    m.head ++ m.dirOp ++ [.set 12 m.payloadLength, .set 13 (BitVec.ofNat 8 m.data.length)] ++ (if mandatory then [.raw 14 64 0] else
      m.crcs ++ [.raw 20 32 (m.frameLength.setWidth 64), .raw 24 64 0])
  | .pdu =>
    m.head ++ [.set 12 m.length, .set 13 (BitVec.ofNat 8 m.data.length)] ++ (if mandatory then [.raw 14 64 0] else
      [.set 14 (if m.multiplexed then 1 else 0), .or 14 (flagBit m.valid 1), .or 14 ((m.bitOffset &&& 0x07#8) <<< 2),
       .raw 15 16 (m.switch.setWidth 64), .raw 17 16 (m.updateBitPos.setWidth 64), .set 19 m.byteOffset, .raw 20 64 0])
  | .frameHeader =>
    m.head ++ m.dirOp ++ [.set 12 m.payloadLength] ++ (if mandatory then [] else
      [.set 13 (BitVec.ofNat 8 m.data.length)] ++ m.crcs ++ [.raw 20 32 (m.frameLength.setWidth 64), .raw 24 64 0])
  | .nullFrame =>
    m.head ++ m.dirOp ++ (if mandatory then [] else
      [.set 12 m.payloadLength, .set 13 (BitVec.ofNat 8 m.data.length)] ++ m.crcs ++
      [.raw 20 32 (m.frameLength.setWidth 64), .raw 24 64 0])
  | .errorFrame =>
    m.head ++ m.dirOp ++ (if mandatory then [] else
      [.set 12 m.payloadLength, .set 13 (BitVec.ofNat 8 m.data.length)] ++ m.crcs ++
      [.or 19 (flagBit m.syntaxError 5), .or 19 (flagBit m.contentError 6), .or 19 (flagBit m.boundaryError 7),
       .set 20 (if m.txConflict then 1 else 0), .or 20 (flagBit m.valid 1), .raw 21 32 (m.frameLength.setWidth 64), .raw 25 64 0])
  | .symbol =>
    [.set 8 m.busChannel, .set 9 (m.cycle &&& 0x3F#8), .or 9 ((flexRayChannelMaskValue &&& 0x03#8) <<< 6)] ++ (if mandatory then [] else
      [.set 10 m.length, .set 11 m.symbolType])

/-- The size of the record (flexraymessage.cpp lines 46, 98, 147, 194, 241, 295). -/
def flxSize (kind : FlxKind) (mandatory : Bool) : Nat :=
  match kind with
  | .frame => if mandatory then 24 else 34
  | .pdu => if mandatory then 24 else 28
  | .frameHeader => if mandatory then 13 else 34
  | .nullFrame => if mandatory then 12 else 34
  | .errorFrame => if mandatory then 12 else 35
  | .symbol => if mandatory then 10 else 12

/-- The variable length data (flexraymessage.cpp lines 61-62, 112-113, 160-167, 206-216, 253-263, 296-298). -/
def FlxMsg.var (m : FlxMsg) (kind : FlxKind) (mandatory : Bool) : BusVar :=
  match kind with
  | .frame | .pdu => .set m.data
  | .symbol => .clear
  | _ => if mandatory then .clear else .set m.data

/-- `ToRaw` of the classes (flexraymessage.cpp). -/
def FlxMsg.toRaw (m : FlxMsg) (kind : FlxKind) (mandatory : Bool) (s : CanSample) : Option CanSample :=
  busRecord (flxSize kind mandatory) (m.ops kind mandatory) (m.var kind mandatory) s

/-! ### The channels -/

/-- A FlexRay group as configured.  `mandatory` is `MandatoryMembersOnly` of the configuration adapter, given to the data group
(flexrayconfigadapter.cpp line 23). -/
structure FlxCfg where
  kind : FlxKind
  mandatory : Bool
deriving DecidableEq, Repr

/-- The members of the frames. -/
inductive FlxName where
  | busChannel | id | cycle | flxChannel | dir | payloadLength | dataLength | crc | headerCrc | reserved | preamble | nullFlag | sync | startup
  | frameLength | dataBytes | length | multiplexed | switch | valid | updateBitPos | byteOffset | bitOffset | syntaxError | contentError
  | boundaryError | txConflict | channelMask | symbolType
deriving DecidableEq, Repr

/-- The first channels (flexrayconfigadapter.cpp lines 205-208 and others). -/
def flxHead : List (FlxName × Chan) :=
  [(.busChannel, canBits 8 0 8), (.id, canBits 9 0 11), (.cycle, canBits 11 0 6), (.flxChannel, canBits 11 6 1)]

/-- The checksums and the flags (flexrayconfigadapter.cpp lines 224-230 and others). -/
def flxCrcs : List (FlxName × Chan) :=
  [(.crc, canBits 14 0 24), (.headerCrc, canBits 17 0 16), (.reserved, canBits 19 0 1), (.preamble, canBits 19 1 1), (.nullFlag, canBits 19 2 1),
   (.sync, canBits 19 3 1), (.startup, canBits 19 4 1)]

/-- The composition channels in the order of their creation (flexrayconfigadapter.cpp lines 184-479). -/
def FlxCfg.members (cfg : FlxCfg) : List (FlxName × Chan) :=
  match cfg.kind with
  | .frame =>
    flxHead ++ [(.dir, canBits 11 7 1), (.payloadLength, canBits 12 0 8), (.dataLength, canBits 13 0 8)] ++
    (if cfg.mandatory then [(.dataBytes, busVlsd 14)] else flxCrcs ++ [(.frameLength, canBits 20 0 32), (.dataBytes, busVlsd 24)])
  | .pdu =>
    flxHead ++ [(.length, canBits 12 0 8), (.dataLength, canBits 13 0 8)] ++
    (if cfg.mandatory then [(.dataBytes, busVlsd 14)] else
      [(.multiplexed, canBits 14 0 1), (.switch, canBits 15 0 16), (.valid, canBits 14 1 1), (.updateBitPos, canBits 17 0 12),
       (.byteOffset, canBits 19 0 8), (.bitOffset, canBits 14 2 3), (.dataBytes, busVlsd 20)])
  | .frameHeader =>
    flxHead ++ [(.dir, canBits 11 7 1), (.payloadLength, canBits 12 0 8)] ++
    (if cfg.mandatory then [] else [(.dataLength, canBits 13 0 8)] ++ flxCrcs ++ [(.frameLength, canBits 20 0 32), (.dataBytes, busVlsd 24)])
  | .nullFrame =>
    flxHead ++ [(.dir, canBits 11 7 1)] ++
    (if cfg.mandatory then [] else
      [(.payloadLength, canBits 12 0 8), (.dataLength, canBits 13 0 8)] ++ flxCrcs ++ [(.frameLength, canBits 20 0 32), (.dataBytes, busVlsd 24)])
  | .errorFrame =>
    flxHead ++ [(.dir, canBits 11 7 1)] ++
    (if cfg.mandatory then [] else
      [(.payloadLength, canBits 12 0 8), (.dataLength, canBits 13 0 8)] ++ flxCrcs ++
      [(.syntaxError, canBits 19 5 1), (.contentError, canBits 19 6 1), (.boundaryError, canBits 19 7 1), (.txConflict, canBits 20 0 1),
       (.valid, canBits 20 1 1), (.frameLength, canBits 21 0 32), (.dataBytes, busVlsd 25)])
  | .symbol =>
    [(.busChannel, canBits 8 0 8), (.cycle, canBits 9 0 6), (.channelMask, canBits 9 6 2)] ++
    (if cfg.mandatory then [] else [(.length, canBits 10 0 8), (.symbolType, canBits 11 0 2)])

/-- The number of bytes given to the frame channel (flexrayconfigadapter.cpp lines 194-198, 247-251, 294-298, 347-351, 399-403, 456-460). -/
def FlxCfg.frameBytes (cfg : FlxCfg) : Nat :=
  match cfg.kind with
  | .frame => if cfg.mandatory then 24 - 8 else 34 - 8
  | .pdu => if cfg.mandatory then 24 - 8 else 28 - 8
  | .frameHeader => if cfg.mandatory then 13 - 8 else 34 - 8
  | .nullFrame => if cfg.mandatory then 12 - 8 else 34 - 8
  | .errorFrame => if cfg.mandatory then 12 - 8 else 35 - 8
  | .symbol => if cfg.mandatory then 10 - 8 else 12 - 8

/-- The texts `SampleQueue::SaveFlexRayMessage` looks for (samplequeue.cpp lines 339-380). -/
def FlxKind.text : FlxKind → List Char
  | .frame => "_Frame".toList
  | .pdu => "_Pdu".toList
  | .frameHeader => "_FrameHeader".toList
  | .nullFrame => "_NullFrame".toList
  | .errorFrame => "_ErrorFrame".toList
  | .symbol => "_Symbol".toList

/-- `SampleQueue::SaveFlexRayMessage` (samplequeue.cpp lines 339-387): `none` inside is a message that is not stored. -/
def FlxMsg.saveTo (m : FlxMsg) (kind : FlxKind) (group : List Char) (mandatory : Bool) (s : CanSample) : Option (Option CanSample) :=
  if containsName kind.text group then (m.toRaw kind mandatory s).map some else some none

/-- The record of a message stored in a group of its kind. -/
def FlxCfg.save (cfg : FlxCfg) (m : FlxMsg) (s : CanSample) : Option CanSample := m.toRaw cfg.kind cfg.mandatory s

end Mdf
