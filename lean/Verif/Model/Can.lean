import Verif.Model.Channel

/-!
CAN messages.

Models /repo/mdflib/src/canmessage.cpp (the message and its sample record), /repo/mdflib/src/canconfigadapter.cpp (the channels
of the CAN groups), `IChannelGroup::GetChannel` (/repo/mdflib/src/ichannelgroup.cpp) and
/repo/mdflib/src/canbusobserver.cpp (reading the messages back).

`none` is undefined behaviour (access outside the record).
-/

namespace Mdf

/-- canmessage.h lines 29-35 `enum class MessageType`. -/
inductive CanFrame where
  | data | remote | error | overload
deriving DecidableEq, Repr

/-- `enum class MdfStorageType`. -/
inductive CanStore where
  | fixed | vlsd | mlsd
deriving DecidableEq, Repr

/-- The members of `CanMessage` (canmessage.h lines 198-212).  `errorType` is the `uint8_t` behind the enumerate.  The time
stamp is part of the sample, not of the message. -/
structure CanMsg where
  busChannel : Byte
  messageId : BitVec 32
  dlc : Byte
  dir : Bool
  srr : Bool
  edl : Bool
  brs : Bool
  esi : Bool
  wakeUp : Bool
  singleWire : Bool
  rtr : Bool
  r0 : Bool
  r1 : Bool
  data : Bytes
  bitPosition : BitVec 16
  errorType : Byte
  duration : BitVec 32
  crc : BitVec 32
deriving DecidableEq, Repr

/-- A new message: the initial values of the members (canmessage.h lines 198-212). -/
def CanMsg.init : CanMsg :=
  { busChannel := 0, messageId := 0, dlc := 0, dir := false, srr := false, edl := false, brs := false, esi := false,
    wakeUp := false, singleWire := false, rtr := false, r0 := false, r1 := false, data := [], bitPosition := 0,
    errorType := 0, duration := 0, crc := 0 }

/-- canmessage.cpp lines 30-31 `kDataLengthCode`. -/
def kDataLengthCode : List Nat := [0, 1, 2, 3, 4, 5, 6, 7, 8, 12, 16, 20, 24, 32, 48, 64]

/-- `CanMessage::MessageId` (canmessage.cpp lines 37-43). -/
def CanMsg.setMessageId (m : CanMsg) (id : BitVec 32) : CanMsg :=
  { m with messageId := if id.toNat > 0x7FF then id ||| 0x80000000#32 else id }

/-- `CanMessage::CanId` (canmessage.cpp line 47). -/
def CanMsg.canId (m : CanMsg) : BitVec 32 := m.messageId &&& ~~~0x80000000#32

/-- `CanMessage::ExtendedId` (canmessage.cpp lines 49-55). -/
def CanMsg.setExtended (m : CanMsg) (extended : Bool) : CanMsg :=
  { m with messageId := if extended then m.messageId ||| 0x80000000#32 else m.messageId &&& ~~~0x80000000#32 }

/-- `CanMessage::ExtendedId` (canmessage.cpp lines 57-59). -/
def CanMsg.extended (m : CanMsg) : Bool := m.messageId &&& 0x80000000#32 ≠ 0

/-- `CanMessage::Dlc` (canmessage.cpp line 65). -/
def CanMsg.getDlc (m : CanMsg) : Byte := m.dlc &&& 0x0F

/-- The loop of `CanMessage::DataLength` (canmessage.cpp lines 72-78): the number of codes passed. -/
def dlcLoop (length : Nat) : List Nat → Nat
  | [] => 0
  | size :: sizes => if length ≤ size then 0 else dlcLoop length sizes + 1

/-- `std::vector<uint8_t>::resize(n)`. -/
def resizeBytes (b : Bytes) (n : Nat) : Bytes := b.take n ++ List.replicate (n - b.length) 0

/-- `CanMessage::DataLength(uint8_t)` (canmessage.cpp lines 67-80). -/
def CanMsg.setDataLength (m : CanMsg) (length : Byte) : CanMsg :=
  { m with data := resizeBytes m.data length.toNat, dlc := BitVec.ofNat 8 (dlcLoop length.toNat kDataLengthCode) }

/-- `CanMessage::DataLength()` (canmessage.cpp lines 82-84). -/
def CanMsg.dataLength (m : CanMsg) : Byte := BitVec.ofNat 8 m.data.length

/-- `CanMessage::DataBytes(std::vector)` (canmessage.cpp lines 86-89). -/
def CanMsg.setData (m : CanMsg) (data : Bytes) : CanMsg :=
  { m.setDataLength (BitVec.ofNat 8 data.length) with data := data }

/-- `CanMessage::DlcToLength` (canmessage.cpp lines 223-225). -/
def dlcToLength (dlc : Byte) : Nat := kDataLengthCode.getD dlc.toNat 0

/-! ### The sample record -/

/-- The parts of `SampleRecord` (samplerecord.h) that are set: the record and the variable length data. -/
structure CanSample where
  record : Bytes
  vlsdData : Bool
  vlsdBuffer : Bytes
deriving DecidableEq, Repr

/-- `record[i] |= b`. -/
def orByte (record : Bytes) (i : Nat) (b : Byte) : Option Bytes := do
  let x ← rdByte record i
  wrByte record i (x ||| b)

/-- `(flag ? 0x01 : 0x00) << k`. -/
def flagBit (flag : Bool) (k : Nat) : Byte := (if flag then 1#8 else 0#8) <<< k

/-- `MdfHelper::UnsignedToRaw(true, 0, bits, value, record.data() + off)`. -/
def rawAt (record : Bytes) (off bits : Nat) (value : BitVec 64) : Option Bytes := do
  let t ← unsignedToRaw true 0 bits value (record.drop off)
  some (record.take off ++ t)

/-- `for (index = 0; index < max_data_length; ++index) record[off + index] = index < data.size() ? data[index] : 0xFF`
(canmessage.cpp lines 262-265, 292-295, 351-354), with `n` iterations left. -/
def fillLoop (off : Nat) (data : Bytes) : (n index : Nat) → Bytes → Option Bytes
  | 0, _, record => some record
  | n + 1, index, record => do
    let record ← wrByte record (off + index : Nat) (data.getD index 0xFF)
    fillLoop off data n (index + 1) record

/-- The data bytes at the end of the record (canmessage.cpp lines 251-266, 281-296, 340-355). -/
def CanMsg.storeData (m : CanMsg) (saveIndex : Bool) (off maxLen : Nat) (record : Bytes) : Option CanSample := do
  if saveIndex then
    let record ← rawAt record off 64 0
    some { record := record, vlsdData := true, vlsdBuffer := m.data }
  else
    let record ← fillLoop off m.data maxLen 0 record
    some { record := record, vlsdData := false, vlsdBuffer := [] }

/-- `CanMessage::ToRaw` for data frames (canmessage.cpp lines 239-298). -/
def CanMsg.toRawData (m : CanMsg) (mandatory saveIndex : Bool) (maxLen : Nat) (s : CanSample) : Option CanSample := do
  let size := (if mandatory then 23 - 8 else 32 - 8) + (if saveIndex then 8 else maxLen)
  let record := resizeBytes s.record size
  let record ← wrByte record 8 m.busChannel
  let record ← rawAt record 9 32 (m.messageId.setWidth 64)
  let record ← wrByte record 13 m.getDlc
  let record ← wrByte record 14 m.dataLength
  if mandatory then m.storeData saveIndex 15 maxLen record
  else
    let record ← orByte record 13 (flagBit m.dir 4)
    let record ← orByte record 13 (flagBit m.srr 5)
    let record ← orByte record 13 (flagBit m.edl 6)
    let record ← orByte record 13 (flagBit m.brs 7)
    let record ← wrByte record 15 (flagBit m.esi 0)
    let record ← orByte record 15 (flagBit m.wakeUp 1)
    let record ← orByte record 15 (flagBit m.singleWire 2)
    let record ← orByte record 15 (flagBit m.r0 3)
    let record ← orByte record 15 (flagBit m.r1 4)
    let record ← rawAt record 16 32 (m.duration.setWidth 64)
    let record ← rawAt record 20 32 (m.crc.setWidth 64)
    m.storeData saveIndex 24 maxLen record

/-- `CanMessage::ToRaw` for remote frames (canmessage.cpp lines 300-320). -/
def CanMsg.toRawRemote (m : CanMsg) (mandatory : Bool) (s : CanSample) : Option CanSample := do
  let record := resizeBytes s.record (if mandatory then 15 else 24)
  let record ← wrByte record 8 m.busChannel
  let record ← rawAt record 9 32 (m.messageId.setWidth 64)
  let record ← wrByte record 13 (m.getDlc &&& 0x0F)
  let record ← wrByte record 14 m.dataLength
  if mandatory then some { s with record := record }
  else
    let record ← orByte record 13 (flagBit m.dir 4)
    let record ← orByte record 13 (flagBit m.srr 5)
    let record ← orByte record 13 (flagBit m.wakeUp 6)
    let record ← orByte record 13 (flagBit m.singleWire 7)
    let record ← wrByte record 15 (flagBit m.r0 0)
    let record ← orByte record 15 (flagBit m.r1 1)
    let record ← rawAt record 16 32 (m.duration.setWidth 64)
    let record ← rawAt record 20 32 (m.crc.setWidth 64)
    some { s with record := record }

/-- `CanMessage::ToRaw` for error frames (canmessage.cpp lines 322-357); here the record is only enlarged. -/
def CanMsg.toRawError (m : CanMsg) (saveIndex : Bool) (maxLen : Nat) (s : CanSample) : Option CanSample := do
  let size := 34 - 8 + (if saveIndex then 8 else maxLen)
  let record := if s.record.length < size then resizeBytes s.record size else s.record
  let record ← wrByte record 8 m.busChannel
  let record ← rawAt record 9 32 (m.messageId.setWidth 64)
  let record ← wrByte record 13 (m.getDlc &&& 0x0F)
  let record ← wrByte record 14 m.dataLength
  let record ← orByte record 13 (flagBit m.dir 4)
  let record ← orByte record 13 (flagBit m.srr 5)
  let record ← orByte record 13 (flagBit m.edl 6)
  let record ← orByte record 13 (flagBit m.brs 7)
  let record ← wrByte record 15 (flagBit m.esi 0)
  let record ← orByte record 15 (flagBit m.wakeUp 1)
  let record ← orByte record 15 (flagBit m.singleWire 2)
  let record ← orByte record 15 (flagBit m.r0 3)
  let record ← orByte record 15 (flagBit m.r1 4)
  let record ← orByte record 15 ((m.errorType &&& 0x07) <<< 5)
  let record ← rawAt record 16 32 (m.duration.setWidth 64)
  let record ← rawAt record 20 16 (m.bitPosition.setWidth 64)
  let record ← rawAt record 22 32 (m.crc.setWidth 64)
  m.storeData saveIndex 26 maxLen record

/-- `CanMessage::ToRaw` for overload frames (canmessage.cpp lines 360-367). -/
def CanMsg.toRawOverload (m : CanMsg) (s : CanSample) : Option CanSample := do
  let record := resizeBytes s.record 10
  let record ← wrByte record 8 m.busChannel
  let record ← wrByte record 9 (flagBit m.dir 0)
  some { s with record := record }

/-- `CanMessage::ToRaw` (canmessage.cpp lines 227-373).  `mandatory` is the setting of the data group. -/
def CanMsg.toRaw (m : CanMsg) (frame : CanFrame) (mandatory saveIndex : Bool) (maxDataLength : Nat) (s : CanSample) :
    Option CanSample :=
  let maxLen := if maxDataLength < 8 then 8 else maxDataLength
  match frame with
  | .data => m.toRawData mandatory saveIndex maxLen s
  | .remote => m.toRawRemote mandatory s
  | .error => m.toRawError saveIndex maxLen s
  | .overload => m.toRawOverload s

/-! ### The channels of a CAN group -/

/-- A CAN group as configured: the kind of frames, and the settings of the writer (`MandatoryMembersOnly`, `StorageType`,
`MaxLength`). -/
structure CanCfg where
  frame : CanFrame
  mandatory : Bool
  store : CanStore
  writerMax : Nat
deriving DecidableEq, Repr

/-- `MaxLength` of the group: `CanConfigAdapter::CreateConfig` (canconfigadapter.cpp lines 25-27) and the setter
`IChannelGroup::MaxLength` (ichannelgroup.h lines 172-174). -/
def CanCfg.groupMax (cfg : CanCfg) : Nat := if cfg.writerMax < 8 then 8 else cfg.writerMax

/-- The name of the frame channel, also `base_name_` of the observer (canbusobserver.cpp lines 23-35). -/
def CanFrame.base : CanFrame → String
  | .data => "CAN_DataFrame"
  | .remote => "CAN_RemoteFrame"
  | .error => "CAN_ErrorFrame"
  | .overload => "CAN_OverloadFrame"

/-- `IConfigAdapter::CreateBitChannel` and `CreateBitsChannel` (iconfigadapter.cpp lines 292-320) and `CreateBusChannel`
(lines 352-380). -/
def canBits (byteOffset bitOffset bitCount : Nat) : Chan :=
  { type := .fixedLength, dataType := .unsignedLe, byteOffset := byteOffset, bitOffset := bitOffset, bitCount := bitCount,
    invalidFlag := false, invalidPos := 0, nofDataBytes := 0, arraySize := 1 }

/-- `CanConfigAdapter::CreateDataBytesChannel` (canconfigadapter.cpp lines 286-314). -/
def CanCfg.dataChan (cfg : CanCfg) (byteOffset : Nat) : Chan :=
  { canBits byteOffset 0 (if cfg.store = .mlsd then 8 * cfg.writerMax else 64) with
    type := if cfg.store = .mlsd then .maxLength else .variableLength, dataType := .byteArray }

/-- The members of the frames; `str` is the name of the channel without the base name (canconfigadapter.cpp lines 142-171, 192-214,
237-264, 282-283). -/
inductive CanName where
  | busChannel | id | ide | dlc | dataLength | dataBytes | dir | srr | edl | brs | esi | wakeUp | singleWire | r0 | r1 | errorType | frameDuration | bitPosition | crc
deriving DecidableEq, Repr

/-- The name in the file. -/
def CanName.str : CanName → String
  | .busChannel => "BusChannel"
  | .id => "ID"
  | .ide => "IDE"
  | .dlc => "DLC"
  | .dataLength => "DataLength"
  | .dataBytes => "DataBytes"
  | .dir => "Dir"
  | .srr => "SRR"
  | .edl => "EDL"
  | .brs => "BRS"
  | .esi => "ESI"
  | .wakeUp => "WakeUp"
  | .singleWire => "SingleWire"
  | .r0 => "R0"
  | .r1 => "R1"
  | .errorType => "ErrorType"
  | .frameDuration => "FrameDuration"
  | .bitPosition => "BitPosition"
  | .crc => "CRC"

/-- The composition channels in the order of their creation, the name without the base name
(canconfigadapter.cpp lines 142-171, 192-214, 237-264, 282-283). -/
def CanCfg.members (cfg : CanCfg) : List (CanName × Chan) :=
  match cfg.frame, cfg.mandatory with
  | .data, true =>
    [(.busChannel, canBits 8 0 8), (.id, canBits 9 0 29), (.ide, canBits 12 7 1), (.dlc, canBits 13 0 4),
     (.dataLength, canBits 14 0 8), (.dataBytes, cfg.dataChan 15)]
  | .data, false =>
    [(.busChannel, canBits 8 0 8), (.id, canBits 9 0 29), (.ide, canBits 12 7 1), (.dlc, canBits 13 0 4),
     (.dataLength, canBits 14 0 8), (.dir, canBits 13 4 1), (.srr, canBits 13 5 1), (.edl, canBits 13 6 1),
     (.brs, canBits 13 7 1), (.esi, canBits 15 0 1), (.wakeUp, canBits 15 1 1), (.singleWire, canBits 15 2 1),
     (.r0, canBits 15 3 1), (.r1, canBits 15 4 1), (.frameDuration, canBits 16 0 32), (.crc, canBits 20 0 32),
     (.dataBytes, cfg.dataChan 24)]
  | .remote, true =>
    [(.busChannel, canBits 8 0 8), (.id, canBits 9 0 29), (.ide, canBits 12 7 1), (.dlc, canBits 13 0 4),
     (.dataLength, canBits 14 0 8)]
  | .remote, false =>
    [(.busChannel, canBits 8 0 8), (.id, canBits 9 0 29), (.ide, canBits 12 7 1), (.dlc, canBits 13 0 4),
     (.dataLength, canBits 14 0 8), (.dir, canBits 13 4 1), (.srr, canBits 13 5 1), (.wakeUp, canBits 13 6 1),
     (.singleWire, canBits 13 7 1), (.r0, canBits 15 0 1), (.r1, canBits 15 1 1),
     (.frameDuration, canBits 16 0 32), (.crc, canBits 20 0 32)]
  | .error, _ =>
    [(.busChannel, canBits 8 0 8), (.id, canBits 9 0 29), (.ide, canBits 12 7 1), (.dlc, canBits 13 0 4),
     (.dataLength, canBits 14 0 8), (.dir, canBits 13 4 1), (.srr, canBits 13 5 1), (.edl, canBits 13 6 1),
     (.brs, canBits 13 7 1), (.esi, canBits 15 0 1), (.wakeUp, canBits 15 1 1), (.singleWire, canBits 15 2 1),
     (.r0, canBits 15 3 1), (.r1, canBits 15 4 1), (.errorType, canBits 15 5 3), (.frameDuration, canBits 16 0 32),
     (.bitPosition, canBits 20 0 16), (.crc, canBits 22 0 32), (.dataBytes, cfg.dataChan 26)]
  | .overload, _ => [(.busChannel, canBits 8 0 8), (.dir, canBits 9 0 1)]

/-- The number of bytes given to the frame channel (canconfigadapter.cpp lines 123-135, 184, 227-231, 276). -/
def CanCfg.frameBytes (cfg : CanCfg) : Nat :=
  match cfg.frame with
  | .data =>
    if cfg.store = .mlsd then (if cfg.mandatory then 23 - 16 else 32 - 16) + cfg.writerMax
    else if cfg.mandatory then 23 - 8 else 32 - 8
  | .remote => if cfg.mandatory then 15 - 8 else 24 - 8
  | .error => if cfg.store = .mlsd then (34 - 16) + cfg.writerMax else 34 - 8
  | .overload => 2

/-- The time channel (`IConfigAdapter::CreateTimeChannel`, iconfigadapter.cpp lines 114-143). -/
def canTime : Chan := { canBits 0 0 64 with type := .master, dataType := .floatLe }

/-- The channels of the group that are laid out by `Cg4Block::PrepareForWriting`: the time and the frame.  The composition
channels keep their offsets. -/
def CanCfg.topLevel (cfg : CanCfg) : List Chan :=
  [canTime, { canBits 0 0 (8 * cfg.frameBytes) with dataType := .byteArray }]

/-- The names of all channels in the order of `Cg4Block::Channels` (cg4block.cpp lines 345-358): the time, the frame and its
members. -/
def CanCfg.channels (cfg : CanCfg) : List (String × Chan) :=
  ("t", canTime) :: (cfg.frame.base, { canBits 8 0 (8 * cfg.frameBytes) with dataType := .byteArray })
    :: cfg.members.map fun c => (cfg.frame.base ++ "." ++ c.1.str, c.2)

/-- `std::string::find(name) != npos`. -/
def containsName (pat : List Char) : List Char → Bool
  | [] => pat.isEmpty
  | c :: cs => pat.isPrefixOf (c :: cs) || containsName pat cs

/-- `IChannelGroup::GetChannel` (ichannelgroup.cpp lines 59-71): the first channel whose name *contains* the given name. -/
def CanCfg.getChannel (cfg : CanCfg) (name : String) : Option Chan :=
  (cfg.channels.find? fun c => containsName name.toList c.1.toList).map (·.2)

/-! ### Reading -/

/-- The result of `ISampleObserver::GetChannelValue` into a variable that was set to zero: the value of an unsigned channel,
zero on failure (isampleobserver.h lines 108-149, ichannel.h lines 633-645). -/
def canValue (c : Chan) (record : Bytes) : Nat :=
  match c.getUnsigned record 0 with
  | .ok v => v.toNat
  | _ => 0

/-- `Cn4Block::GetByteArrayValue` (cn4block.cpp lines 754-806) of an MLSD channel whose length channel is known: the number of bytes
is that of the length channel; zeros if they are not inside the record. -/
def mlsdBytes (c len : Chan) (record : Bytes) : Bytes :=
  let n := canValue len record
  if c.byteOffset + n ≤ record.length then (record.drop c.byteOffset).take n else List.replicate n 0

/-- The channel pointers of the observer: `CanBusObserver::GetChannel` (canbusobserver.cpp lines 260-268). -/
def CanCfg.observed (cfg : CanCfg) (sub : String) : Option Chan := cfg.getChannel (cfg.frame.base ++ "." ++ sub)

/-- One `if (channel != nullptr) { .. GetChannelValue(..); msg.Set(value); }` of `ParseCanMessage`. -/
def CanCfg.take (cfg : CanCfg) (record : Bytes) (sub : String) (set : CanMsg → Nat → CanMsg) (m : CanMsg) : CanMsg :=
  match cfg.observed sub with
  | some c => set m (canValue c record)
  | none => m

/-- The data bytes (canbusobserver.cpp lines 317-346).  `var` is the variable length data: the record of the VLSD group, or the
bytes found in the signal data. -/
def CanCfg.takeData (cfg : CanCfg) (record var : Bytes) (m : CanMsg) : CanMsg :=
  match cfg.observed "DataBytes" with
  | none => m
  | some c =>
    if cfg.store = .mlsd then
      match cfg.getChannel ".DataLength" with
      | some len => m.setData ((mlsdBytes c len record).take m.dataLength.toNat)
      | none => m
    else m.setData var

/-- `CanBusObserver::ParseCanMessage` (canbusobserver.cpp lines 275-421) with the channels looked up in the constructor
(lines 70-87).  None of the channels has a conversion, so the engineering values are the channel values, and the numbers of at most 32
bits are exact as `double`.  The time is not modelled.  (`"RO"` and the last line are what the code does.) -/
def CanCfg.parse (cfg : CanCfg) (record var : Bytes) : CanMsg :=
  let m := CanMsg.init
  let m := cfg.take record "BusChannel" (fun m v => { m with busChannel := BitVec.ofNat 8 v }) m
  let m := cfg.take record "ID" (fun m v => m.setMessageId (BitVec.ofNat 32 v)) m
  let m := cfg.take record "IDE" (fun m v => m.setExtended (v ≠ 0)) m
  let m := cfg.take record "DLC" (fun m v => { m with dlc := BitVec.ofNat 8 v }) m
  let m := cfg.take record "DataLength" (fun m v => m.setDataLength (BitVec.ofNat 8 v)) m
  let m := cfg.takeData record var m
  let m := cfg.take record "Dir" (fun m v => { m with dir := v ≠ 0 }) m
  let m := cfg.take record "CRC" (fun m v => { m with crc := BitVec.ofNat 32 v }) m
  let m := cfg.take record "SRR" (fun m v => { m with srr := v ≠ 0 }) m
  let m := cfg.take record "EDL" (fun m v => { m with edl := v ≠ 0 }) m
  let m := cfg.take record "BRS" (fun m v => { m with brs := v ≠ 0 }) m
  let m := cfg.take record "ESI" (fun m v => { m with esi := v ≠ 0 }) m
  let m := cfg.take record "RO" (fun m v => { m with r0 := v ≠ 0 }) m
  let m := cfg.take record "R1" (fun m v => { m with r1 := v ≠ 0 }) m
  let m := cfg.take record "WakeUp" (fun m v => { m with wakeUp := v ≠ 0 }) m
  let m := cfg.take record "SingleWire" (fun m v => { m with singleWire := v ≠ 0 }) m
  let m := cfg.take record "FrameDuration" (fun m v => { m with duration := BitVec.ofNat 32 v }) m
  cfg.take record "BitPosition" (fun m v => { m with duration := BitVec.ofNat 32 (v % 2 ^ 16) }) m

/-- The storage type of a group that has been read from a file is found from the data link of its channels
(hd4block.cpp lines 222-282): groups without data bytes have `FixedLengthStorage`. -/
def CanCfg.readStore (cfg : CanCfg) : CanStore :=
  match cfg.frame with
  | .data | .error => cfg.store
  | _ => .fixed

/-- A CAN bus observer: the group (`cfg`, its record id, that of its VLSD group), the number of samples, and how the signal data
of the channel is found for a record (`FixedLengthStorage`). -/
structure CanObsCfg where
  cfg : CanCfg
  id : Nat
  vlsdId : Option Nat
  nof : Nat
  signal : Bytes → Bytes

/-- The members of `CanBusObserver` that change: `current_sample_index_` (`none` for -1), `last_sample_` and
`sample_buffer_`. -/
structure CanObs where
  current : Option Nat
  record : Bytes
  vlsd : Bytes
  buffer : List (Option CanMsg)

/-- A new observer; the buffer gets its size with the first sample (canbusobserver.cpp lines 220-233). -/
def CanObsCfg.start (o : CanObsCfg) : CanObs :=
  { current := none, record := [], vlsd := [], buffer := List.replicate o.nof none }

/-- The parsed message put in the buffer (canbusobserver.cpp lines 165-170). -/
def CanObsCfg.put (o : CanObsCfg) (st : CanObs) (sample : Nat) : CanObs :=
  { st with buffer := st.buffer.set sample (some (o.cfg.parse st.record (if o.cfg.readStore = .fixed then o.signal st.record else st.vlsd))) }

/-- `new_sample_` (canbusobserver.cpp lines 109-116). -/
def CanObs.isNew (st : CanObs) (sample : Nat) : Bool :=
  match st.current with
  | none => true
  | some c => decide (sample > c)

/-- `CanBusObserver::OnSample` and `HandleSample` without a callback (canbusobserver.cpp lines 94-132, 160-218); the flag is the
result.  `last_sample_.sample` is the current sample index. -/
def CanObsCfg.onSample (o : CanObsCfg) (st : CanObs) (sample id : Nat) (record : Bytes) : CanObs × Bool :=
  if o.nof = 0 ∨ ¬ (id = o.id ∨ some id = o.vlsdId) then (st, true)
  else if sample ≥ o.nof then (st, false)
  else
    let new := st.isNew sample
    let st := if new then { st with current := some sample, record := [], vlsd := [] } else st
    let last := st.current.getD 0
    if id ≠ o.id then
      let st := { st with vlsd := record }
      (if new then st else o.put st last, true)
    else
      let st := { st with record := record }
      (if o.cfg.readStore = .vlsd ∧ new then st else o.put st last, true)

/-- All samples of a reading. -/
def CanObsCfg.run (o : CanObsCfg) (st : CanObs) : List (Nat × Nat × Bytes) → CanObs
  | [] => st
  | e :: es => o.run (o.onSample st e.1 e.2.1 e.2.2).1 es

end Mdf
