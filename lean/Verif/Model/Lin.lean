import Verif.Model.Bus

/-!
LIN messages: /repo/mdflib/src/linmessage.cpp and the channels of /repo/mdflib/src/linconfigadapter.cpp.
-/

namespace Mdf

/-- linmessage.h lines 19-28 `enum class LinMessageType`. -/
inductive LinKind where
  | frame | wakeUp | checksumError | transmissionError | syncError | receiveError | spike | longDom
deriving DecidableEq, Repr

/-- linmessage.h lines 30-34 `enum class LinChecksumModel`. -/
inductive LinModel where
  | unknown | classic | enhanced
deriving DecidableEq, Repr

/-- `static_cast<int8_t>(ChecksumModel())`. -/
def LinModel.code : LinModel → Byte
  | .unknown => 0xFF
  | .classic => 0
  | .enhanced => 1

/-- The members of `LinMessage` (linmessage.h lines 129-199).  `linId`, `dataLength` and `spare` hold two values each.  The baud rates are the
bit patterns of `float`. -/
structure LinMsg where
  busChannel : Byte
  linId : Byte
  dataLength : Byte
  model : LinModel
  crc : Byte
  sof : BitVec 64
  baudrate : BitVec 32
  response : BitVec 32
  breakLength : BitVec 32
  delimiter : BitVec 32
  data : Bytes
  spare : Byte
  signalLength : BitVec 32
deriving DecidableEq, Repr

/-- A new message (linmessage.h lines 129-199). -/
def LinMsg.init : LinMsg :=
  { busChannel := 0, linId := 0, dataLength := 0, model := .unknown, crc := 0, sof := 0, baudrate := 0, response := 0, breakLength := 0,
    delimiter := 0, data := [], spare := 0, signalLength := 0 }

/-- `LinMessage::LinId(uint8_t)` (linmessage.cpp lines 54-57). -/
def LinMsg.setId (m : LinMsg) (id : Byte) : LinMsg := { m with linId := (m.linId &&& ~~~0x3F#8) ||| (id &&& 0x3F#8) }
/-- `LinMessage::LinId()` (linmessage.cpp lines 59-61). -/
def LinMsg.getId (m : LinMsg) : Byte := m.linId &&& 0x3F#8
/-- `LinMessage::Dir(bool)` (linmessage.cpp lines 63-69). -/
def LinMsg.setDir (m : LinMsg) (transmit : Bool) : LinMsg :=
  { m with linId := if transmit then m.linId ||| 0x80#8 else m.linId &&& ~~~0x80#8 }
/-- `LinMessage::Dir()` (linmessage.cpp lines 71-73). -/
def LinMsg.getDir (m : LinMsg) : Bool := m.linId &&& 0x80#8 ≠ 0#8
/-- `LinMessage::ReceivedDataByteCount(uint8_t)` (linmessage.cpp lines 75-78). -/
def LinMsg.setReceived (m : LinMsg) (n : Byte) : LinMsg := { m with dataLength := (m.dataLength &&& ~~~0x0F#8) ||| (n &&& 0x0F#8) }
/-- `LinMessage::ReceivedDataByteCount()` (linmessage.cpp lines 80-82). -/
def LinMsg.getReceived (m : LinMsg) : Byte := m.dataLength &&& 0x0F#8
/-- `LinMessage::DataLength(uint8_t)` (linmessage.cpp lines 84-87). -/
def LinMsg.setLength (m : LinMsg) (n : Byte) : LinMsg := { m with dataLength := (m.dataLength &&& ~~~0xF0#8) ||| ((n <<< 4) &&& 0xF0#8) }
/-- `LinMessage::DataLength()` (linmessage.cpp lines 89-91). -/
def LinMsg.getLength (m : LinMsg) : Byte := (m.dataLength &&& 0xF0#8) >>> 4
/-- `LinMessage::ExpectedDataByteCount(uint8_t)` (linmessage.cpp lines 388-391). -/
def LinMsg.setExpected (m : LinMsg) (n : Byte) : LinMsg := { m with spare := (m.spare &&& ~~~0x0F#8) ||| (n &&& 0x0F#8) }
/-- `LinMessage::ExpectedDataByteCount()` (linmessage.cpp lines 393-395). -/
def LinMsg.getExpected (m : LinMsg) : Byte := m.spare &&& 0x0F#8
/-- `LinMessage::TypeOfLongDominantSignal(type)`; the values of the enumerate are 0, 1 and 2 (linmessage.cpp lines 397-402, linmessage.h lines
36-40). -/
def LinMsg.setLongType (m : LinMsg) (t : Byte) : LinMsg := { m with spare := (m.spare &&& ~~~0x30#8) ||| (t <<< 4) }
/-- `LinMessage::TypeOfLongDominantSignal()` (linmessage.cpp lines 404-406). -/
def LinMsg.getLongType (m : LinMsg) : Byte := (m.spare &&& 0x30#8) >>> 4
/-- `LinMessage::DataBytes(std::vector)` (linmessage.cpp lines 408-411). -/
def LinMsg.setData (m : LinMsg) (data : Bytes) : LinMsg := { m.setLength (BitVec.ofNat 8 data.length) with data := data }

/-- `FillDataBytes` (linmessage.cpp lines 23-35): the first bytes, then padding.  `copy_size` is computed from the size as `uint16_t`. -/
def linFill (off : Nat) (data : Bytes) : List BusOp :=
  let n := min (data.length % 2 ^ 16) 8
  [.copy off (data.take n), .copy (off + n) (List.replicate (8 - n) 0xFF#8)]

/-- The writes from the checksum on (linmessage.cpp lines 177-196 and 232-251). -/
def LinMsg.rest (m : LinMsg) : List BusOp :=
  [.set 19 m.crc, .set 20 (m.model.code &&& 0x03#8), .little 21 8 m.sof.toNat, .little 29 4 m.baudrate.toNat, .little 33 4 m.response.toNat,
   .little 37 4 m.breakLength.toNat, .little 41 4 m.delimiter.toNat]

/-- The direction, the lengths and the data (linmessage.cpp lines 168-171 and 228-231). -/
def LinMsg.body (m : LinMsg) : List BusOp :=
  [.or 9 (flagBit m.getDir 6), .set 10 m.getReceived, .or 10 ((m.getLength &&& 0x0F#8) <<< 4)] ++ linFill 11 m.data

/-- The writes of the functions `Make..` (linmessage.cpp lines 157-386).  `mandatory` is the setting of the data group. -/
def LinMsg.ops (m : LinMsg) (kind : LinKind) (mandatory : Bool) : List BusOp :=
  match kind with
  | .frame =>
    [.set 8 m.busChannel, .set 9 (m.getId &&& 0x3F#8)] ++ m.body ++ (if mandatory then [] else m.rest)
  | .wakeUp => [.set 8 m.busChannel, .little 9 4 m.baudrate.toNat, .little 13 8 m.sof.toNat]
  | .checksumError =>
    [.set 8 m.busChannel, .set 9 (m.getId &&& 0x3F#8)] ++ (if mandatory then [] else m.body ++ m.rest)
  | .transmissionError =>
    [.set 8 m.busChannel, .set 9 (m.linId &&& 0x3F#8)] ++ (if mandatory then [] else
      [.set 10 (m.getExpected &&& 0x0F#8), .or 10 ((m.model.code &&& 0x03#8) <<< 4), .little 11 8 m.sof.toNat,
       .little 19 4 m.baudrate.toNat, .little 23 4 m.breakLength.toNat, .little 27 4 m.delimiter.toNat])
  | .syncError =>
    [.set 8 m.busChannel, .little 9 8 m.sof.toNat, .little 17 4 m.baudrate.toNat, .little 21 4 m.breakLength.toNat,
     .little 25 4 m.delimiter.toNat]
  | .receiveError =>
    [.set 8 m.busChannel, .set 9 (m.getId &&& 0x3F#8), .set 10 (m.getReceived &&& 0x0F#8), .or 10 ((m.getExpected &&& 0x0F#8) <<< 4),
     .set 11 (m.getLength &&& 0x0F#8), .or 11 ((m.model.code &&& 0x03#8) <<< 4)] ++ linFill 12 m.data ++
    [.little 20 8 m.sof.toNat, .little 28 4 m.baudrate.toNat, .little 32 4 m.response.toNat, .little 36 4 m.breakLength.toNat,
     .little 40 4 m.delimiter.toNat]
  | .spike => [.set 8 m.busChannel, .little 9 4 m.baudrate.toNat, .little 13 8 m.sof.toNat]
  | .longDom =>
    [.set 8 m.busChannel, .little 9 4 m.baudrate.toNat, .little 13 8 m.sof.toNat, .little 21 4 m.signalLength.toNat, .set 25 m.getLongType]

/-- The size of the record (linmessage.cpp lines 160, 201, 220, 262, 292, 315, 354, 372). -/
def linSize (kind : LinKind) (mandatory : Bool) : Nat :=
  match kind with
  | .frame => if mandatory then 19 else 45
  | .wakeUp => 21
  | .checksumError => if mandatory then 10 else 45
  | .transmissionError => if mandatory then 10 else 31
  | .syncError => 29
  | .receiveError => 44
  | .spike => 21
  | .longDom => 26

/-- `LinMessage::ToRaw` (linmessage.cpp lines 114-155). -/
def LinMsg.toRaw (m : LinMsg) (kind : LinKind) (mandatory : Bool) (s : CanSample) : Option CanSample :=
  busRecord (linSize kind mandatory) (m.ops kind mandatory) .keep s

/-! ### The channels -/

/-- A LIN group as configured.  `adapter` is `MandatoryMembersOnly` of the configuration adapter, which is also given to the data group
(linconfigadapter.cpp line 21), `writer` that of the writer, which the adapter takes over when it is created (iconfigadapter.cpp lines 17-23). -/
structure LinCfg where
  kind : LinKind
  adapter : Bool
  writer : Bool
deriving DecidableEq, Repr

/-- The members of the frames. -/
inductive LinName where
  | busChannel | id | dir | received | dataLength | dataBytes | specified | checksum | model | sof | baudrate | response | breakLength | delimiter
  | signalLength | longType
deriving DecidableEq, Repr

/-- The channels of a frame from the checksum on (linconfigadapter.cpp lines 154-187 and 236-269). -/
def linRest : List (LinName × Chan) :=
  [(.checksum, canBits 19 0 8), (.model, busSigned 20 0 2), (.sof, canBits 21 0 64), (.baudrate, busFloat 29), (.response, busFloat 33),
   (.breakLength, canBits 37 0 32), (.delimiter, canBits 41 0 32)]

/-- The channels of a frame from the direction on (linconfigadapter.cpp lines 128-148 and 215-234). -/
def linBody : List (LinName × Chan) :=
  [(.received, canBits 10 0 4), (.dataLength, canBits 10 4 4), (.dataBytes, busMlsd 11)]

/-- The composition channels in the order of their creation (linconfigadapter.cpp lines 108-534). -/
def LinCfg.members (cfg : LinCfg) : List (LinName × Chan) :=
  match cfg.kind with
  | .frame =>
    [(.busChannel, canBits 8 0 8), (.id, canBits 9 0 6), (.dir, canBits 9 7 1)] ++ linBody ++ (if cfg.adapter then [] else linRest)
  | .wakeUp => [(.busChannel, canBits 8 0 8), (.baudrate, busFloat 9), (.sof, canBits 13 0 8)]
  | .checksumError =>
    [(.busChannel, canBits 8 0 8), (.id, canBits 9 0 6), (.dir, canBits 9 7 1)] ++ (if cfg.adapter then [] else linBody ++ linRest)
  | .transmissionError =>
    [(.busChannel, canBits 8 0 8), (.id, canBits 9 0 6)] ++ (if cfg.writer then [] else
      [(.specified, canBits 10 0 4), (.model, busSigned 10 4 2), (.sof, canBits 11 0 64), (.baudrate, busFloat 19),
       (.breakLength, canBits 23 0 32), (.delimiter, canBits 27 0 32)])
  | .syncError =>
    [(.busChannel, canBits 8 0 8), (.sof, canBits 9 0 64), (.baudrate, busFloat 17), (.breakLength, canBits 21 0 32),
     (.delimiter, canBits 25 0 32)]
  | .receiveError =>
    [(.busChannel, canBits 8 0 8), (.id, canBits 9 0 6), (.specified, canBits 10 4 4), (.received, canBits 10 0 4),
     (.dataLength, canBits 11 0 4), (.dataBytes, busMlsd 12), (.model, busSigned 9 6 2), (.sof, canBits 20 0 64), (.baudrate, busFloat 28),
     (.response, busFloat 32), (.breakLength, canBits 36 0 32), (.delimiter, canBits 40 0 32)]
  | .spike => [(.busChannel, canBits 8 0 8), (.baudrate, busFloat 9), (.sof, canBits 13 0 8)]
  | .longDom =>
    [(.busChannel, canBits 8 0 8), (.baudrate, busFloat 9), (.sof, canBits 13 0 64), (.signalLength, canBits 21 0 32),
     (.longType, canBits 25 0 2)]

/-- The number of bytes given to the frame channel (linconfigadapter.cpp lines 118, 200, 282, 361, 397, 427, 480, 509). -/
def LinCfg.frameBytes (cfg : LinCfg) : Nat :=
  match cfg.kind with
  | .frame => if cfg.adapter then 19 - 8 else 45 - 8
  | .wakeUp => 21 - 8
  | .checksumError => if cfg.adapter then 10 - 8 else 45 - 8
  | .transmissionError => if cfg.writer then 10 - 8 else 31 - 8
  | .syncError => 29 - 8
  | .receiveError => 44 - 8
  | .spike => 21 - 8
  | .longDom => 26 - 8

/-- The texts `SampleQueue::SaveLinMessage` looks for (samplequeue.cpp lines 217-241). -/
def LinKind.text : LinKind → List Char
  | .frame => "_Frame".toList
  | .wakeUp => "_WakeUp".toList
  | .checksumError => "_ChecksumError".toList
  | .transmissionError => "_TransmissionError".toList
  | .syncError => "_SyncError".toList
  | .receiveError => "_ReceiveError".toList
  | .spike => "_Spike".toList
  | .longDom => "_LongDom".toList

/-- The kind of message that `SampleQueue::SaveLinMessage` makes for a group (samplequeue.cpp lines 217-241). -/
def linKindOf (group : List Char) : Option LinKind :=
  [LinKind.frame, .wakeUp, .checksumError, .transmissionError, .syncError, .receiveError, .spike, .longDom].find? fun k =>
    containsName k.text group

/-- `SampleQueue::SaveLinMessage` (samplequeue.cpp lines 207-244) for a group of this kind: the record of the data group's setting. -/
def LinCfg.save (cfg : LinCfg) (m : LinMsg) (s : CanSample) : Option CanSample := m.toRaw cfg.kind cfg.adapter s

end Mdf
