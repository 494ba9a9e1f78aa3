import Verif.Model.Bus

/-!
Ethernet messages: /repo/mdflib/src/ethmessage.cpp and the channels of /repo/mdflib/src/ethconfigadapter.cpp.
-/

namespace Mdf

/-- ethmessage.h lines 20-25 `enum class EthMessageType`. -/
inductive EthKind where
  | frame | checksumError | lengthError | receiveError
deriving DecidableEq, Repr

/-- The members of `EthMessage` (ethmessage.h lines 126-139).  The addresses are `std::array<uint8_t, 6>`; `errorType` is the number of the
enumerate `EthErrorType`. -/
structure EthMsg where
  busChannel : Byte
  dir : Bool
  errorType : Byte
  source : Vector Byte 6
  destination : Vector Byte 6
  ethType : BitVec 16
  received : BitVec 16
  dataLength : BitVec 16
  data : Bytes
  crc : BitVec 32
  expectedCrc : BitVec 32
  padding : BitVec 16
deriving DecidableEq

/-- `EthMessage::DataBytes(std::vector)` (ethmessage.cpp lines 20-23). -/
def EthMsg.setData (m : EthMsg) (data : Bytes) : EthMsg := { m with data := data, dataLength := BitVec.ofNat 16 data.length }

/-- The writes that all records begin with (ethmessage.cpp lines 72-78, 123-129, 174-180, 222-228). -/
def EthMsg.first (m : EthMsg) : List BusOp :=
  [.set 8 m.busChannel, .copy 9 m.source.toList, .copy 15 m.destination.toList, .little 21 2 m.ethType.toNat]

/-- The writes of the functions `Make..` (ethmessage.cpp lines 63-259).  `mandatory` is the setting of the data group. -/
def EthMsg.ops (m : EthMsg) (kind : EthKind) (mandatory : Bool) : List BusOp :=
  match kind with
  | .frame =>
    m.first ++ [.little 23 2 m.received.toNat, .little 25 2 m.dataLength.toNat] ++ (if mandatory then [.little 27 8 0] else
      [.little 27 4 m.crc.toNat, .set 31 (if m.dir then 1 else 0), .little 32 2 m.padding.toNat, .little 34 8 0])
  | .checksumError =>
    m.first ++ [.little 23 2 m.dataLength.toNat, .little 25 4 m.crc.toNat, .little 29 4 m.expectedCrc.toNat] ++ (if mandatory then [] else
      [.little 33 2 m.received.toNat, .set 35 (if m.dir then 1 else 0), .little 36 2 m.padding.toNat, .little 38 8 0])
  | .lengthError =>
    m.first ++ [.little 23 2 m.received.toNat] ++ (if mandatory then [] else
      [.little 25 2 m.dataLength.toNat, .little 27 4 m.crc.toNat, .set 31 (if m.dir then 1 else 0), .little 32 2 m.padding.toNat,
       .little 34 8 0])
  | .receiveError =>
    m.first ++ [.little 23 2 m.received.toNat] ++ (if mandatory then [] else
      [.little 25 2 m.dataLength.toNat, .little 27 4 m.crc.toNat, .set 31 (if m.dir then 1 else 0), .or 31 (m.errorType <<< 1),
       .little 32 2 m.padding.toNat, .little 34 8 0])

/-- The size of the record (ethmessage.cpp lines 66, 116, 167, 215). -/
def ethSize (kind : EthKind) (mandatory : Bool) : Nat :=
  match kind with
  | .frame => if mandatory then 35 else 42
  | .checksumError => if mandatory then 33 else 46
  | .lengthError | .receiveError => if mandatory then 25 else 42

/-- The variable length data (ethmessage.cpp lines 83-84, 139-144, 160-161, 188-193, 208-209, 236-241, 257-258). -/
def EthMsg.var (m : EthMsg) (kind : EthKind) (mandatory : Bool) : BusVar :=
  match kind with
  | .frame => .set m.data
  | _ => if mandatory then .clear else .set m.data

/-- `EthMessage::ToRaw` (ethmessage.cpp lines 40-61). -/
def EthMsg.toRaw (m : EthMsg) (kind : EthKind) (mandatory : Bool) (s : CanSample) : Option CanSample :=
  busRecord (ethSize kind mandatory) (m.ops kind mandatory) (m.var kind mandatory) s

/-! ### The channels -/

/-- An Ethernet group as configured.  `adapter` is `MandatoryMembersOnly` of the configuration adapter, given to the data group
(ethconfigadapter.cpp line 71), `writer` that of the writer, which the adapter takes over when it is created (iconfigadapter.cpp lines 17-23). -/
structure EthCfg where
  kind : EthKind
  adapter : Bool
  writer : Bool
deriving DecidableEq, Repr

/-- The members of the frames. -/
inductive EthName where
  | busChannel | source | destination | etherType | received | dataLength | crc | expectedCrc | dir | errorType | padding | dataBytes
deriving DecidableEq, Repr

/-- The first channels (ethconfigadapter.cpp lines 183-186, 16-44). -/
def ethFirst : List (EthName × Chan) :=
  [(.busChannel, canBits 8 0 8), (.source, busBytes 9 6), (.destination, busBytes 15 6), (.etherType, canBits 21 0 16)]

/-- The composition channels in the order of their creation (ethconfigadapter.cpp lines 169-340). -/
def EthCfg.members (cfg : EthCfg) : List (EthName × Chan) :=
  match cfg.kind with
  | .frame =>
    ethFirst ++ [(.received, canBits 23 0 16), (.dataLength, canBits 25 0 16)] ++ (if cfg.writer then [(.dataBytes, busVlsd 27)] else
      [(.crc, canBits 27 0 32), (.dir, canBits 31 0 1), (.padding, canBits 32 0 16), (.dataBytes, busVlsd 34)])
  | .checksumError =>
    ethFirst ++ [(.dataLength, canBits 23 0 16), (.crc, canBits 25 0 32), (.expectedCrc, canBits 29 0 32)] ++ (if cfg.writer then [] else
      [(.received, canBits 33 0 16), (.dir, canBits 35 0 1), (.padding, canBits 36 0 16), (.dataBytes, busVlsd 38)])
  | .lengthError =>
    ethFirst ++ [(.received, canBits 23 0 16)] ++ (if cfg.writer then [] else
      [(.dataLength, canBits 25 0 16), (.crc, canBits 27 0 32), (.dir, canBits 31 0 1), (.padding, canBits 32 0 16),
       (.dataBytes, busVlsd 34)])
  | .receiveError =>
    ethFirst ++ [(.received, canBits 23 0 16)] ++ (if cfg.writer then [] else
      [(.dataLength, canBits 25 0 16), (.crc, canBits 27 0 32), (.dir, canBits 31 0 1), (.errorType, canBits 31 1 1),
       (.padding, canBits 32 0 16), (.dataBytes, busVlsd 34)])

/-- The number of bytes given to the frame channel (ethconfigadapter.cpp lines 179, 223, 266, 308). -/
def EthCfg.frameBytes (cfg : EthCfg) : Nat :=
  match cfg.kind with
  | .frame => if cfg.writer then 35 - 8 else 42 - 8
  | .checksumError => if cfg.writer then 33 - 8 else 46 - 8
  | .lengthError | .receiveError => if cfg.writer then 25 - 8 else 42 - 8

/-- `SampleQueue::SaveEthMessage` (samplequeue.cpp lines 246-269) for a group of this kind: the record of the data group's setting. -/
def EthCfg.save (cfg : EthCfg) (m : EthMsg) (s : CanSample) : Option CanSample := m.toRaw cfg.kind cfg.adapter s

end Mdf
