import Verif.Model.Can
import Verif.Model.Store

/-!
Bus messages other than CAN: what their record functions have in common.

The functions `ToRaw` and `Make..` of /repo/mdflib/src/linmessage.cpp, ethmessage.cpp, flexraymessage.cpp and mostmessage.cpp are sequences
of writes to the sample record at fixed places.  The sequences are written down as lists of `BusOp` (Model/Lin, Model/Eth, Model/FlexRay,
Model/Most); this file says what one write does, and how the channels of a group read the record.

`none` is undefined behaviour (access outside the record).
-/

namespace Mdf

/-- A write to the record: `record[off] = b`, `record[off] |= b`, `MdfHelper::UnsignedToRaw(true, 0, bits, v, record.data() + off)` and
`std::copy(bytes.cbegin(), bytes.cend(), record.begin() + off)`. -/
inductive BusOp where
  | set (off : Nat) (b : Byte)
  | or (off : Nat) (b : Byte)
  | raw (off bits : Nat) (v : BitVec 64)
  | copy (off : Nat) (bytes : Bytes)
deriving DecidableEq, Repr

/-- The record after the write. -/
def BusOp.run (record : Bytes) : BusOp → Option Bytes
  | .set off b => wrByte record off b
  | .or off b => orByte record off b
  | .raw off bits v => rawAt record off bits v
  | .copy off bytes => wrBytes record off bytes

/-- The writes one after the other. -/
def runOps : List BusOp → Bytes → Option Bytes
  | [], record => some record
  | op :: ops, record => (op.run record).bind (runOps ops)

/-- `std::copy(LittleBuffer(v))` at `off`, for a number of `n` bytes (littlebuffer.h lines 43-54). -/
def BusOp.little (off n v : Nat) : BusOp := .copy off (leBytes n v)

/-- What a message does with the variable length data of the sample: nothing, clear it, or set it. -/
inductive BusVar where
  | keep | clear | set (data : Bytes)
deriving DecidableEq, Repr

/-- The sample record after `ToRaw`: the record is resized, the writes are done, and the variable length data is set. -/
def busRecord (size : Nat) (ops : List BusOp) (var : BusVar) (s : CanSample) : Option CanSample :=
  (runOps ops (resizeBytes s.record size)).map fun r =>
    match var with
    | .keep => { s with record := r }
    | .clear => ⟨r, false, []⟩
    | .set d => ⟨r, true, d⟩

/-! ### The channels -/

/-- A value of a channel. -/
inductive BusVal where
  | num (v : Nat)
  | int (v : Int)
  /-- the bit pattern of a `float` -/
  | float (v : BitVec 32)
  | bytes (v : Bytes)
deriving DecidableEq, Repr

/-- A channel of `CreateBitsChannel` that is made signed, as `crc_model->DataType(ChannelDataType::SignedIntegerLe)`
(linconfigadapter.cpp lines 156-159). -/
def busSigned (byteOffset bitOffset bitCount : Nat) : Chan := { canBits byteOffset bitOffset bitCount with dataType := .signedLe }

/-- A channel of `CreateBitsChannel` that is made a `float` (linconfigadapter.cpp lines 165-170). -/
def busFloat (byteOffset : Nat) : Chan := { canBits byteOffset 0 32 with dataType := .floatLe }

/-- A channel for a number of bytes (ethconfigadapter.cpp lines 16-44). -/
def busBytes (byteOffset nofBytes : Nat) : Chan := { canBits byteOffset 0 (8 * nofBytes) with dataType := .byteArray }

/-- A channel for at most 8 bytes inside the record (linconfigadapter.cpp lines 138-148). -/
def busMlsd (byteOffset : Nat) : Chan := { canBits byteOffset 0 64 with dataType := .byteArray, type := .maxLength }

/-- A channel for the position of variable length data (ethconfigadapter.cpp lines 45-59, flexrayconfigadapter.cpp lines 546-570,
mostconfigadapter.cpp lines 541-554, 661-674). -/
def busVlsd (byteOffset : Nat) : Chan := { canBits byteOffset 0 64 with dataType := .byteArray, type := .variableLength }

/-- `IChannel::GetChannelValue` (ichannel.h lines 620-720) by the data type of the channel, for the types that occur here. -/
def Chan.busValue (c : Chan) (record : Bytes) : Option BusVal :=
  match c.dataType with
  | .unsignedLe => match c.getUnsigned record 0 with | .ok v => some (.num v.toNat) | _ => none
  | .signedLe => match c.getSigned record 0 with | .ok v => some (.int v.toInt) | _ => none
  | .floatLe => match c.getFloatBits record 0 with | .ok v => some (.float (v.setWidth 32)) | _ => none
  | .byteArray => match c.getByteArray record with | .ok v => some (.bytes v) | _ => none
  | _ => none

/-- The channels of a bus group that are laid out by `Cg4Block::PrepareForWriting`: the time and the frame (`DataBytes(frameBytes)`).  The
members of the frame are composition channels and keep their offsets. -/
def busTopLevel (frameBytes : Nat) : List Chan := [canTime, busBytes 0 frameBytes]

/-- The size of the records of the group (C09). -/
def busRecordSize (frameBytes : Nat) : Nat := (prepareGroup (busTopLevel frameBytes)).recordSize


end Mdf
