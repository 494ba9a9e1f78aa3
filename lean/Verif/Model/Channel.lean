import Verif.Model.Bits

/-!
Channel values in a sample record.

Models /repo/mdflib/src/ichannel.cpp (IChannel::GetUnsignedValue .. SetSignedValueBe), the MDF4
validity bits and write layout in /repo/mdflib/src/cn4block.cpp (SetValid, GetValid, DataBytes,
PrepareForWriting) and /repo/mdflib/src/cg4block.cpp (PrepareForWriting), and the byte order buffers
/repo/mdflib/src/littlebuffer.h and bigbuffer.h.

The host is assumed little endian (`LittleBuffer::IsBigEndian()` is false).
-/

namespace Mdf

/-- Outcome of a C++ function returning `bool` with an output argument: undefined behaviour, `false`,
or `true` with the output value. -/
inductive Res (α : Type) where
  | ub
  | fail
  | ok (a : α)
deriving DecidableEq, Repr

/-- `none` is undefined behaviour in the bit loops. -/
def Res.ofUb {α : Type} : Option α → Res α
  | none => .ub
  | some a => .ok a

/-- /repo/include/mdf/ichannel.h `enum class ChannelDataType`. -/
inductive DataType where
  | unsignedLe | unsignedBe | signedLe | signedBe | floatLe | floatBe
  | stringAscii | stringUtf8 | stringUtf16Le | stringUtf16Be
  | byteArray | mimeSample | mimeStream | canOpenDate | canOpenTime | complexLe | complexBe
deriving DecidableEq, Repr

/-- /repo/include/mdf/ichannel.h `enum class ChannelType`. -/
inductive ChanType where
  | fixedLength | variableLength | master | virtualMaster | sync | maxLength | virtualData
deriving DecidableEq, Repr

/-- The members of `Cn4Block` that place a channel in the record.  `byteOffset`, `bitCount` and
`invalidPos` are `uint32_t`, `bitOffset` is `uint16_t` (cn4block.h).  `nofDataBytes` is that of the
owning `Cg4Block`; `arraySize` is `IChannel::ArraySize()` (ichannel.cpp lines 1105-1118). -/
structure Chan where
  type : ChanType
  dataType : DataType
  byteOffset : Nat
  bitOffset : Nat
  bitCount : Nat
  invalidFlag : Bool
  invalidPos : Nat
  nofDataBytes : Nat
  arraySize : Nat
deriving DecidableEq, Repr

/-- The C++ types of the members. -/
def Chan.WellTyped (c : Chan) : Prop :=
  c.byteOffset < 2 ^ 32 ∧ c.bitOffset < 2 ^ 16 ∧ c.bitCount < 2 ^ 32

instance (c : Chan) : Decidable c.WellTyped := by unfold Chan.WellTyped; infer_instance

/-- `Cn4Block::DataBytes` (cn4block.cpp lines 254-269). -/
def Chan.dataBytes (c : Chan) : Nat := c.bitCount / 8 + (if c.bitCount % 8 > 0 then 1 else 0)

/-- `bit_offset` of ichannel.cpp lines 22-23 (also 78-79 and 103-104): the sum of the offsets is `uint32_t`
arithmetic, the array part is `uint64_t` arithmetic. -/
def Chan.bitPos (c : Chan) (arrayIndex : Nat) : Nat :=
  ((c.byteOffset * 8 % 2 ^ 32 + c.bitOffset) % 2 ^ 32 + arrayIndex * c.bitCount % 2 ^ 64) % 2 ^ 64

/-- `range_check` of ichannel.cpp lines 24-27 (also 81-84 and 106-109). -/
def Chan.rangeCheck (c : Chan) (arrayIndex : Nat) : Nat :=
  let bits := (c.bitPos arrayIndex + c.bitCount) % 2 ^ 64
  bits / 8 + (if bits % 8 ≠ 0 then 1 else 0)

/-- `IChannel::GetUnsignedValue` (ichannel.cpp lines 18-70). -/
def Chan.getUnsigned (c : Chan) (record : Bytes) (arrayIndex : Nat) : Res (BitVec 64) :=
  if c.rangeCheck arrayIndex > record.length then .fail
  else if c.type = .variableLength then
    .ofUb (rawToUnsigned true (c.bitPos arrayIndex) c.bitCount record)
  else
    match c.dataType with
    | .stringUtf16Le | .stringUtf16Be | .stringUtf8 | .stringAscii | .unsignedLe =>
      .ofUb (rawToUnsigned true (c.bitPos arrayIndex) c.bitCount record)
    | .unsignedBe => .ofUb (rawToUnsigned false (c.bitPos arrayIndex) c.bitCount record)
    | _ => .fail

/-- `IChannel::GetSignedValue` (ichannel.cpp lines 72-98). -/
def Chan.getSigned (c : Chan) (record : Bytes) (arrayIndex : Nat) : Res (BitVec 64) :=
  if c.rangeCheck arrayIndex > record.length then .fail
  else .ofUb (rawToSigned (c.dataType == .signedLe) (c.bitPos arrayIndex) c.bitCount record)

/-- The loop of `DbcHelper::RawToDouble`/`RawToFloat`/`RawToHalf` (dbchelper.cpp lines 432-442, 456-466,
483-493): bits are or-ed in with a moving mask. -/
def maskLoop (le : Bool) : (n : Nat) → (byte bit : Int) → (mask temp : BitVec 64) → Bytes → Option (BitVec 64)
  | 0, _, _, _, temp, _ => some temp
  | n + 1, byte, bit, mask, temp, raw => do
    let b ← rdByte raw byte
    let m ← kMask bit
    let temp := if b &&& m ≠ 0 then temp ||| mask else temp
    let p := stepPos le byte bit
    maskLoop le n p.1 p.2 (mask >>> 1) temp raw

/-- The bit pattern read by `DbcHelper::RawToDouble`, `RawToFloat` and `RawToHalf` (dbchelper.cpp lines
423-498) for lengths 64, 32 and 16. The reinterpretation of the bits as IEEE number is not modelled. -/
def rawToFloatBits (le : Bool) (start length : Nat) (raw : Bytes) : Option (BitVec 64) :=
  let byte := (if le then toInt32 (start + length - 1) else toInt32 start).tdiv 8
  let bit := toInt32 ((start + length - 1) % 8)
  maskLoop le length byte bit (1#64 <<< (length - 1)) 0 raw

/-- `IChannel::GetFloatValue` (ichannel.cpp lines 100-146), as bit pattern. -/
def Chan.getFloatBits (c : Chan) (record : Bytes) (arrayIndex : Nat) : Res (BitVec 64) :=
  if c.rangeCheck arrayIndex > record.length then .fail
  else if c.bitCount = 16 ∨ c.bitCount = 32 ∨ c.bitCount = 64 then
    .ofUb (rawToFloatBits (c.dataType == .floatLe) (c.bitPos arrayIndex) c.bitCount record)
  else .fail

/-- `LittleBuffer<T>(value)` for a `T` of `n` bytes (littlebuffer.h lines 43-54): the `n` low bytes of
the value, least significant first. -/
def leBytes : (n : Nat) → Nat → Bytes
  | 0, _ => []
  | n + 1, v => BitVec.ofNat 8 v :: leBytes n (v / 256)

/-- `BigBuffer<T>(value)` for a `T` of `n` bytes (bigbuffer.h lines 35-46): the reverse byte order. -/
def beBytes (n v : Nat) : Bytes := (leBytes n v).reverse

/-- `memcpy(buffer.data() + off, data, n)`; `none` (undefined behaviour) if it leaves the buffer. -/
def wrBytes (buf : Bytes) (off : Nat) (data : Bytes) : Option Bytes :=
  if off + data.length ≤ buf.length then
    some (buf.take off ++ data ++ buf.drop (off + data.length)) else none

/-- `Cn4Block::SetValid` (cn4block.cpp lines 1160-1176).  `uint32_t` arithmetic. -/
def Chan.setValid (c : Chan) (valid : Bool) (arrayIndex : Nat) (buf : Bytes) : Bytes :=
  if c.invalidFlag then
    let pos := (c.invalidPos + arrayIndex % 2 ^ 32) % 2 ^ 32
    let byteOff := (c.nofDataBytes + pos / 8) % 2 ^ 32
    let mask : Byte := 1#8 <<< (pos % 8)
    match buf[byteOff]? with
    | some b => buf.set byteOff (if valid then b &&& ~~~mask else b ||| mask)
    | none => buf
  else buf

/-- `Cn4Block::GetValid` (cn4block.cpp lines 1178-1191).  `uint64_t` arithmetic. -/
def Chan.getValid (c : Chan) (record : Bytes) (arrayIndex : Nat) : Bool :=
  if c.invalidFlag then
    let pos := (c.invalidPos + arrayIndex) % 2 ^ 64
    let byteOff := (c.nofDataBytes + pos / 8) % 2 ^ 64
    let mask : Byte := 1#8 <<< (pos % 8)
    match record[byteOff]? with
    | some b => b &&& mask = 0
    | none => true
  else true

/-- Byte order of the setters. -/
inductive Order where
  | le | be
deriving DecidableEq, Repr

/-- `LittleBuffer` or `BigBuffer` of `n` bytes. -/
def orderBytes : Order → Nat → Nat → Bytes
  | .le => leBytes
  | .be => beBytes

/-- The bytes copied by the `switch (bytes)` of the setters: `LittleBuffer`/`BigBuffer` of the value
truncated to 1, 2, 4 or 8 bytes; other sizes have no case (`none`). -/
def intBytes (o : Order) (bytes : Nat) (value : BitVec 64) : Option Bytes :=
  if bytes = 1 ∨ bytes = 2 ∨ bytes = 4 ∨ bytes = 8 then
    some (orderBytes o bytes value.toNat)
  else none

/-- The common body of the integer setters of ichannel.cpp: `SetUnsignedValueLe` (lines 292-339),
`SetUnsignedValueBe` (lines 341-385), `SetSignedValueLe/Be` (lines 387-480).  `checkIndex` is the factor of
`bytes` in the bound check: `array_index + 1` in three of them but `array_index` in `SetUnsignedValueBe`
(line 349).  A signed value is given by its 64 bit two's complement. -/
def Chan.setInt (o : Order) (checkIndex : Nat) (c : Chan) (value : BitVec 64) (valid : Bool) (arrayIndex : Nat)
    (buf : Bytes) : Option Bytes :=
  if buf = [] then some buf
  else
    let bytes := c.dataBytes
    let maxBytes := (c.byteOffset + bytes * checkIndex % 2 ^ 64) % 2 ^ 64
    if maxBytes > buf.length then some (c.setValid false arrayIndex buf)
    else
      let buf := c.setValid valid arrayIndex buf
      let off := (c.byteOffset + bytes * arrayIndex % 2 ^ 64) % 2 ^ 64
      match intBytes o bytes value with
      | some data => wrBytes buf off data
      | none => some (c.setValid false arrayIndex buf)

/-- `IChannel::SetUnsignedValueLe` (ichannel.cpp lines 292-339). -/
def Chan.setUnsignedLe (c : Chan) (value : BitVec 64) (valid : Bool) (arrayIndex : Nat) (buf : Bytes) : Option Bytes :=
  c.setInt .le (arrayIndex + 1) value valid arrayIndex buf

/-- `IChannel::SetUnsignedValueBe` (ichannel.cpp lines 341-385): the bound check misses the `+ 1`. -/
def Chan.setUnsignedBe (c : Chan) (value : BitVec 64) (valid : Bool) (arrayIndex : Nat) (buf : Bytes) : Option Bytes :=
  c.setInt .be arrayIndex value valid arrayIndex buf

/-- `IChannel::SetSignedValueLe` (ichannel.cpp lines 387-433). -/
def Chan.setSignedLe (c : Chan) (value : BitVec 64) (valid : Bool) (arrayIndex : Nat) (buf : Bytes) : Option Bytes :=
  c.setInt .le (arrayIndex + 1) value valid arrayIndex buf

/-- `IChannel::SetSignedValueBe` (ichannel.cpp lines 435-480). -/
def Chan.setSignedBe (c : Chan) (value : BitVec 64) (valid : Bool) (arrayIndex : Nat) (buf : Bytes) : Option Bytes :=
  c.setInt .be (arrayIndex + 1) value valid arrayIndex buf

/-- The bytes copied by the `switch (bytes)` of the float setters (ichannel.cpp lines 500-514, 534-548): the
value as `float` or as `double`.  The conversion of `double` to `float` is not modelled: both bit
patterns are given. -/
def floatBytes (o : Order) (bytes : Nat) (f32 : BitVec 32) (f64 : BitVec 64) : Option Bytes :=
  if bytes = 4 then some (orderBytes o 4 f32.toNat)
  else if bytes = 8 then some (orderBytes o 8 f64.toNat)
  else none

/-- `IChannel::SetFloatValueLe` and `SetFloatValueBe` (ichannel.cpp lines 482-549). -/
def Chan.setFloat (o : Order) (c : Chan) (f32 : BitVec 32) (f64 : BitVec 64) (valid : Bool) (arrayIndex : Nat)
    (buf : Bytes) : Option Bytes :=
  if buf = [] then some buf
  else
    let bytes := c.dataBytes
    let maxBytes := (c.byteOffset + bytes * (arrayIndex + 1) % 2 ^ 64) % 2 ^ 64
    if maxBytes > buf.length then some (c.setValid false arrayIndex buf)
    else
      let buf := c.setValid valid arrayIndex buf
      let off := (c.byteOffset + bytes * arrayIndex % 2 ^ 64) % 2 ^ 64
      match floatBytes o bytes f32 f64 with
      | some data => wrBytes buf off data
      | none => some (c.setValid false arrayIndex buf)

/-- `IChannel::SetTextValue` (ichannel.cpp lines 551-566): a fixed length, zero terminated text. -/
def Chan.setText (c : Chan) (value : Bytes) (valid : Bool) (buf : Bytes) : Option Bytes := do
  let buf := c.setValid valid 0 buf
  let bytes := c.bitCount / 8
  if bytes = 0 then some (c.setValid false 0 buf)
  else
    let buf ← wrBytes buf c.byteOffset (List.replicate bytes 0)
    if value.length < bytes then wrBytes buf c.byteOffset value
    else wrBytes buf c.byteOffset (value.take (bytes - 1))

/-- `IChannel::SetByteArray` (ichannel.cpp lines 568-583). -/
def Chan.setByteArray (c : Chan) (value : Bytes) (valid : Bool) (buf : Bytes) : Option Bytes := do
  let buf := c.setValid valid 0 buf
  let bytes := c.bitCount / 8
  if bytes = 0 then some (c.setValid false 0 buf)
  else
    let buf ← wrBytes buf c.byteOffset (List.replicate bytes 0)
    if value.length ≤ bytes then wrBytes buf c.byteOffset value
    else wrBytes buf c.byteOffset (value.take bytes)

/-- `IChannel::GetByteArrayValue` (ichannel.cpp lines 230-257) of a channel that is not a VLSD channel with
its own record id. -/
def Chan.getByteArray (c : Chan) (record : Bytes) : Res Bytes :=
  if c.dataBytes = 0 then .ok []
  else if c.byteOffset + c.dataBytes ≤ record.length then
    .ok ((record.drop c.byteOffset).take c.dataBytes)
  else .fail

/-! ### Write layout -/

/-- The bit count chosen for a data type (cn4block.cpp lines 1067-1150), and whether the channel is turned into a
variable length channel.  Every `DataType` has its own case, so the `default` case (line 1146) is not
reachable. -/
def prepareBits (d : DataType) (bitCount : Nat) : Nat × Bool :=
  match d with
  | .unsignedLe | .unsignedBe | .signedLe | .signedBe =>
    (if bitCount = 8 ∨ bitCount = 16 ∨ bitCount = 32 ∨ bitCount = 64 then bitCount else 64, false)
  | .floatLe | .floatBe => (if bitCount = 32 ∨ bitCount = 64 then bitCount else 64, false)
  | .stringAscii | .stringUtf8 | .stringUtf16Le | .stringUtf16Be | .byteArray | .mimeSample | .mimeStream =>
    if bitCount = 0 then (64, true) else (bitCount, false)
  | .canOpenDate => (56, false)
  | .canOpenTime => (48, false)
  | .complexLe | .complexBe => (if bitCount = 64 ∨ bitCount = 128 then bitCount else 128, false)

/-- The channel type, bit count and validity flag set by `Cn4Block::PrepareForWriting` (cn4block.cpp lines
1030-1157). -/
def prepareKind (t : ChanType) (d : DataType) (bitCount : Nat) (flag : Bool) : ChanType × Nat × Bool :=
  match t with
  | .variableLength => (t, if bitCount = 0 then 64 else bitCount, flag)
  | .virtualData | .virtualMaster => (t, 0, false)
  | .master =>
    let r := prepareBits d bitCount
    (if r.2 then .variableLength else t, r.1, false)
  | _ =>
    let r := prepareBits d bitCount
    (if r.2 then .variableLength else t, r.1, flag)

/-- `Cn4Block::PrepareForWriting` (cn4block.cpp lines 1023-1158): offset and bit count of the channel.
The clearing of the temporary signal data is not part of the layout. -/
def Chan.prepare (c : Chan) (offset : Nat) : Chan :=
  let k := prepareKind c.type c.dataType c.bitCount c.invalidFlag
  { c with bitOffset := 0, byteOffset := offset % 2 ^ 32, type := k.1, bitCount := k.2.1, invalidFlag := k.2.2 }

/-- The variables of the loop of `Cg4Block::PrepareForWriting` (cg4block.cpp lines 447-473). -/
structure Layout where
  chans : List Chan          -- prepared channels so far, in order
  byteOffset : Nat           -- uint64_t byte_offset
  nofDataBytes : Nat         -- uint32_t nof_data_bytes_
  invalidBits : Nat          -- uint64_t invalid_bit_offset
deriving DecidableEq, Repr

/-- One iteration (cg4block.cpp lines 449-473). `SetInvalidOffset` casts to `uint32_t` (cn4block.h line 119). -/
def Layout.step (l : Layout) (c : Chan) : Layout :=
  let c := c.prepare l.byteOffset
  let size := (if c.arraySize > 1 then c.dataBytes * c.arraySize else c.dataBytes) % 2 ^ 32
  { chans := l.chans ++ [if c.invalidFlag then { c with invalidPos := l.invalidBits % 2 ^ 32 } else c],
    byteOffset := l.byteOffset + size,
    nofDataBytes := (l.nofDataBytes + size) % 2 ^ 32,
    invalidBits := if c.invalidFlag then l.invalidBits + (if c.arraySize > 1 then c.arraySize else 1)
      else l.invalidBits }

/-- `Cg4Block::PrepareForWriting` (cg4block.cpp lines 431-490) for a group without the VLSD flag. -/
def prepareGroup (cs : List Chan) : Layout :=
  cs.foldl Layout.step { chans := [], byteOffset := 0, nofDataBytes := 0, invalidBits := 0 }

/-- `nof_invalid_bytes_` (cg4block.cpp lines 475-481). -/
def Layout.nofInvalidBytes (l : Layout) : Nat :=
  if l.invalidBits = 0 then 0
  else if l.invalidBits % 8 > 0 then (l.invalidBits / 8 + 1) % 2 ^ 32
  else (l.invalidBits / 8) % 2 ^ 32

/-- The size of `sample_buffer_` (cg4block.cpp lines 483-489). -/
def Layout.recordSize (l : Layout) : Nat := (l.nofInvalidBytes + l.nofDataBytes) % 2 ^ 32

/-- The channels as they are used after preparation: they see the group's number of data bytes through
`cg_block_` (cn4block.cpp lines 1165, 1183). -/
def Layout.result (l : Layout) : List Chan :=
  l.chans.map fun c => { c with nofDataBytes := l.nofDataBytes }

end Mdf
