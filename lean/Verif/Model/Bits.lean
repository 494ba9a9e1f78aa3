/-
Bit packing in a raw record buffer.

Models /repo/mdflib/src/dbchelper.cpp (namespace mdf, class DbcHelper) and the identical
`MdfHelper::UnsignedToRaw` in /repo/mdflib/src/mdfhelper.cpp lines 367-392.

Undefined behaviour (access outside the buffer, index outside `kMask`, shift by 64 or more) is the
outcome `none`.  A buffer is the list of its bytes; the C++ pointer `raw` points at its first byte.
-/

namespace Mdf

/-- A byte of a buffer (`uint8_t`). -/
abbrev Byte := BitVec 8

/-- A byte buffer (`std::vector<uint8_t>`, or the memory behind a `uint8_t*`). -/
abbrev Bytes := List Byte

/-- Read access `raw[i]` with a C++ `int` index; `none` is undefined behaviour (outside the buffer). -/
def rdByte (raw : Bytes) (i : Int) : Option Byte :=
  if 0 ≤ i then raw[i.toNat]? else none

/-- Write access `raw[i] = b` with a C++ `int` index; `none` is undefined behaviour. -/
def wrByte (raw : Bytes) (i : Int) (b : Byte) : Option Bytes :=
  if 0 ≤ i ∧ i.toNat < raw.length then some (raw.set i.toNat b) else none

/-- dbchelper.cpp line 12: `constexpr uint8_t kMask[8] = {0x01, .., 0x80}`; `none` outside the table. -/
def kMask (bit : Int) : Option Byte :=
  if 0 ≤ bit then ([0x01, 0x02, 0x04, 0x08, 0x10, 0x20, 0x40, 0x80] : List Byte)[bit.toNat]? else none

/-- `static_cast<int>(x)` of a `size_t` value (two's complement, 32 bit `int`). -/
def toInt32 (x : Nat) : Int := Int.bmod (x : Int) (2 ^ 32)

/-- One `--bit; if (bit < 0) { bit = 7; little_endian ? --byte : ++byte; }` step
(dbchelper.cpp lines 400-404, 611-615): the next `(byte, bit)` pair. -/
def stepPos (le : Bool) (byte bit : Int) : Int × Int :=
  let bit := bit - 1
  if bit < 0 then (if le then byte - 1 else byte + 1, 7) else (byte, bit)

/-- The loop of `DbcHelper::UnsignedToRaw` (dbchelper.cpp lines 393-405) with `n` iterations left. -/
def writeLoop (le : Bool) : (n : Nat) → (byte bit : Int) → (mask value : BitVec 64) → Bytes → Option Bytes
  | 0, _, _, _, _, raw => some raw
  | n + 1, byte, bit, mask, value, raw => do
    let b ← rdByte raw byte
    let m ← kMask bit
    let raw ← wrByte raw byte (if value &&& mask ≠ 0 then b ||| m else b &&& ~~~m)
    let p := stepPos le byte bit
    writeLoop le n p.1 p.2 (mask >>> 1) value raw

/-- `DbcHelper::UnsignedToRaw` (dbchelper.cpp lines 381-406), also `MdfHelper::UnsignedToRaw`
(mdfhelper.cpp lines 367-392).  `1ULL << (length - 1)` is undefined for `length > 64`. -/
def unsignedToRaw (le : Bool) (start length : Nat) (value : BitVec 64) (raw : Bytes) : Option Bytes :=
  if length = 0 then some raw
  else if 64 < length then none
  else
    let bit := if le then toInt32 (start + length - 1) else toInt32 start
    writeLoop le length (bit.tdiv 8) (bit.tmod 8) (1#64 <<< (length - 1)) value raw

/-- The loop of `DbcHelper::RawToUnsigned` (dbchelper.cpp lines 604-616) with `n` iterations left.
The C++ code shifts the value before every iteration but the first; shifting the initial zero is
the same. -/
def readLoop (le : Bool) : (n : Nat) → (byte bit : Int) → (value : BitVec 64) → Bytes → Option (BitVec 64)
  | 0, _, _, value, _ => some value
  | n + 1, byte, bit, value, raw => do
    let b ← rdByte raw byte
    let m ← kMask bit
    let value := value <<< 1
    let value := if b &&& m ≠ 0 then value ||| 1 else value
    let p := stepPos le byte bit
    readLoop le n p.1 p.2 value raw

/-- `DbcHelper::RawToUnsigned` (dbchelper.cpp lines 596-618).  With `length = 0` the loop is not
entered and 0 is returned. -/
def rawToUnsigned (le : Bool) (start length : Nat) (raw : Bytes) : Option (BitVec 64) :=
  if length = 0 then some 0
  else
    let byte := (if le then toInt32 (start + length - 1) else toInt32 start).tdiv 8
    let bit := toInt32 ((start + length - 1) % 8)
    readLoop le length byte bit 0 raw

/-- Reading the signed bit field `val<length>` of the union `signed64` (dbchelper.cpp lines 13-80,
525-592): the low `length` bits, sign extended to 64 bits; 0 for lengths without a case. -/
def signedField (length : Nat) (temp : BitVec 64) : BitVec 64 :=
  if length = 0 ∨ 64 < length then 0 else (temp.setWidth length).signExtend 64

/-- `DbcHelper::RawToSigned` (dbchelper.cpp lines 500-594).  The bit loop is that of
`RawToUnsigned`. -/
def rawToSigned (le : Bool) (start length : Nat) (raw : Bytes) : Option (BitVec 64) :=
  (rawToUnsigned le start length raw).map (signedField length)

/-- `DbcHelper::SignedToRaw` (dbchelper.cpp lines 154-379): the value is stored in the bit field
`val<length>` of a zeroed union, i.e. truncated to `length` bits; lengths above 64 are ignored. -/
def signedToRaw (le : Bool) (start length : Nat) (value : BitVec 64) (raw : Bytes) : Option Bytes :=
  if length = 0 ∨ 64 < length then some raw
  else unsignedToRaw le start length ((value.setWidth length).setWidth 64) raw

/-- `DbcHelper::SetAllBits` (dbchelper.cpp lines 620-631), loop with index `i` up to `i + n`. -/
def setAllBitsLoop : (n i : Nat) → (start : Nat) → Bytes → Option Bytes
  | 0, _, _, raw => some raw
  | n + 1, i, start, raw => do
    let b ← rdByte raw ((start + i) / 8)
    let m ← kMask ((start + i) % 8)
    let raw ← wrByte raw ((start + i) / 8) (b ||| m)
    setAllBitsLoop n (i + 1) start raw

def setAllBits (start length : Nat) (raw : Bytes) : Option Bytes := setAllBitsLoop length 0 start raw

/-- The loop of `DbcHelper::IsAllBitsSet` (dbchelper.cpp lines 640-648). -/
def isAllBitsSetLoop : (n i : Nat) → (start : Nat) → Bytes → Option Bool
  | 0, _, _, _ => some true
  | n + 1, i, start, raw => do
    let b ← rdByte raw ((start + i) / 8)
    let m ← kMask ((start + i) % 8)
    if b &&& m = 0 then some false else isAllBitsSetLoop n (i + 1) start raw

/-- `DbcHelper::IsAllBitsSet` (dbchelper.cpp lines 633-649), for a non-null pointer. -/
def isAllBitsSet (start length : Nat) (raw : Bytes) : Option Bool :=
  if length ≤ 1 then some false else isAllBitsSetLoop length 0 start raw

/-! ### Specification vocabulary (independent of the loops above) -/

/-- Bit `p` of a buffer: bit `p % 8` of byte `p / 8` (bit 0 of a byte is the least significant).
Bits outside the buffer are `false`. -/
def bitAt (raw : Bytes) (p : Nat) : Bool :=
  match raw[p / 8]? with
  | some b => b.getLsbD (p % 8)
  | none => false

/-- The whole buffer as one little-endian number. -/
def leNat : Bytes → Nat
  | [] => 0
  | b :: bs => b.toNat + 256 * leNat bs

/-- The whole buffer as one big-endian number. -/
def beNat (raw : Bytes) : Nat := leNat raw.reverse

end Mdf
