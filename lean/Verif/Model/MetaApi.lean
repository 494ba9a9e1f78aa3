import Verif.Model.Meta

/-!
# Setting and getting the values of blocks

The functions of `IHeader`, `IChannel`, `IChannelConversion`, `IEvent`, `IAttachment`, `ISourceInformation`, `IChannelGroup` and
`IDataGroup` that set and return the values of a block, as implemented by the MDF 4 block classes.
-/

namespace Mdf

/-- `flags_ |= mask` and `(flags_ & mask) != 0`. -/
def hasFlag {w : Nat} (flags mask : BitVec w) : Bool := flags &&& mask ≠ 0

/-! ## Timestamps -/

/-- The argument of `SetTime`: nanoseconds or one of the timestamp classes of timestamp.cpp with its `GetTimeNs`,
`GetTimezoneMin` and `GetDstMin`. -/
inductive TimeArg where
  | ns (time : BitVec 64)
  | utc (time : BitVec 64)
  | loc (time : BitVec 64) (tz dst : BitVec 16)
  | zone (time : BitVec 64) (tz dst : BitVec 16)
deriving DecidableEq, Repr

/-- `Mdf4Timestamp::SetTime` (mdf4timestamp.cpp lines 45-68). -/
def Stamp.set : TimeArg → Stamp
  | .ns t => ⟨t, 0, 0, 0⟩
  | .utc t => ⟨t, 0, 0, 0⟩
  | .loc t _ _ => ⟨t, 0, 0, 1⟩
  | .zone t tz dst => ⟨t, tz, dst, 2⟩

/-- `timetype::MdfTimestampType` (imdftimestamp.h). -/
inductive TimeKind where
  | utc | loc | zone
deriving DecidableEq, Repr

/-- `Mdf4Timestamp::GetTimeType` (mdf4timestamp.cpp lines 111-119). -/
def Stamp.kind (v : Stamp) : TimeKind :=
  if hasFlag v.flags 2#8 then .zone else if hasFlag v.flags 1#8 then .loc else .utc

/-- `GetTzOffsetMin` (line 108): the `int16_t` member is returned as `uint16_t`. -/
def Stamp.tzOffsetMin (v : Stamp) : Nat := v.tz.toNat

/-- `GetDstOffsetMin` (line 109), the same. -/
def Stamp.dstOffsetMin (v : Stamp) : Nat := v.dst.toNat

/-! ## The header -/

inductive HdOp where
  | startTime (t : TimeArg)
  | angle (x : BitVec 64)
  | distance (x : BitVec 64)
deriving DecidableEq, Repr

/-- hd4block.cpp: `StartTime` lines 374-380, `StartAngle` lines 486-489, `StartDistance` lines 498-501. -/
def HdVals.apply (v : HdVals) : HdOp → HdVals
  | .startTime t => { v with stamp := Stamp.set t }
  | .angle x => { v with flags := v.flags ||| 1#8, angle := x }
  | .distance x => { v with flags := v.flags ||| 2#8, distance := x }

/-- `StartAngle() const` (lines 491-496). -/
def HdVals.startAngle (v : HdVals) : Option (BitVec 64) := if hasFlag v.flags 1#8 then some v.angle else none

/-- `StartDistance() const` (lines 503-508). -/
def HdVals.startDistance (v : HdVals) : Option (BitVec 64) := if hasFlag v.flags 2#8 then some v.distance else none

/-! ## Channels -/

inductive CnOp where
  | type (x : BitVec 8)
  | sync (x : BitVec 8)
  | dataType (x : BitVec 8)
  | dataBytes (x : BitVec 64)
  | bitCount (x : BitVec 32)
  | bitOffset (x : BitVec 16)
  | byteOffset (x : BitVec 32)
  | flags (x : BitVec 32)
  | decimals (x : BitVec 8)
  | range (min max : BitVec 64)
  | limit (min max : BitVec 64)
  | extLimit (min max : BitVec 64)
deriving DecidableEq, Repr

/-- `Cn4Block::DataBytes() const` (cn4block.cpp lines 254-269). -/
def CnVals.dataBytes (v : CnVals) : Nat := v.bitCount.toNat / 8 + (if v.bitCount.toNat % 8 > 0 then 1 else 0)

/-- `Cn4Block::DataType` (lines 880-905). -/
def CnVals.setDataType (v : CnVals) (x : BitVec 8) : CnVals :=
  if x.toNat ≤ 5 then { v with dataType := x, bitCount := if v.dataBytes = 0 then 32#32 else v.bitCount }
  else if x.toNat = 13 then { v with dataType := x, bitCount := 56#32 }
  else if x.toNat = 14 then { v with dataType := x, bitCount := 48#32 }
  else { v with dataType := x }

/-- The setters: cn4block.cpp `Decimals` lines 271-274, `BitCount` .. `ByteOffset` lines 617-631, `Type` 876-878, `DataType`
880-905, `DataBytes` 907-909, `Sync` 932-934, `Range` 940-944, `Limit` 952-956, `ExtLimit` 964-968, `Flags` 1019. -/
def CnVals.apply (v : CnVals) : CnOp → CnVals
  | .type x => { v with type := x }
  | .sync x => { v with sync := x }
  | .dataType x => v.setDataType x
  | .dataBytes x => { v with bitCount := (x * 8#64).setWidth 32 }
  | .bitCount x => { v with bitCount := x }
  | .bitOffset x => { v with bitOffset := x.setWidth 8 }
  | .byteOffset x => { v with byteOffset := x }
  | .flags x => { v with flags := x }
  | .decimals x => { v with precision := x, flags := v.flags ||| 0x4#32 }
  | .range a b => { v with rangeMin := a, rangeMax := b, flags := v.flags ||| 0x8#32 }
  | .limit a b => { v with limitMin := a, limitMax := b, flags := v.flags ||| 0x10#32 }
  | .extLimit a b => { v with extMin := a, extMax := b, flags := v.flags ||| 0x20#32 }

/-- What `PrepareForWriting` and `Write` change (cn4block.cpp lines 1023-1148 and 504): the place in the record, the size, the
type of strings, the number of attachments; the flag for invalid bits of masters and virtual channels.  The rules for these are in the
model of the record layout. -/
structure CnPrep where
  type : BitVec 8
  byteOffset : BitVec 32
  bitCount : BitVec 32
  invalidPos : BitVec 32
  nofAttachments : BitVec 16
  /-- a master or virtual channel -/
  noInvalid : Bool
deriving DecidableEq, Repr

def CnVals.prepare (v : CnVals) (p : CnPrep) : CnVals :=
  { v with type := p.type, bitOffset := 0, byteOffset := p.byteOffset, bitCount := p.bitCount, invalidPos := p.invalidPos,
           nofAttachments := p.nofAttachments, flags := if p.noInvalid then v.flags &&& ~~~0x2#32 else v.flags }

/-- `IsDecimalUsed` and `Decimals() const` (lines 276-284): the decimals if they were set. -/
def CnVals.decimals? (v : CnVals) : Option (BitVec 8) := if hasFlag v.flags 0x4#32 then some v.precision else none

/-- `Range() const` (lines 946-950). -/
def CnVals.range? (v : CnVals) : Option (BitVec 64 × BitVec 64) :=
  if hasFlag v.flags 0x8#32 then some (v.rangeMin, v.rangeMax) else none

/-- `Limit() const` (lines 958-962). -/
def CnVals.limit? (v : CnVals) : Option (BitVec 64 × BitVec 64) :=
  if hasFlag v.flags 0x10#32 then some (v.limitMin, v.limitMax) else none

/-- `ExtLimit() const` (lines 970-974); `IChannel::Limit` returns nothing. -/
def CnVals.extLimit? (v : CnVals) : Option (BitVec 64 × BitVec 64) :=
  if hasFlag v.flags 0x20#32 then some (v.extMin, v.extMax) else none

/-! ## Conversions -/

inductive CcOp where
  | type (x : BitVec 8)
  | decimals (x : BitVec 8)
  | /-- `Range(min, max)`; `gt` tells if `max > min` -/ range (min max : BitVec 64) (gt : Bool)
  | flags (x : BitVec 16)
  | /-- `Parameter(index, double)` -/ param (index : BitVec 16) (x : BitVec 64)
  | /-- `ParameterUint(index, x)`; `asDouble` is `static_cast<double>(x)` -/ paramUint (index : BitVec 16) (x asDouble : BitVec 64)
deriving DecidableEq, Repr

/-- The loop and the assignment of `Parameter` (ichannelconversion.cpp lines 317-322) and `ParameterUint` (lines 359-362). -/
def setParam (l : List Param) (i : Nat) (zero x : Param) : List Param :=
  (l ++ List.replicate (i + 1 - l.length) zero).set i x

/-- cc4block.cpp lines 102-141, ichannelconversion.cpp lines 317-363. -/
def CcVals.apply (v : CcVals) : CcOp → CcVals
  | .type x => { v with type := x }
  | .decimals x => { v with flags := v.flags ||| 1#16, precision := x }
  | .range a b gt => { v with rangeMin := a, rangeMax := b, flags := if gt then v.flags ||| 2#16 else v.flags }
  | .flags x => { v with flags := x }
  | .param i x => { v with params := setParam v.params i.toNat (.dbl 0) (.dbl x) }
  | .paramUint i x d =>
    if v.type = ccBitfield then { v with params := setParam v.params i.toNat (.uint 0) (.uint x) }
    else { v with params := setParam v.params i.toNat (.dbl 0) (.dbl d) }

/-- `Range() const` (cc4block.cpp lines 134-138). -/
def CcVals.range? (v : CcVals) : Option (BitVec 64 × BitVec 64) :=
  if hasFlag v.flags 2#16 then some (v.rangeMin, v.rangeMax) else none

/-- A new conversion (cc4block.h lines 91-97). -/
def CcVals.new : CcVals := ⟨0, 0, 0, 0, 0, 0, []⟩

/-! ## Attachments -/

inductive AtOp where
  | creator (x : BitVec 16)
  | embedded (b : Bool)
  | compressed (b : Bool)
deriving DecidableEq, Repr

/-- at4block.cpp lines 297-303, 311-317 and 352. -/
def AtVals.apply (v : AtVals) : AtOp → AtVals
  | .creator x => { v with creator := x }
  | .embedded b => { v with flags := if b then v.flags ||| 1#16 else v.flags &&& ~~~1#16 }
  | .compressed b => { v with flags := if b then v.flags ||| 2#16 else v.flags &&& ~~~2#16 }

def AtVals.isEmbedded (v : AtVals) : Bool := hasFlag v.flags 1#16
def AtVals.isCompressed (v : AtVals) : Bool := hasFlag v.flags 2#16

/-! ## Events -/

inductive EvOp where
  | type (x : BitVec 8)
  | sync (x : BitVec 8)
  | range (x : BitVec 8)
  | cause (x : BitVec 8)
  | /-- `CreatorIndex(size_t)` -/ creator (x : BitVec 64)
  | syncValue (x : BitVec 64)
  | syncFactor (x : BitVec 64)
deriving DecidableEq, Repr

/-- ev4block.cpp lines 236-270. -/
def EvVals.apply (v : EvVals) : EvOp → EvVals
  | .type x => { v with type := x }
  | .sync x => { v with sync := x }
  | .range x => { v with range := x }
  | .cause x => { v with cause := x }
  | .creator x => { v with creator := x.setWidth 16 }
  | .syncValue x => { v with syncValue := x }
  | .syncFactor x => { v with syncFactor := x }

/-- A new event (ev4block.h lines 67-77): a marker, synchronised to time, factor 1. -/
def EvVals.new : EvVals := ⟨6, 1, 0, 0, 0, 0, 0, 0, 0, 0x3FF0000000000000⟩

/-! ## Reading a block -/

/-- `Read` of a block class up to the values: `ReadHeader4`, then the values. -/
def readBlockVals {α : Type} (get : Get α) (data : Bytes) (pos : Nat) : Option α :=
  (readHeader data pos).bind fun h => (get h.2).map (·.1)

end Mdf
