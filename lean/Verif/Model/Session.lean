import Verif.Model.Store
import Verif.Model.Sort
import Verif.Model.Utf
import Verif.Model.RecordId
import Verif.Model.Observer

/-!
A measurement as the application sees it: `SetChannelValue` and `SaveSample` in any order, and `GetChannelValue` of what is read.

Models the templates `IChannel::SetChannelValue` and `GetChannelValue` (/repo/include/mdf/ichannel.h, /repo/mdflib/src/ichannel.cpp)
with the functions of `Cn4Block` they call (/repo/mdflib/src/cn4block.cpp), the sample buffer of a channel group
(/repo/mdflib/src/cg4block.cpp `PrepareForWriting`, /repo/mdflib/src/ichannelgroup.cpp `GetSampleRecord`), `MdfWriter::SaveSample`
(/repo/mdflib/src/samplequeue.cpp lines 167-172) and the calculation of the master time (samplequeue.cpp lines 389-447, ichannel.cpp
`SetTimestamp`).  The setters and getters themselves are `Verif.Model.Channel`, the queue and its thread `Verif.Model.Queue`.
-/

namespace Mdf

/-! ### Setting -/

/-- A number given to `SetChannelValue`, by its casts: to `uint64_t`, to `int64_t`, to `double` (as bits, and as bits of the
`float` made of it), and `std::to_string`.  `canOpen` are the arrays `NsToCanOpenDateArray` and `NsToCanOpenTimeArray` make of it if it
is a `uint64_t`. -/
structure NumCasts where
  uns : BitVec 64
  sgn : BitVec 64
  f32 : BitVec 32
  f64 : BitVec 64
  text : Bytes
  canOpen : Option (Bytes × Bytes)
deriving DecidableEq, Repr

/-- A text given to `SetChannelValue`, with what `std::stoull`, `stoll` and `stod` make of it (`none` is an exception, which leaves
everything as it is). -/
structure TextCasts where
  text : Bytes
  uns : Option (BitVec 64)
  sgn : Option (BitVec 64)
  flt : Option (BitVec 32 × BitVec 64)
deriving DecidableEq, Repr

/-- The argument of `SetChannelValue`. -/
inductive SetVal where
  | num (x : NumCasts)
  | text (t : TextCasts)
  | bytes (b : Bytes)
deriving DecidableEq, Repr

/-- `Cn4Block::SetTextValue` (cn4block.cpp lines 808-835): record buffer and signal data of the channel.  `VlsdData` of a text has
its terminating zero (vlsddata.cpp lines 11-15). -/
def Chan.setTextValue (c : Chan) (t : Bytes) (valid : Bool) (buf sd : Bytes) : Option (Bytes × Bytes) :=
  if c.type = .variableLength then c.vlsdSet (t ++ [0]) valid sd buf else (c.setText t valid buf).map fun b => (b, sd)

/-- `Cn4Block::SetByteArray` (cn4block.cpp lines 837-864). -/
def Chan.setByteArrayValue (c : Chan) (b : Bytes) (valid : Bool) (buf sd : Bytes) : Option (Bytes × Bytes) :=
  if c.type = .variableLength then c.vlsdSet b valid sd buf
  else (c.setByteArray b valid (c.setValid valid 0 buf)).map fun b => (b, sd)

/-- `SetChannelValue` of a number (ichannel.h lines 719-786). -/
def Chan.setNumber (c : Chan) (x : NumCasts) (valid : Bool) (i : Nat) (buf sd : Bytes) : Option (Bytes × Bytes) :=
  match c.dataType with
  | .unsignedLe => (c.setUnsignedLe x.uns valid i buf).map fun b => (b, sd)
  | .unsignedBe => (c.setUnsignedBe x.uns valid i buf).map fun b => (b, sd)
  | .signedLe => (c.setSignedLe x.sgn valid i buf).map fun b => (b, sd)
  | .signedBe => (c.setSignedBe x.sgn valid i buf).map fun b => (b, sd)
  | .floatLe => (c.setFloat .le x.f32 x.f64 valid i buf).map fun b => (b, sd)
  | .floatBe => (c.setFloat .be x.f32 x.f64 valid i buf).map fun b => (b, sd)
  | .stringAscii | .stringUtf8 | .stringUtf16Le | .stringUtf16Be => c.setTextValue x.text valid buf sd
  | .byteArray | .mimeSample | .mimeStream => some (buf, sd)
  | .canOpenDate =>
    match x.canOpen with
    | some a => if c.dataBytes = 7 then c.setByteArrayValue a.1 valid buf sd else some (c.setValid false i buf, sd)
    | none => some (c.setValid false i buf, sd)
  | .canOpenTime =>
    match x.canOpen with
    | some a => if c.dataBytes = 6 then c.setByteArrayValue a.2 valid buf sd else some (c.setValid false i buf, sd)
    | none => some (c.setValid false i buf, sd)
  | .complexLe | .complexBe => some (c.setValid false i buf, sd)

/-- A call with a number that may not be there: `std::stoull` and so on throw first. -/
def orThrow {α : Type} (o : Option α) (buf sd : Bytes) (f : α → Option Bytes) : Option (Bytes × Bytes) :=
  match o with
  | some a => (f a).map fun b => (b, sd)
  | none => some (buf, sd)

/-- `SetChannelValue` of a text (ichannel.cpp lines 762-815). -/
def Chan.setString (c : Chan) (t : TextCasts) (valid : Bool) (i : Nat) (buf sd : Bytes) : Option (Bytes × Bytes) :=
  match c.dataType with
  | .unsignedLe => orThrow t.uns buf sd fun u => c.setUnsignedLe u valid i buf
  | .unsignedBe => orThrow t.uns buf sd fun u => c.setUnsignedBe u valid i buf
  | .signedLe => orThrow t.sgn buf sd fun u => c.setSignedLe u valid i buf
  | .signedBe => orThrow t.sgn buf sd fun u => c.setSignedBe u valid i buf
  | .floatLe => orThrow t.flt buf sd fun f => c.setFloat .le f.1 f.2 valid i buf
  | .floatBe => orThrow t.flt buf sd fun f => c.setFloat .be f.1 f.2 valid i buf
  | .stringAscii | .stringUtf8 | .stringUtf16Le | .stringUtf16Be => c.setTextValue t.text valid buf sd
  | .byteArray | .mimeSample | .mimeStream => c.setByteArrayValue t.text valid buf sd
  | .canOpenDate | .canOpenTime | .complexLe | .complexBe => some (c.setValid false i buf, sd)

/-- `SetChannelValue` of a byte array (ichannel.cpp lines 817-855). -/
def Chan.setBytes (c : Chan) (v : Bytes) (valid : Bool) (i : Nat) (buf sd : Bytes) : Option (Bytes × Bytes) :=
  match c.dataType with
  | .stringAscii | .stringUtf8 | .stringUtf16Le | .stringUtf16Be | .byteArray | .mimeSample | .mimeStream =>
    c.setByteArrayValue v valid buf sd
  | .canOpenDate | .canOpenTime =>
    if v.length = c.dataBytes then c.setByteArrayValue v valid buf sd else some (c.setValid false i buf, sd)
  | _ => some (c.setValid false i buf, sd)

/-- `SetChannelValue`: the record buffer of the group and the signal data of the channel afterwards; `none` is undefined behaviour. -/
def Chan.setValue (c : Chan) (v : SetVal) (valid : Bool) (i : Nat) (buf sd : Bytes) : Option (Bytes × Bytes) :=
  match v with
  | .num x => c.setNumber x valid i buf sd
  | .text t => c.setString t valid i buf sd
  | .bytes b => c.setBytes b valid i buf sd

/-! ### Getting -/

/-- What `GetChannelValue` gives, in the type of the observer `CreateChannelObserver` makes (mdfreader.cpp lines 89-180): a number, an
integer, the bits of a float, a text, bytes.  `other` stands for the data types not covered here (CANopen, complex), `ub` for undefined
behaviour. -/
inductive ChanVal where
  | num (v : Nat)
  | int (v : Int)
  | float (bits : BitVec 64)
  | text (t : Bytes)
  | bytes (b : Bytes)
  | other
  | ub
deriving DecidableEq, Repr

/-- The end of `GetChannelValue` (ichannel.h lines 701-704): the validity bit is looked at if the value could be read; else the value
is the initial one. -/
def Res.shown {α : Type} (r : Res α) (valid : Bool) (f : α → ChanVal) (init : ChanVal) : Bool × ChanVal :=
  match r with
  | .ub => (false, .ub)
  | .fail => (false, init)
  | .ok a => (valid, f a)

/-- The bytes of a value (cn4block.cpp lines 634-678 and 754-806): those of the record, or of the signal data at the offset in the
record.  Channels with a VLSD group and channels whose length is in another channel (`mlsd_channel_`) are not covered. -/
def Chan.valueBytes (c : Chan) (record sd : Bytes) : Res (Bool × Bytes) :=
  if c.type = .variableLength then c.vlsdGet record sd
  else if c.byteOffset + c.bitCount / 8 ≤ record.length then .ok (true, (record.drop c.byteOffset).take (c.bitCount / 8))
  else .ok (false, List.replicate (c.bitCount / 8) 0)

/-- The text made of the bytes (cn4block.cpp lines 680-749), with a 32 bit `wchar_t`. -/
def textOf (d : DataType) (b : Bytes) : Bytes :=
  match d with
  | .stringAscii => latin1Text b
  | .stringUtf16Le => utf16Text32 leNat b
  | .stringUtf16Be => utf16Text32 beNat b
  | _ => utf8Text b

/-- `GetChannelValue` (ichannel.h lines 632-706; ichannel.cpp lines 585-760) for the type of the channel's observer.  A numeric
observer has a value type of the channel's size, so casting to it does not change the value. -/
def Chan.channelValue (c : Chan) (sd record : Bytes) (i : Nat) : Bool × ChanVal :=
  match c.dataType with
  | .unsignedLe | .unsignedBe => (c.getUnsigned record i).shown (c.getValid record i) (fun v => .num v.toNat) (.num 0)
  | .signedLe | .signedBe => (c.getSigned record i).shown (c.getValid record i) (fun v => .int v.toInt) (.int 0)
  | .floatLe | .floatBe => (c.getFloatBits record i).shown (c.getValid record i) (fun v => .float v) (.float 0)
  | .stringAscii | .stringUtf8 | .stringUtf16Le | .stringUtf16Be =>
    match c.valueBytes record sd with
    | .ub => (false, .ub)
    | .fail => (false, .text [])
    | .ok r => (r.1 && c.getValid record i, .text (textOf c.dataType r.2))
  | .byteArray | .mimeSample | .mimeStream =>
    match c.valueBytes record sd with
    | .ub => (false, .ub)
    | .fail => (false, .bytes [])
    | .ok r => (r.1 && c.getValid record i, .bytes r.2)
  | .canOpenDate | .canOpenTime | .complexLe | .complexBe => (false, .other)

/-! ### The measurement -/

/-- What `SetTimestamp` makes of a time relative to the start (in nanoseconds) after the reverse conversion: the casts of the
`double`. -/
structure Ticks where
  uns : Int → BitVec 64
  sgn : Int → BitVec 64
  f32 : Int → BitVec 32
  f64 : Int → BitVec 64

/-- The bytes `IChannel::SetTimestamp` copies to the record (ichannel.cpp lines 974-1070); `none` if it copies nothing. -/
def Chan.timestampBytes (c : Chan) (tk : Ticks) (rel : Int) : Option Bytes :=
  match c.dataType with
  | .unsignedBe => intBytes .be (c.bitCount / 8) (tk.uns rel)
  | .unsignedLe => intBytes .le (c.bitCount / 8) (tk.uns rel)
  | .signedBe => intBytes .be (c.bitCount / 8) (tk.sgn rel)
  | .signedLe => intBytes .le (c.bitCount / 8) (tk.sgn rel)
  | .floatLe => floatBytes .le (c.bitCount / 8) (tk.f32 rel) (tk.f64 rel)
  | .floatBe => floatBytes .be (c.bitCount / 8) (tk.f32 rel) (tk.f64 rel)
  | _ => none

/-- The data group of a measurement: the channels of its groups as the application made them, and for each group the time master
(samplequeue.cpp lines 402-428) if its times are calculated, with the conversion of its times. -/
structure Ses where
  groups : List (List Chan)
  master : Nat → Option (Nat × Ticks)

/-- The channels of a group after `PrepareForWriting`. -/
def Ses.layout (s : Ses) (g : Nat) : Layout := prepareGroup (s.groups.getD g [])

def Ses.chan (s : Ses) (g k : Nat) : Option Chan := (s.layout g).result[k]?

/-- The first record id: 0 for a single group, else 1 (dg4block.cpp lines 655-660). -/
def Ses.base (s : Ses) : Nat := if s.groups.length < 2 then 0 else 1

def Ses.id (s : Ses) (g : Nat) : Nat := s.base + g

/-- The record of a sample with the master time calculated (samplequeue.cpp lines 389-399, 430-447).  The `memcpy` to the record is
inside of it for a channel of the layout, see `C79_values_set_are_read_partial`. -/
def Ses.render (s : Ses) (smp : Sample) : Bytes :=
  match s.master (smp.id - s.base), smp.stamp with
  | some (k, tk), some t =>
    match s.chan (smp.id - s.base) k with
    | some c =>
      match c.timestampBytes tk (subTime smp.time t) with
      | some b => smp.data.take c.byteOffset ++ b ++ smp.data.drop (c.byteOffset + b.length)
      | none => smp.data
    | none => smp.data
  | _, _ => smp.data

/-- The groups of the data group as `Verif.Model.Store` sees them. -/
def Ses.store (s : Ses) : SCfg :=
  { idSize := recIdSize s.groups.length,
    groups := (List.range s.groups.length).map fun g => ⟨s.id g, false, (s.layout g).recordSize, 0⟩,
    sd := fun _ => false, render := s.render }

/-- What the application and the writer's thread do. -/
inductive AppCall where
  | /-- `SetChannelValue` on channel `k` of group `g` -/ set (g k : Nat) (v : SetVal) (valid : Bool) (i : Nat)
  | /-- `SaveSample` -/ save (g time : Nat)
  | /-- starting, stopping and the steps of the thread -/ other (a : Act)

/-- The sample buffers of the groups and the signal data of the channels. -/
structure SesBuf where
  buf : Nat → Bytes
  sd : Nat → Nat → Bytes

/-- After `InitMeasurement`: zeros (cg4block.cpp lines 483-489), no signal data (cn4block.cpp lines 1025-1029). -/
def Ses.init (s : Ses) : SesBuf := { buf := fun g => List.replicate (s.layout g).recordSize 0, sd := fun _ _ => [] }

def SesBuf.set (b : SesBuf) (s : Ses) (g k : Nat) (v : SetVal) (valid : Bool) (i : Nat) : Option SesBuf :=
  match s.chan g k with
  | none => none
  | some c =>
    (c.setValue v valid i (b.buf g) (b.sd g k)).map fun r =>
      { buf := fun g' => if g' = g then r.1 else b.buf g',
        sd := fun g' k' => if g' = g ∧ k' = k then r.2 else b.sd g' k' }

/-- `GetSampleRecord` (ichannelgroup.cpp lines 12-18) and `SaveSample` (samplequeue.cpp lines 167-172). -/
def SesBuf.sample (b : SesBuf) (s : Ses) (g time : Nat) : Sample := ⟨time, s.id g, b.buf g, none, none⟩

/-- The sessions: a call, `none` if it is not possible or undefined. -/
def Ses.step (s : Ses) (q : WCfg) (st : SesBuf × W) : AppCall → Option (SesBuf × W)
  | .set g k v valid i => (st.1.set s g k v valid i).map fun b => (b, st.2)
  | .save g time => if g < s.groups.length then (st.2.step q (.add (st.1.sample s g time))).map fun w => (st.1, w) else none
  | .other (.add _) => none
  | .other a => (st.2.step q a).map fun w => (st.1, w)

def Ses.run (s : Ses) (q : WCfg) : List AppCall → SesBuf × W → Option (SesBuf × W)
  | [], st => some st
  | c :: cs, st => (s.step q st c).bind (s.run q cs)

/-- The observer that `CreateChannelObserver` makes for a channel of the file (mdfreader.cpp lines 89-180, channelobserver.h lines 38-54),
with the signal data of the channel; `nof` is the number of samples of the group.  The values are those of `GetChannelValue`. -/
def Ses.observer (s : Ses) (g : Nat) (c : Chan) (sd : Bytes) (nof : Nat) : ObsCfg ChanVal :=
  { kind := if c.type = .variableLength then .vlsd else .fixed, recordId := s.id g, vlsdId := 0, arraySize := c.arraySize, nof := nof,
    readVlsd := true, default := .other, value := fun record i => c.channelValue sd record i, offset := fun _ _ => (false, 0),
    virt := fun _ => .other }

end Mdf
