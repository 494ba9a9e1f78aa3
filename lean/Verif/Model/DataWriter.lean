import Verif.Model.Session

/-!
The bulk data writer: an application fills the record of a channel group by itself and adds it as sample.

Models /repo/include/mdf/idatawriter.h (`SetValue`), /repo/mdflib/src/cg4datawriter.cpp, `MdfFactory::CreateDataWriter`
(/repo/mdflib/src/mdffactory.cpp lines 142-155) and `SampleQueue::AddSample` (/repo/mdflib/src/samplequeue.cpp lines 449-455, 389-399).
The channels are those of `Verif.Model.Session`, without compositions.  The host is little endian.
-/

namespace Mdf

/-- `DataWriterChannelLayout` (idatawriter.h lines 21-28) without the name and the user's pointer. -/
structure DwLayout where
  index : Nat
  byteOffset : Nat
  dataBytes : Nat
  dataType : DataType
deriving DecidableEq, Repr

/-- `Cg4DataWriter` (cg4datawriter.h): the record id of its group, `buffer_` and `layouts_`. -/
structure DataWriter where
  id : Nat
  buffer : Bytes
  layouts : List DwLayout
deriving DecidableEq, Repr

/-- The layout of one channel (cg4datawriter.cpp lines 24-29). -/
def DwLayout.of (c : Chan) (k : Nat) : DwLayout := ⟨k, c.byteOffset, c.dataBytes, c.dataType⟩

/-- The loop of the constructor (cg4datawriter.cpp lines 19-30), from channel `k` on: no layout for a master. -/
def dwLayouts : (k : Nat) → List Chan → List DwLayout
  | _, [] => []
  | k, c :: cs => if c.type = .master then dwLayouts (k + 1) cs else DwLayout.of c k :: dwLayouts (k + 1) cs

/-- The constructor (cg4datawriter.cpp lines 15-31): the buffer has the bytes and the size of the group's sample buffer at this time. -/
def DataWriter.create (id : Nat) (sampleBuffer : Bytes) (cs : List Chan) : DataWriter := ⟨id, sampleBuffer, dwLayouts 0 cs⟩

/-- The value given to `SetValue<T>`: an integer of a type of `size` bytes, or a float or double by its bits. -/
inductive CppVal where
  | int (signed : Bool) (size : Nat) (x : Int)
  | flt (size : Nat) (bits : BitVec 64)
deriving DecidableEq, Repr

/-- `sizeof(T)`. -/
def CppVal.size : CppVal → Nat
  | .int _ n _ => n
  | .flt n _ => n

/-- The bytes of the object, as they are in the memory of a little endian host (two's complement, IEEE). -/
def CppVal.object : CppVal → Bytes
  | .int _ n x => leBytes n (BitVec.ofInt (8 * n) x).toNat
  | .flt n bits => leBytes n bits.toNat

/-- `IDataWriter::SetValue` (idatawriter.h lines 74-107) on the buffer; `none` is undefined behaviour. -/
def dwSet (buffer : Bytes) (l : DwLayout) (v : CppVal) : Option Bytes :=
  if l.dataBytes ≠ v.size then some buffer
  else if l.byteOffset + l.dataBytes > buffer.length then some buffer
  else
    match l.dataType with
    | .unsignedLe | .signedLe | .floatLe => wrBytes buffer l.byteOffset v.object
    | .unsignedBe | .signedBe | .floatBe => wrBytes buffer l.byteOffset v.object.reverse
    | _ => some buffer

/-- The calls of an application between two records.  A raw record is given by a pointer to its bytes, `none` is the null pointer. -/
inductive DwCall where
  | reset
  | set (l : DwLayout) (v : CppVal)
  | raw (record : Option Bytes) (length : Nat)
deriving DecidableEq, Repr

/-- `WriteRawRecord` (cg4datawriter.cpp lines 49-61): the result and the buffer; `none` if more is read than the pointer has. -/
def dwRaw (buffer : Bytes) (record : Option Bytes) (length : Nat) : Option (Bool × Bytes) :=
  if length ≠ buffer.length then some (false, buffer)
  else if length = 0 then some (true, buffer)
  else
    match record with
    | none => some (false, buffer)
    | some r => if r.length < length then none else some (true, r.take length)

/-- `Reset` (cg4datawriter.cpp lines 33-35) and the calls above. -/
def DataWriter.step (w : DataWriter) : DwCall → Option DataWriter
  | .reset => some { w with buffer := List.replicate w.buffer.length 0 }
  | .set l v => (dwSet w.buffer l v).map fun b => { w with buffer := b }
  | .raw r n => (dwRaw w.buffer r n).map fun x => { w with buffer := x.2 }

def DataWriter.run : DataWriter → List DwCall → Option DataWriter
  | w, [] => some w
  | w, c :: cs => (w.step c).bind (·.run cs)

/-- `Commit` (cg4datawriter.cpp lines 63-69); `now` is the time of the call. -/
def DataWriter.commit (w : DataWriter) (now : Nat) : Sample := ⟨now, w.id, w.buffer, none, none⟩

/-- `SampleQueue::AddSample` (samplequeue.cpp lines 449-455): the time of the sample is set, and with a master the time relative to the
start `t` is put in the record (lines 389-399) by a `memcpy` without a look at the size of the record (ichannel.cpp lines 974-1070);
`none` if that leaves the record. -/
def Ses.addSample (s : Ses) (t : Nat) (smp : Sample) (time : Nat) : Option Sample :=
  match s.master (smp.id - s.base) with
  | none => some { smp with time := time }
  | some (k, tk) =>
    match s.chan (smp.id - s.base) k with
    | none => some { smp with time := time }
    | some c =>
      match c.timestampBytes tk (subTime time t) with
      | none => some { smp with time := time }
      | some b => (wrBytes smp.data c.byteOffset b).map fun d => { smp with time := time, data := d }

end Mdf
