import Verif.Model.Can
import Verif.Model.Store

/-!
What the members of a CAN frame mean, in terms of the message.
-/

namespace Mdf

/-- The value of a member of a frame: the bits of the message it is documented to hold. -/
def CanMsg.meaning (m : CanMsg) : CanName → Option Nat
  | .busChannel => some m.busChannel.toNat
  | .id => some (m.messageId.toNat % 2 ^ 29)
  | .ide => some (m.messageId.toNat / 2 ^ 31)
  | .dlc => some (m.dlc.toNat % 16)
  | .dataLength => some (m.data.length % 256)
  | .dir => some m.dir.toNat
  | .srr => some m.srr.toNat
  | .edl => some m.edl.toNat
  | .brs => some m.brs.toNat
  | .esi => some m.esi.toNat
  | .wakeUp => some m.wakeUp.toNat
  | .singleWire => some m.singleWire.toNat
  | .r0 => some m.r0.toNat
  | .r1 => some m.r1.toNat
  | .errorType => some (m.errorType.toNat % 8)
  | .frameDuration => some m.duration.toNat
  | .bitPosition => some m.bitPosition.toNat
  | .crc => some m.crc.toNat
  | .dataBytes => none

/-- The size of the records of the group (C09). -/
def CanCfg.recordSize (cfg : CanCfg) : Nat := (prepareGroup cfg.topLevel).recordSize

/-- The record that `SampleQueue::SaveCanMessage` makes of a message (samplequeue.cpp lines 174-205): the storage type of the group
decides if the data bytes are stored outside the record. -/
def CanCfg.save (cfg : CanCfg) (m : CanMsg) (s : CanSample) : Option CanSample :=
  m.toRaw cfg.frame cfg.mandatory (cfg.store ≠ .mlsd) cfg.groupMax s

/-- The record in the file: the position of the variable length data is written over the last 8 bytes (`patchIndex`, C18). -/
def CanSample.stored (s : CanSample) (index : Nat) : Bytes := if s.vlsdData then patchIndex s.record index else s.record

/-- The settings the record layout supports: with MLSD storage the frame has room for at least 8 data bytes.  (The upper limit
keeps the record below 128 MiB.) -/
def CanCfg.Ok (cfg : CanCfg) : Prop := (cfg.store = .mlsd → 8 ≤ cfg.writerMax) ∧ cfg.writerMax ≤ 2 ^ 27

instance (cfg : CanCfg) : Decidable cfg.Ok := by unfold CanCfg.Ok; infer_instance

/-- The number of data bytes of a data length code (ISO 11898-1). -/
def fdLength (d : Nat) : Nat :=
  if d ≤ 8 then d else if d ≤ 12 then 12 + 4 * (d - 9) else if d = 13 then 32 else if d = 14 then 48 else 64

/-- The smallest code for a number of bytes. -/
def IsCode (length d : Nat) : Prop := d < 16 ∧ length ≤ fdLength d ∧ ∀ e, e < d → fdLength e < length

/-- A saved message: the message, the sample record before and after, and the position of its variable length data. -/
structure CanSaved where
  msg : CanMsg
  before : CanSample
  after : CanSample
  index : Nat

/-- The record was made by the writer from a new sample record of the group. -/
structure CanSaved.Ok (cfg : CanCfg) (x : CanSaved) : Prop where
  size : x.before.record.length = cfg.recordSize
  fresh : x.before.vlsdData = false
  saved : cfg.save x.msg x.before = some x.after

/-- The record in the file. -/
def CanSaved.record (x : CanSaved) : Bytes := x.after.stored x.index

/-- The group has a channel for the member. -/
def CanCfg.has (cfg : CanCfg) (n : CanName) : Bool := cfg.members.any fun e => e.1 == n

/-- Message `g` holds what group `cfg` stores of message `m`, apart from the members `lost`. -/
def CanCfg.Preserves (cfg : CanCfg) (lost : List CanName) (m g : CanMsg) : Prop :=
  (∀ n, cfg.has n = true → n ∉ lost → g.meaning n = m.meaning n) ∧ (cfg.has .dataBytes = true → g.data = m.data)

end Mdf
