import Verif.Model.Lin
import Verif.Model.Eth
import Verif.Model.FlexRay
import Verif.Model.Most
import Verif.Spec.Can

/-!
What must be found in the file of a bus message, in terms of the message.
-/

namespace Mdf

/-- What must be found of a message in a group with records of `size` bytes and the channels `members`.  `before` is the sample record the group
gives, `after` the sample record with the message; `index` is the position of the data bytes of variable length, if there are any.  `meaning` gives
the value of a member; `none` says nothing about it. -/
structure BusFound {N : Type} (size : Nat) (members : List (N × Chan)) (meaning : N → Option BusVal) (data : Bytes) (before after : CanSample)
    (index : Nat) : Prop where
  /-- the record in the file has the size the group says -/
  size : (after.stored index).length = size
  /-- the first 8 bytes are the time -/
  time : (after.stored index).take 8 = before.record.take 8
  /-- each channel gives the value of the message -/
  value : ∀ e ∈ members, ∀ v, meaning e.1 = some v → e.2.busValue (after.stored index) = some v
  /-- a channel of variable length: the data is handed over to be stored, and the channel holds its position -/
  data : ∀ e ∈ members, e.2.type = .variableLength →
    after.vlsdData = true ∧ after.vlsdBuffer = data ∧ ((after.stored index).drop e.2.byteOffset).take 8 = leBytes 8 index
  /-- no such channel: no data is stored outside the record -/
  plain : (∀ e ∈ members, e.2.type ≠ .variableLength) → after.vlsdData = false

/-- A meaning with some members left out. -/
def exceptFor {N : Type} [DecidableEq N] (lost : List N) (meaning : N → Option BusVal) (n : N) : Option BusVal :=
  if n ∈ lost then none else meaning n

/-! ### LIN -/

/-- The number of the checksum model as documented: -1 unknown, 0 classic, 1 enhanced. -/
def LinModel.number : LinModel → Int
  | .unknown => -1
  | .classic => 0
  | .enhanced => 1

/-- The value of a member, as the functions of the message return it.  The data bytes are found differently. -/
def LinMsg.meaning (m : LinMsg) : LinName → Option BusVal
  | .busChannel => some (.num m.busChannel.toNat)
  | .id => some (.num m.getId.toNat)
  | .dir => some (.num m.getDir.toNat)
  | .received => some (.num m.getReceived.toNat)
  | .dataLength => some (.num m.getLength.toNat)
  | .dataBytes => none
  | .specified => some (.num m.getExpected.toNat)
  | .checksum => some (.num m.crc.toNat)
  | .model => some (.int m.model.number)
  | .sof => some (.num m.sof.toNat)
  | .baudrate => some (.float m.baudrate)
  | .response => some (.float m.response)
  | .breakLength => some (.num m.breakLength.toNat)
  | .delimiter => some (.num m.delimiter.toNat)
  | .signalLength => some (.num m.signalLength.toNat)
  | .longType => some (.num m.getLongType.toNat)

/-- The data bytes are found in the record: as many as the data length channel says. -/
def LinCfg.DataFound (cfg : LinCfg) (data record : Bytes) : Prop :=
  ∀ c len, (LinName.dataBytes, c) ∈ cfg.members → (LinName.dataLength, len) ∈ cfg.members → mlsdBytes c len record = data

/-- The members that are not found again. -/
def linLost : LinKind → List LinName
  | .wakeUp | .spike => [.sof]
  | .receiveError => [.dir, .model]
  | _ => [.dir]

/-! ### Ethernet -/

/-- The value of a member. -/
def EthMsg.meaning (m : EthMsg) : EthName → Option BusVal
  | .busChannel => some (.num m.busChannel.toNat)
  | .source => some (.bytes m.source.toList)
  | .destination => some (.bytes m.destination.toList)
  | .etherType => some (.num m.ethType.toNat)
  | .received => some (.num m.received.toNat)
  | .dataLength => some (.num m.dataLength.toNat)
  | .crc => some (.num m.crc.toNat)
  | .expectedCrc => some (.num m.expectedCrc.toNat)
  | .dir => some (.num m.dir.toNat)
  | .errorType => some (.num (m.errorType.toNat % 2))
  | .padding => some (.num m.padding.toNat)
  | .dataBytes => none

/-! ### FlexRay -/

/-- The value of a member: the bits of the message it is documented to hold (flexraymessage.h). -/
def FlxMsg.meaning (m : FlxMsg) : FlxName → Option BusVal
  | .busChannel => some (.num m.busChannel.toNat)
  | .id => some (.num (m.frameId.toNat % 2 ^ 11))
  | .cycle => some (.num (m.cycle.toNat % 2 ^ 6))
  | .flxChannel => some (.num (m.channel.toNat % 2))
  | .dir => some (.num (m.direction.toNat % 2))
  | .payloadLength => some (.num m.payloadLength.toNat)
  | .dataLength => some (.num (m.data.length % 256))
  | .crc => some (.num (m.crc.toNat % 2 ^ 24))
  | .headerCrc => some (.num m.headerCrc.toNat)
  | .reserved => some (.num m.reserved.toNat)
  | .preamble => some (.num m.preamble.toNat)
  | .nullFlag => some (.num (m.nullFlag.toNat % 2))
  | .sync => some (.num m.sync.toNat)
  | .startup => some (.num m.startup.toNat)
  | .frameLength => some (.num m.frameLength.toNat)
  | .dataBytes => none
  | .length => some (.num m.length.toNat)
  | .multiplexed => some (.num m.multiplexed.toNat)
  | .switch => some (.num m.switch.toNat)
  | .valid => some (.num m.valid.toNat)
  | .updateBitPos => some (.num (m.updateBitPos.toNat % 2 ^ 12))
  | .byteOffset => some (.num m.byteOffset.toNat)
  | .bitOffset => some (.num (m.bitOffset.toNat % 8))
  | .syntaxError => some (.num m.syntaxError.toNat)
  | .contentError => some (.num m.contentError.toNat)
  | .boundaryError => some (.num m.boundaryError.toNat)
  | .txConflict => some (.num m.txConflict.toNat)
  | .channelMask => some (.num (m.channelMask.toNat % 4))
  | .symbolType => some (.num (m.symbolType.toNat % 4))

/-! ### MOST -/

/-- The value of a member: the bits of the message it is documented to hold (mostmessage.h). -/
def MostMsg.meaning (m : MostMsg) (kind : MostKind) : MostName → Option BusVal
  | .busChannel => some (.num m.busChannel.toNat)
  | .speed => some (.num (m.speed.toNat % 4))
  | .transfer => some (.num (m.transfer.toNat % 2))
  | .dir => some (.num (m.direction.toNat % 2))
  | .source => some (.num (m.source.toNat % 2 ^ (if kind = .ethernetPacket then 48 else 16)))
  | .destination => some (.num (m.destination.toNat % 2 ^ (if kind = .ethernetPacket then 48 else 16)))
  | .specified => some (.num m.specified.toNat)
  | .received => some (.num m.received.toNat)
  | .dataLength => some (.num (m.data.length % 2 ^ 16))
  | .crc => some (.num m.crc.toNat)
  | .completeAck => some (.num (m.completeAck.toNat % 8))
  | .preemptiveAck => some (.num (m.preemptiveAck.toNat % 8))
  | .txAck => some (.num (m.txAck.toNat % 16))
  | .packetIndex => some (.num m.packetIndex.toNat)
  | .txFailed => some (.num m.txFailed.toNat)
  | .control => some (.num (m.control.toNat % 16))
  | .dataBytes => none
  | .state => some (.num m.small.toNat)
  | .deviceCount => some (.num m.small.toNat)
  | .sbc => some (.num m.count.toNat)
  | .freeBytes => some (.num m.count.toNat)
  | .tableLayout => some (.num m.layout.toNat)
  | .tableLength => some (.num (m.data.length % 2 ^ 16))
  | .tableData => none
  | .lockState => some (.num m.flag.toNat)
  | .shutdown => some (.num m.flag.toNat)

end Mdf
