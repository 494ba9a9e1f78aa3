import Verif.Props.Bus
import Verif.Props.Can
import Verif.Props.EventApi

/-!
# New messages and words

Further theorems of C34 and C71 (new messages of buses) and C87 (words of the monotony of an axis), found by changing the model.
-/

namespace Mdf

/-- C71: a new LIN message has no data, its checksum model is unknown and everything else is zero. -/
theorem C71_new : LinMsg.init.getId = 0 ∧ LinMsg.init.getDir = false ∧ LinMsg.init.getReceived = 0 ∧ LinMsg.init.getLength = 0 ∧
    LinMsg.init.getExpected = 0 ∧ LinMsg.init.getLongType = 0 ∧ LinMsg.init.busChannel = 0 ∧ LinMsg.init.model = .unknown ∧ LinMsg.init.crc = 0 ∧
    LinMsg.init.sof = 0 ∧ LinMsg.init.baudrate = 0 ∧ LinMsg.init.response = 0 ∧ LinMsg.init.breakLength = 0 ∧ LinMsg.init.delimiter = 0 ∧
    LinMsg.init.data = [] ∧ LinMsg.init.signalLength = 0 := by decide

/-- C34: a new CAN message has a standard identifier, no data, and everything else is zero. -/
theorem C34_new : CanMsg.init.canId = 0 ∧ CanMsg.init.extended = false ∧ CanMsg.init.getDlc = 0 ∧ CanMsg.init.dataLength = 0 ∧ CanMsg.init.data = [] ∧
    CanMsg.init.busChannel = 0 ∧ CanMsg.init.dir = false ∧ CanMsg.init.srr = false ∧ CanMsg.init.edl = false ∧ CanMsg.init.brs = false ∧
    CanMsg.init.esi = false ∧ CanMsg.init.wakeUp = false ∧ CanMsg.init.singleWire = false ∧ CanMsg.init.rtr = false ∧ CanMsg.init.r0 = false ∧
    CanMsg.init.r1 = false ∧ CanMsg.init.bitPosition = 0 ∧ CanMsg.init.errorType = 0 ∧ CanMsg.init.duration = 0 ∧ CanMsg.init.crc = 0 := by decide

/-- C87: the words of the monotony of an axis. -/
theorem C87_monotony (m : MdMono) : m.word = asciiBytes (match m with
    | .decrease => "MON_DECREASE"
    | .increase => "MON_INCREASE"
    | .strictDecrease => "STRICT_DECREASE"
    | .strictIncrease => "STRICT_INCREASE"
    | .monotonous => "MONOTONOUS"
    | .strict => "STRICT_MON"
    | .none => "NOT_MON") ∧ MdMono.ofWord m.word = m := by
  cases m <;> decide +kernel

end Mdf
