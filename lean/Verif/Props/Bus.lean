import Verif.Model.BusName
import Verif.Proof.Most
import Verif.Proof.Eth
import Verif.Proof.FlexRay
import Verif.Proof.Lin

/-!
Bus messages: what is found in the file of LIN, Ethernet, FlexRay and MOST messages.
-/

namespace Mdf

/-! ### MOST -/

/-- **C74.** Every MOST message of every kind, saved in a group of its kind, is found again: nothing is written outside the record, the record has the
size the group says, the time is kept, every channel of the group gives the value of the message, and the channel of variable length holds the
position of the data bytes. -/
theorem C74_most (cfg : MostCfg) (m : MostMsg) (before : CanSample) (hs : before.record.length = busRecordSize cfg.frameBytes) :
    ∃ after, cfg.save m before = some after ∧
      ∀ index, BusFound (busRecordSize cfg.frameBytes) cfg.members (m.meaning cfg.kind) m.data before after index := by
  rw [most_size] at hs ⊢
  obtain ⟨kind, mandatory⟩ := cfg
  apply busFound_of _ _ _ _ _ _ _ hs (by cases kind <;> simp [MostMsg.var]) (by cases kind <;> cases mandatory <;> decide) (most_fits m kind mandatory)
    (by intro d hd; cases kind <;> cases mandatory <;> first | decide | (exact absurd hd (by simp [MostMsg.var])))
  · exact fun index R hw => most_value m kind mandatory index _ R hs hw
  · exact most_data m kind mandatory
  · exact most_plain m kind mandatory

/-- A MOST message with 3 data bytes. -/
def exMost : MostMsg :=
  { busChannel := 3, speed := 2, transfer := 1, direction := 1, source := 0x123456789ABC, destination := 0x80, specified := 3, received := 3,
    data := [1, 2, 3], crc := 0x1234, completeAck := 4, preemptiveAck := 5, txAck := 4, packetIndex := 9, txFailed := true, control := 7, small := 1,
    count := 2, layout := 3, flag := true }

/-- The hypotheses of C74 are met, and the position is found where the channel is. -/
example : (MostCfg.mk .message false).save exMost ⟨List.replicate (mostSize .message false) 0, false, []⟩ ≠ none ∧
    exMost.meaning .message .dataLength = some (.num 3) := by decide +kernel

/-- Data bytes given to a message raise the specified and the received length to at least their number, and change nothing else. -/
theorem C74_data (m : MostMsg) (data : Bytes) (h : data.length < 2 ^ 16) :
    ∃ s r : BitVec 16, m.setData data = { m with data := data, specified := s, received := r } ∧
      s.toNat = max m.specified.toNat data.length ∧ r.toNat = max m.received.toNat data.length := by
  refine ⟨_, _, rfl, ?_, ?_⟩
  all_goals
    rw [Nat.mod_eq_of_lt (by omega)]
    split
    · rw [BitVec.toNat_ofNat, Nat.mod_eq_of_lt h]
      omega
    · omega

/-- The lengths have 16 bits: 65536 data bytes leave both lengths at 0. -/
theorem C74_data_wraps (m : MostMsg) (data : Bytes) (h : data.length = 2 ^ 16) :
    (m.setData data).specified = 0 ∧ (m.setData data).received = 0 := by
  have h1 := m.specified.isLt
  have h2 := m.received.isLt
  constructor <;> simp only [MostMsg.setData, h] <;> rw [Nat.mod_eq_of_lt (by decide), if_pos (by omega)] <;> rfl

example : (exMost.setData (List.replicate 5 9)).received = 5 ∧ (exMost.setData [9]).received = 3 := by decide

/-! ### LIN -/

/-- **C71, full statement.** Every LIN message saved in a group of its kind is found again: nothing is written outside the record, the record has the
size the group says, the time is kept, every channel of the group gives the value of the message, and the data bytes are found. -/
def C71_lin_Statement : Prop :=
  ∀ (cfg : LinCfg) (m : LinMsg) (before : CanSample), before.record.length = busRecordSize cfg.frameBytes → before.vlsdData = false →
    ∃ after, cfg.save m before = some after ∧
      (∀ index, BusFound (busRecordSize cfg.frameBytes) cfg.members m.meaning m.data before after index) ∧
      (m.data.length ≤ 8 → m.getLength.toNat = m.data.length → cfg.DataFound m.data after.record)

/-- What is known of the record of a message. -/
theorem C71_record (cfg : LinCfg) (m : LinMsg) (before : CanSample) (hs : before.record.length = linSize cfg.kind cfg.adapter)
    (hf : before.vlsdData = false) :
    ∃ after, cfg.save m before = some after ∧ after.vlsdData = false ∧ Written (m.ops cfg.kind cfg.adapter) before.record after.record := by
  obtain ⟨kind, adapter, writer⟩ := cfg
  obtain ⟨s', e, hw, _, hno⟩ := stored_written (linSize kind adapter) (m.ops kind adapter) .keep before hs (fun _ => hf)
    (by cases kind <;> cases adapter <;> decide) (fun op h => (lin_fits m kind adapter op h).1)
  have hv := hno (by simp)
  refine ⟨s', e, hv, ?_⟩
  have := hw 0
  simpa [BusVar.patch, CanSample.stored, hv] using this

/-- **C71, partial.** All of it holds except for the members `linLost`: the direction (every kind that has it), the checksum model of a receive
error, and the start of frame time of wake up and spike messages.  Transmission errors need the same setting of "mandatory members only" in the
adapter and the writer. -/
theorem C71_lin_partial (cfg : LinCfg) (m : LinMsg) (before : CanSample) (same : cfg.kind = .transmissionError → cfg.adapter = cfg.writer)
    (hs : before.record.length = busRecordSize cfg.frameBytes) (hf : before.vlsdData = false) :
    ∃ after, cfg.save m before = some after ∧
      (∀ index, BusFound (busRecordSize cfg.frameBytes) cfg.members (exceptFor (linLost cfg.kind) m.meaning) m.data before after index) ∧
      (m.data.length ≤ 8 → m.getLength.toNat = m.data.length → cfg.DataFound m.data after.record) := by
  rw [lin_size cfg same] at hs ⊢
  obtain ⟨kind, adapter, writer⟩ := cfg
  have hno : ∀ e ∈ (LinCfg.mk kind adapter writer).members, e.2.type ≠ .variableLength := by
    cases kind <;> cases adapter <;> cases writer <;> simp [LinCfg.members, linBody, linRest, canBits, busSigned, busFloat, busMlsd]
  obtain ⟨after, e, hv, hw⟩ := C71_record ⟨kind, adapter, writer⟩ m before hs hf
  obtain ⟨after', e', hb⟩ := busFound_of (linSize kind adapter) (m.ops kind adapter) .keep (LinCfg.mk kind adapter writer).members
    (exceptFor (linLost kind) m.meaning) m.data before hs (fun _ => hf) (by cases kind <;> cases adapter <;> decide) (lin_fits m kind adapter)
    (by intro d hd; cases hd)
    (fun index R hw => lin_value m kind adapter writer same _ R hs (by simpa [BusVar.patch] using hw))
    (fun e he ht => absurd ht (hno e he)) (fun _ d hd => by cases hd)
  have : after' = after := Option.some.inj (e'.symm.trans e)
  subst this
  exact ⟨after', e, hb, fun h8 hl => lin_data m kind adapter writer same _ _ hs hw h8 hl⟩

/-- What the lost members read, for every message: the direction is always 0, the checksum model of a receive error is always "classic", and of the
start of frame time of wake up and spike messages the lowest 8 bits are left. -/
theorem C71_lost (cfg : LinCfg) (m : LinMsg) (before after : CanSample) (hs : before.record.length = linSize cfg.kind cfg.adapter)
    (hf : before.vlsdData = false) (hsave : cfg.save m before = some after) :
    (∀ c, (LinName.dir, c) ∈ cfg.members → c.busValue after.record = some (.num 0)) ∧
    (cfg.kind = .receiveError → ∀ c, (LinName.model, c) ∈ cfg.members → c.busValue after.record = some (.int 0)) ∧
    (cfg.kind = .wakeUp ∨ cfg.kind = .spike → ∀ c, (LinName.sof, c) ∈ cfg.members →
      c.busValue after.record = some (.num (m.sof.toNat % 256))) := by
  obtain ⟨s', e, hv, hw⟩ := C71_record cfg m before hs hf
  have : s' = after := Option.some.inj (e.symm.trans hsave)
  subst this
  obtain ⟨kind, adapter, writer⟩ := cfg
  dsimp only at hs hw ⊢
  refine ⟨fun c hc => ?_, fun hk c hc => ?_, fun hk c hc => ?_⟩
  · have h : (kind = .frame ∨ kind = .checksumError) ∧ c = canBits 9 7 1 := by
      revert hc
      cases kind <;> cases adapter <;> cases writer <;> simp [LinCfg.members, linBody, linRest]
    rw [h.2]
    exact lin_dirLost m kind adapter h.1 _ _ hs hw
  · subst hk
    have h : c = busSigned 9 6 2 := by simpa [LinCfg.members] using hc
    rw [h]
    exact lin_modelLost m adapter _ _ hs hw
  · have h : c = canBits 13 0 8 := by
      rcases hk with hk | hk <;> subst hk <;> simpa [LinCfg.members] using hc
    rw [h]
    exact lin_sofLost m kind adapter hk _ _ hs hw

/-- A transmitted frame with 2 data bytes. -/
def exLin : LinMsg := { (((LinMsg.init.setId 0x21).setDir true).setData [0xAB, 0xCD]).setReceived 2 with busChannel := 3, crc := 0x5A, model := .enhanced, sof := 0x1234 }

/-- The full statement is false: the direction of a transmitted frame is lost. -/
theorem C71_lin_false : ¬ C71_lin_Statement := by
  intro h
  have hz : busRecordSize (LinCfg.mk .frame false false).frameBytes = 45 := by
    rw [lin_size _ (by intro h; cases h)]; rfl
  obtain ⟨after, e, hb, _⟩ := h ⟨.frame, false, false⟩ exLin ⟨List.replicate 45 0, false, []⟩ (by rw [hz]; simp) rfl
  have hv := (hb 0).value (.dir, canBits 9 7 1) (by simp [LinCfg.members]) (.num 1) (by decide)
  have hp : after.vlsdData = false := (hb 0).plain (by simp [LinCfg.members, linBody, linRest, canBits, busSigned, busFloat, busMlsd])
  have hl := (C71_lost ⟨.frame, false, false⟩ exLin ⟨List.replicate 45 0, false, []⟩ after (by simp [linSize]) rfl e).1 (canBits 9 7 1)
    (by simp [LinCfg.members])
  rw [CanSample.stored, hp] at hv
  simp only [Bool.false_eq_true, if_false] at hv
  rw [hl] at hv
  simp at hv

/-- The partial statement is not vacuous: the example message, and what is found of it. -/
example : exLin.data.length ≤ 8 ∧ exLin.getLength.toNat = exLin.data.length ∧ exLin.getDir = true ∧ exLin.getId = 0x21 := by decide

/-- With different settings in the writer and the adapter, the records of transmission errors do not have the size the group says. -/
theorem C71_transmission_size (m : LinMsg) (adapter writer : Bool) (h : adapter ≠ writer) (before after : CanSample)
    (hsave : (LinCfg.mk .transmissionError adapter writer).save m before = some after) :
    after.record.length ≠ busRecordSize (LinCfg.mk .transmissionError adapter writer).frameBytes := by
  have hl : after.record.length = linSize .transmissionError adapter := by
    unfold LinCfg.save LinMsg.toRaw busRecord at hsave
    dsimp only at hsave
    have hr : (resizeBytes before.record (linSize .transmissionError adapter)).length = linSize .transmissionError adapter := by
      simp only [resizeBytes, List.length_append, List.length_take, List.length_replicate]
      omega
    obtain ⟨r', e, hw⟩ := runOps_written (m.ops .transmissionError adapter) (resizeBytes before.record (linSize .transmissionError adapter))
      (by rw [hr]; exact fun op h => (lin_fits m .transmissionError adapter op h).1) (by rw [hr]; cases adapter <;> decide)
    rw [e] at hsave
    have := Option.some.inj hsave
    rw [← this]
    exact hw.length.trans hr
  rw [hl]
  cases adapter <;> cases writer <;> simp_all [LinCfg.frameBytes, linSize] <;> rw [busRecordSize_eq _ (by decide) (by decide)] <;> decide

/-- More than 8 data bytes in a group with mandatory members only: zeros are returned for all of them. -/
theorem C71_long_data (m : LinMsg) (writer : Bool) (before after : CanSample) (hs : before.record.length = 19) (hf : before.vlsdData = false)
    (hsave : (LinCfg.mk .frame true writer).save m before = some after) (h8 : 8 < m.getLength.toNat) :
    mlsdBytes (busMlsd 11) (canBits 10 4 4) after.record = List.replicate m.getLength.toNat 0 := by
  obtain ⟨s', e, hv, hw⟩ := C71_record ⟨.frame, true, writer⟩ m before hs hf
  have : s' = after := Option.some.inj (e.symm.trans hsave)
  subst this
  exact lin_dataLost m _ _ hs hw h8

example : 8 < (LinMsg.init.setData (List.replicate 9 7)).getLength.toNat := by decide

/-- The functions of the message that share a member do not disturb each other. -/
theorem C71_setters (m : LinMsg) (v : Byte) (b : Bool) (data : Bytes) :
    ((m.setId v).getId.toNat = v.toNat % 64 ∧ (m.setId v).getDir = m.getDir) ∧
    ((m.setDir b).getDir = b ∧ (m.setDir b).getId = m.getId) ∧
    ((m.setReceived v).getReceived.toNat = v.toNat % 16 ∧ (m.setReceived v).getLength = m.getLength) ∧
    ((m.setLength v).getLength.toNat = v.toNat % 16 ∧ (m.setLength v).getReceived = m.getReceived) ∧
    ((m.setExpected v).getExpected.toNat = v.toNat % 16 ∧ (m.setExpected v).getLongType = m.getLongType) ∧
    ((m.setLongType v).getLongType.toNat = v.toNat % 4 ∧ (m.setLongType v).getExpected = m.getExpected) ∧
    ((m.setData data).data = data ∧ (m.setData data).getLength.toNat = data.length % 16 ∧ (m.setData data).getReceived = m.getReceived) := by
  refine ⟨⟨?_, ?_⟩, ⟨?_, ?_⟩, ⟨?_, ?_⟩, ⟨?_, ?_⟩, ⟨?_, ?_⟩, ⟨?_, ?_⟩, ⟨rfl, ?_, ?_⟩⟩
  · rw [LinMsg.getId, LinMsg.setId, mask_id, toNat_and63]
  · simp only [LinMsg.getDir, LinMsg.setId, mask_idDir]
  · cases b <;> simp only [LinMsg.getDir, LinMsg.setDir, Bool.false_eq_true, if_true, if_false, mask_dir, mask_dirOff] <;> decide
  · cases b <;> simp only [LinMsg.getId, LinMsg.setDir, Bool.false_eq_true, if_true, if_false, mask_dirId, mask_dirOffId]
  · rw [LinMsg.getReceived, LinMsg.setReceived, mask_low, toNat_and15]
  · rw [LinMsg.getLength, LinMsg.setReceived, mask_lowHigh]; rfl
  · rw [LinMsg.getLength, LinMsg.setLength, mask_high, toNat_and15]
  · rw [LinMsg.getReceived, LinMsg.setLength, mask_highLow]; rfl
  · rw [LinMsg.getExpected, LinMsg.setExpected, mask_low, toNat_and15]
  · rw [LinMsg.getLongType, LinMsg.setExpected, mask_lowType]; rfl
  · rw [LinMsg.getLongType, LinMsg.setLongType, mask_type, toNat_and3]
  · rw [LinMsg.getExpected, LinMsg.setLongType, mask_typeLow]; rfl
  · simp only [LinMsg.getLength, LinMsg.setData, LinMsg.setLength, mask_high, toNat_and15, BitVec.toNat_ofNat]
    omega
  · simp only [LinMsg.getReceived, LinMsg.setData, LinMsg.setLength, mask_highLow]

/-- The group of each kind gets the messages of that kind, with any text without underscore in front (the bus name and number). -/
theorem C71_kind (k : LinKind) (bus : List Char) (h : '_' ∉ bus) : linKindOf (bus ++ '_' :: k.groupBase) = some k := by
  rw [linKindOf_skip _ bus h]
  cases k <;> decide +kernel

/-! ### Ethernet -/

/-- **C72, full statement.** Every Ethernet message saved in a group of its kind is found again. -/
def C72_eth_Statement : Prop :=
  ∀ (cfg : EthCfg) (m : EthMsg) (before : CanSample), before.record.length = busRecordSize cfg.frameBytes →
    ∃ after, cfg.save m before = some after ∧
      ∀ index, BusFound (busRecordSize cfg.frameBytes) cfg.members m.meaning m.data before after index

/-- **C72, partial.** It holds if the writer and the adapter have the same setting of "mandatory members only". -/
theorem C72_eth_partial (cfg : EthCfg) (m : EthMsg) (before : CanSample) (same : cfg.adapter = cfg.writer)
    (hs : before.record.length = busRecordSize cfg.frameBytes) :
    ∃ after, cfg.save m before = some after ∧
      ∀ index, BusFound (busRecordSize cfg.frameBytes) cfg.members m.meaning m.data before after index := by
  rw [eth_size cfg same] at hs ⊢
  obtain ⟨kind, mandatory, writer⟩ := cfg
  dsimp only at same
  subst same
  apply busFound_of _ _ _ _ _ _ _ hs (by cases kind <;> cases mandatory <;> simp [EthMsg.var]) (by cases kind <;> cases mandatory <;> decide) (eth_fits m kind mandatory)
    (by intro d hd; cases kind <;> cases mandatory <;> first | decide | (exact absurd hd (by simp [EthMsg.var])))
  · exact fun index R hw => eth_value m kind mandatory index _ R hs hw
  · exact eth_data m kind mandatory
  · exact eth_plain m kind mandatory

/-- With different settings the records never have the size the group says, for any message of any kind. -/
theorem C72_eth_size (cfg : EthCfg) (m : EthMsg) (before after : CanSample) (h : cfg.adapter ≠ cfg.writer)
    (hsave : cfg.save m before = some after) : after.record.length ≠ busRecordSize cfg.frameBytes := by
  obtain ⟨kind, adapter, writer⟩ := cfg
  have hl : after.record.length = ethSize kind adapter := by
    unfold EthCfg.save EthMsg.toRaw busRecord at hsave
    dsimp only at hsave
    have hr : (resizeBytes before.record (ethSize kind adapter)).length = ethSize kind adapter := by
      simp only [resizeBytes, List.length_append, List.length_take, List.length_replicate]
      omega
    obtain ⟨r', e, hw⟩ := runOps_written (m.ops kind adapter) (resizeBytes before.record (ethSize kind adapter))
      (by rw [hr]; exact fun op h => (eth_fits m kind adapter op h).1) (by rw [hr]; cases kind <;> cases adapter <;> decide)
    rw [e] at hsave
    rw [Option.map_some] at hsave
    have hlen := hw.length.trans hr
    rw [← Option.some.inj hsave]
    cases m.var kind adapter <;> exact hlen
  rw [hl]
  dsimp only at h
  cases kind <;> cases adapter <;> cases writer <;> simp_all [EthCfg.frameBytes, ethSize] <;>
    rw [busRecordSize_eq _ (by decide) (by decide)] <;> decide

/-- An Ethernet frame with 3 data bytes. -/
def exEth : EthMsg :=
  { busChannel := 1, dir := true, errorType := 1, source := #v[1, 2, 3, 4, 5, 6], destination := #v[7, 8, 9, 10, 11, 12], ethType := 0x800,
    received := 3, dataLength := 3, data := [1, 2, 3], crc := 0x12345678, expectedCrc := 0, padding := 0 }

/-- The hypotheses of the partial statement are met. -/
example : (EthCfg.mk .frame false false).save exEth ⟨List.replicate (ethSize .frame false) 0, false, []⟩ ≠ none := by decide +kernel

theorem stored_length (s : CanSample) (index : Nat) (h : 8 ≤ s.record.length) : (s.stored index).length = s.record.length := by
  unfold CanSample.stored
  split
  · rw [patchIndex, if_pos h, List.length_append, List.length_take, leBytes_length]
    omega
  · rfl

/-- The full statement is false. -/
theorem C72_eth_false : ¬ C72_eth_Statement := by
  intro h
  have hz : busRecordSize (EthCfg.mk .frame true false).frameBytes = 42 := busRecordSize_eq _ (by decide) (by decide)
  obtain ⟨after, e, hb⟩ := h ⟨.frame, true, false⟩ exEth ⟨List.replicate 42 0, false, []⟩ (by rw [hz]; simp)
  have hne := C72_eth_size _ exEth _ after (by decide) e
  have hl := (hb 0).size
  have h8 : 8 ≤ after.record.length := by
    rw [hz] at hl
    unfold CanSample.stored at hl
    split at hl
    · rw [patchIndex] at hl
      split at hl
      · assumption
      · omega
    · omega
  rw [stored_length after 0 h8] at hl
  exact hne hl

/-! ### FlexRay -/

/-- **C73, full statement.** Every FlexRay message saved in a group of its kind is found again. -/
def C73_flexray_Statement : Prop :=
  ∀ (cfg : FlxCfg) (m : FlxMsg) (before : CanSample), before.record.length = busRecordSize cfg.frameBytes →
    ∃ after, cfg.save m before = some after ∧
      ∀ index, BusFound (busRecordSize cfg.frameBytes) cfg.members m.meaning m.data before after index

/-- **C73, partial.** Nothing is written outside the record, the record has the size the group says, the time is kept, and every channel of the group
gives the value of the message, except for the FlexRay channel and the channel mask.  The data bytes are handed over to be stored; their position is
found in the channel for the full PDU only. -/
theorem C73_flexray_partial (cfg : FlxCfg) (m : FlxMsg) (before : CanSample) (hs : before.record.length = busRecordSize cfg.frameBytes) :
    ∃ after, cfg.save m before = some after ∧
      (∀ index, (after.stored index).length = busRecordSize cfg.frameBytes ∧ (after.stored index).take 8 = before.record.take 8 ∧
        (∀ e ∈ cfg.members, ∀ v, exceptFor [.flxChannel, .channelMask] m.meaning e.1 = some v → e.2.busValue (after.stored index) = some v)) ∧
      (∀ e ∈ cfg.members, e.2.type = .variableLength → after.vlsdData = true ∧ after.vlsdBuffer = m.data) ∧
      ((∀ e ∈ cfg.members, e.2.type ≠ .variableLength) → after.vlsdData = false) ∧
      (cfg = ⟨.pdu, false⟩ → ∀ index,
        BusFound (busRecordSize cfg.frameBytes) cfg.members (exceptFor [.flxChannel, .channelMask] m.meaning) m.data before after index) := by
  rw [flx_size] at hs ⊢
  obtain ⟨kind, mandatory⟩ := cfg
  dsimp only at hs ⊢
  obtain ⟨after, e, hw, hset, hno⟩ := stored_written (flxSize kind mandatory) (m.ops kind mandatory) (m.var kind mandatory) before hs (by cases kind <;> cases mandatory <;> simp [FlxMsg.var])
    (by cases kind <;> cases mandatory <;> decide) (fun op h => (flx_fits m kind mandatory op h).1)
  have hbase : ∀ index, (after.stored index).length = flxSize kind mandatory ∧ (after.stored index).take 8 = before.record.take 8 ∧
      (∀ e ∈ (FlxCfg.mk kind mandatory).members, ∀ v, exceptFor [.flxChannel, .channelMask] m.meaning e.1 = some v →
        e.2.busValue (after.stored index) = some v) := by
    intro index
    have hl := (hw index).length
    refine ⟨by omega, (hw index).keeps 8 (by rw [hs]; cases kind <;> cases mandatory <;> decide) ?_, flx_value m kind mandatory index _ _ hs (hw index)⟩
    intro op ho
    rw [List.mem_append] at ho
    rcases ho with ho | ho
    · exact (flx_fits m kind mandatory op ho).2
    · revert ho
      cases kind <;> cases mandatory <;> simp only [FlxMsg.var, BusVar.patch, if_true, if_false, Bool.false_eq_true, List.mem_singleton] <;>
        first
        | (intro h; cases h; done)
        | (intro h; subst h; show 64 ≤ 8 * (_ - 8); decide)
  have hd : ∀ e ∈ (FlxCfg.mk kind mandatory).members, e.2.type = .variableLength → after.vlsdData = true ∧ after.vlsdBuffer = m.data :=
    fun x hx ht => hset _ (flx_var m kind mandatory x hx ht)
  have hp : (∀ e ∈ (FlxCfg.mk kind mandatory).members, e.2.type ≠ .variableLength) → after.vlsdData = false :=
    fun h => hno (flx_plain m kind mandatory h)
  refine ⟨after, e, hbase, hd, hp, fun hc index => ?_⟩
  obtain ⟨rfl, rfl⟩ := FlxCfg.mk.inj hc
  refine ⟨(hbase index).1, (hbase index).2.1, (hbase index).2.2, fun x hx ht => ⟨(hd x hx ht).1, (hd x hx ht).2, ?_⟩, hp⟩
  have h5 := hw index
  have := Written.lastCopy (ops := m.ops .pdu false) (off := flxSize .pdu false - 8) (v := leBytes 8 index) h5 (by rw [leBytes_length, hs]; decide)
  rw [leBytes_length] at this
  rw [flx_pduOffset x hx ht]
  exact this

/-- What is found of the rest, for every message: the FlexRay channel and the channel mask are 0, and unless the group is that of the full PDU the
channel of the data bytes holds two zero bytes followed by the lower six bytes of the position. -/
theorem C73_lost (cfg : FlxCfg) (m : FlxMsg) (before after : CanSample) (index : Nat) (hs : before.record.length = busRecordSize cfg.frameBytes)
    (hsave : cfg.save m before = some after) :
    (∀ e ∈ cfg.members, e.1 = .flxChannel ∨ e.1 = .channelMask → e.2.busValue (after.stored index) = some (.num 0)) ∧
    (cfg ≠ ⟨.pdu, false⟩ → ∀ e ∈ cfg.members, e.2.type = .variableLength →
      ((after.stored index).drop e.2.byteOffset).take 8 = [0, 0] ++ leBytes 6 index) := by
  rw [flx_size] at hs
  obtain ⟨kind, mandatory⟩ := cfg
  dsimp only at hs
  obtain ⟨after', e, hw, _, _⟩ := stored_written (flxSize kind mandatory) (m.ops kind mandatory) (m.var kind mandatory) before hs (by cases kind <;> cases mandatory <;> simp [FlxMsg.var])
    (by cases kind <;> cases mandatory <;> decide) (fun op h => (flx_fits m kind mandatory op h).1)
  have : after' = after := Option.some.inj (e.symm.trans hsave)
  subst this
  exact ⟨flx_channels m kind mandatory index _ _ hs (hw index),
    fun hne => flx_position m kind mandatory (fun h => hne (by rw [h.1, h.2])) index _ _ hs (hw index)⟩

/-- So the position is found only if it is 0, that is for the first message with data bytes. -/
theorem C73_first_only (cfg : FlxCfg) (m : FlxMsg) (before after : CanSample) (index : Nat) (hs : before.record.length = busRecordSize cfg.frameBytes)
    (hsave : cfg.save m before = some after) (hc : cfg ≠ ⟨.pdu, false⟩) (hi : index < 2 ^ 64)
    (c : Chan) (hm : (FlxName.dataBytes, c) ∈ cfg.members) :
    ((after.stored index).drop c.byteOffset).take 8 = leBytes 8 index ↔ index = 0 := by
  have ht : c.type = .variableLength := by
    obtain ⟨kind, mandatory⟩ := cfg
    revert hm
    cases kind <;> cases mandatory <;> simp [FlxCfg.members, flxHead, flxCrcs] <;> intro h <;> subst h <;> rfl
  have h := (C73_lost cfg m before after index hs hsave).2 hc _ hm ht
  rw [h]
  constructor
  · intro he
    have hn := congrArg leNat he
    rw [leNat_leBytes] at hn
    have h6 : leNat ([0, 0] ++ leBytes 6 index) = 65536 * (index % 2 ^ 48) := by
      have e6 : leNat (leBytes 6 index) = index % 2 ^ 48 := by rw [leNat_leBytes]
      show (0 : Nat) + 256 * (0 + 256 * leNat (leBytes 6 index)) = _
      rw [e6]
      omega
    rw [h6] at hn
    have e64 : (2 : Nat) ^ 64 = 18446744073709551616 := by decide
    have e48 : (2 : Nat) ^ 48 = 281474976710656 := by decide
    have e8 : (256 : Nat) ^ 8 = 18446744073709551616 := by decide
    omega
  · intro h0
    subst h0
    decide

/-- A FlexRay frame on channel B with 2 data bytes. -/
def exFlx : FlxMsg :=
  { busChannel := 1, frameId := 0x123, cycle := 9, channel := 1, direction := 1, data := [0xAA, 0xBB], payloadLength := 2, crc := 0x123456,
    headerCrc := 0x7F, reserved := false, preamble := true, nullFlag := 0, sync := true, startup := false, frameLength := 99, length := 2,
    multiplexed := false, switch := 0, valid := true, updateBitPos := 3, byteOffset := 4, bitOffset := 5, syntaxError := false, contentError := true,
    boundaryError := false, txConflict := true, channelMask := 3, symbolType := 1 }

/-- The full statement is false: the FlexRay channel is lost. -/
theorem C73_flexray_false : ¬ C73_flexray_Statement := by
  intro h
  have hz : busRecordSize (FlxCfg.mk .frame false).frameBytes = 34 := by rw [flx_size]; rfl
  obtain ⟨after, e, hb⟩ := h ⟨.frame, false⟩ exFlx ⟨List.replicate 34 0, false, []⟩ (by rw [hz]; simp)
  have hv := (hb 0).value (.flxChannel, canBits 11 6 1) (by simp [FlxCfg.members, flxHead]) (.num 1) (by decide)
  have hl := (C73_lost ⟨.frame, false⟩ exFlx _ after 0 (by rw [hz]; simp) e).1 (.flxChannel, canBits 11 6 1) (by simp [FlxCfg.members, flxHead])
    (Or.inl rfl)
  rw [hl] at hv
  simp at hv

/-- The hypotheses of the partial statement are met. -/
example : (FlxCfg.mk .frame false).save exFlx ⟨List.replicate (flxSize .frame false) 0, false, []⟩ ≠ none := by decide +kernel

/-- A frame given for a group of frame headers is stored there: with mandatory members only its record of 24 bytes is put where the group says 13. -/
theorem C73_wrong_group : ∃ after, exFlx.saveTo .frame "FLX_FrameHeader".toList true ⟨List.replicate 13 0, false, []⟩ = some (some after) ∧
    after.record.length = 24 ∧ busRecordSize (FlxCfg.mk .frameHeader true).frameBytes = 13 := by
  have h : ((exFlx.saveTo .frame "FLX_FrameHeader".toList true ⟨List.replicate 13 0, false, []⟩).bind id).map (fun a => a.record.length) = some 24 := by
    decide +kernel
  have hz : busRecordSize (FlxCfg.mk .frameHeader true).frameBytes = 13 := by rw [flx_size]; rfl
  cases he : exFlx.saveTo .frame "FLX_FrameHeader".toList true ⟨List.replicate 13 0, false, []⟩ with
  | none => rw [he] at h; simp at h
  | some a =>
    cases a with
    | none => rw [he] at h; simp at h
    | some after =>
      rw [he] at h
      exact ⟨after, rfl, by simpa using h, hz⟩

end Mdf
