import Verif.Proof.CanRead

set_option linter.unusedSimpArgs false

namespace Mdf

/-- What the observer makes of the record of a message. -/
def CanCfg.kept (cfg : CanCfg) (m : CanMsg) : CanMsg :=
  { busChannel := m.busChannel
    messageId := if cfg.has .id then BitVec.ofNat 32 (m.messageId.toNat % 2 ^ 29 + m.messageId.toNat / 2 ^ 31 * 2 ^ 31) else 0
    dlc := if cfg.has .dataLength then BitVec.ofNat 8 (dlcLoop (m.data.length % 256) kDataLengthCode) else 0
    dir := cfg.has .dir && m.dir
    srr := cfg.has .srr && m.srr
    edl := cfg.has .edl && m.edl
    brs := cfg.has .brs && m.brs
    esi := cfg.has .esi && m.esi
    wakeUp := cfg.has .wakeUp && m.wakeUp
    singleWire := cfg.has .singleWire && m.singleWire
    rtr := false
    r0 := false
    r1 := cfg.has .r1 && m.r1
    data := if cfg.hasData then m.data else if cfg.has .dataLength then List.replicate (m.data.length % 256) 0 else []
    bitPosition := 0
    errorType := 0
    duration := if cfg.has .bitPosition then m.bitPosition.setWidth 32 else if cfg.has .frameDuration then m.duration else 0
    crc := if cfg.has .crc then m.crc else 0 }

theorem toNat_ne_zero (b : Bool) : decide (b.toNat ≠ 0) = b := by cases b <;> rfl

theorem resize_nil (n : Nat) : resizeBytes [] n = List.replicate n 0 := by simp [resizeBytes]

/-- The channel of the data bytes starts after the members of fixed size. -/
theorem data_channel (cfg : CanCfg) (h : cfg.hasData = true) (m : CanMsg) :
    (cfg.members.find? fun e => e.1 == .dataBytes).map (·.2)
      = some (cfg.dataChan (8 + (m.head cfg.frame cfg.mandatory).length)) := by
  rw [head_length]
  obtain ⟨frame, mandatory, store, writerMax⟩ := cfg
  cases frame <;> cases mandatory <;> first | rfl | simp [CanCfg.hasData] at h

theorem no_data_channel (cfg : CanCfg) (h : cfg.hasData = false) :
    (cfg.members.find? fun e => e.1 == .dataBytes).map (·.2) = none := by
  obtain ⟨frame, mandatory, store, writerMax⟩ := cfg
  cases frame <;> cases mandatory <;> first | rfl | simp [CanCfg.hasData] at h

/-- The data bytes. -/
theorem takeData_spec (cfg : CanCfg) (ok : cfg.Ok) (m : CanMsg) (R t : Bytes) (index : Nat) (ht : t.length = 8)
    (hR : R = t ++ (m.head cfg.frame cfg.mandatory ++ cfg.fileTail m index)) (hm : ∀ e ∈ cfg.members, MemberOk m R e)
    (hl : cfg.store = .mlsd → m.data.length ≤ 255 ∧ m.data.length ≤ cfg.writerMax) (x : CanMsg)
    (hx : x.data.length = m.data.length % 256) :
    cfg.takeData R m.data x = if cfg.hasData then x.setData m.data else x := by
  unfold CanCfg.takeData
  rw [show "DataBytes" = CanName.dataBytes.str from rfl, observed_eq cfg]
  cases hd : cfg.hasData with
  | false => rw [no_data_channel cfg hd]; rfl
  | true =>
    rw [data_channel cfg hd m]
    simp only [if_true]
    split
    · rename_i hs
      obtain ⟨h1, h2⟩ := hl hs
      rw [observed_length]
      have hlen : ∃ c, cfg.members.find? (fun e => e.1 == .dataLength) = some (.dataLength, c) := by
        obtain ⟨frame, mandatory, store, writerMax⟩ := cfg
        cases frame <;> cases mandatory <;> first | exact ⟨_, rfl⟩ | simp [CanCfg.hasData] at hd
      obtain ⟨c, hc⟩ := hlen
      rw [hc]
      simp only [Option.map_some]
      obtain ⟨v, hv, hlt, hg⟩ := hm _ (List.mem_of_find?_eq_some hc) (show CanName.dataLength ≠ .dataBytes by decide)
      have hv' : m.meaning .dataLength = some (m.data.length % 256) := rfl
      rw [hv] at hv'
      cases hv'
      have hcv : canValue c R = m.data.length := by
        unfold canValue
        simp only at hg
        rw [hg]
        simp only [BitVec.toNat_ofNat]
        omega
      have htail : cfg.fileTail m index = padded m.data cfg.writerMax := by
        unfold CanCfg.fileTail CanCfg.tail CanMsg.tail
        rw [groupMax_ok ok hs]
        unfold CanCfg.hasData at hd
        cases hf : cfg.frame <;> simp_all
      have hbytes : mlsdBytes (cfg.dataChan (8 + (m.head cfg.frame cfg.mandatory).length)) c R = m.data := by
        unfold mlsdBytes
        simp only [hcv, CanCfg.dataChan, canBits]
        rw [if_pos]
        · rw [hR, ← ht, ← List.append_assoc, ← List.length_append, List.drop_left, htail, padded_take _ _ h2]
        · rw [hR, htail]
          simp only [List.length_append, padded_length, ht]
          omega
      rw [hbytes]
      congr 1
      unfold CanMsg.dataLength
      rw [hx, BitVec.toNat_ofNat, List.take_of_length_le]
      omega
    · rfl

theorem no_takeData (cfg : CanCfg) (h : cfg.hasData = false) (R var : Bytes) (x : CanMsg) : cfg.takeData R var x = x := by
  unfold CanCfg.takeData
  rw [show "DataBytes" = CanName.dataBytes.str from rfl, observed_eq cfg, no_data_channel cfg h]

theorem readId' (x : CanMsg) (n : Nat) (hn : n < 2 ^ 32) :
    (x.setMessageId (BitVec.ofNat 32 (n % 2 ^ 29))).setExtended (decide (n / 2 ^ 31 ≠ 0))
      = { x with messageId := BitVec.ofNat 32 (n % 2 ^ 29 + n / 2 ^ 31 * 2 ^ 31) } := by
  have h := readId x n hn
  have h2 : (x.setMessageId (BitVec.ofNat 32 (n % 2 ^ 29))).setExtended (decide (n / 2 ^ 31 ≠ 0))
    = { x with messageId := ((x.setMessageId (BitVec.ofNat 32 (n % 2 ^ 29))).setExtended (decide (n / 2 ^ 31 ≠ 0))).messageId } := rfl
  rw [h2, h]

theorem bit16 (x : BitVec 16) : BitVec.ofNat 32 (x.toNat % 2 ^ 16) = x.setWidth 32 := by
  apply BitVec.eq_of_toNat_eq
  have := x.isLt
  simp only [BitVec.toNat_ofNat, BitVec.toNat_setWidth]
  omega

theorem setLen_init (x : CanMsg) (hx : x.data = []) (n : Nat) :
    x.setDataLength (BitVec.ofNat 8 (n % 256))
      = { x with data := List.replicate (n % 256) 0, dlc := BitVec.ofNat 8 (dlcLoop (n % 256) kDataLengthCode) } := by
  have e : (BitVec.ofNat 8 (n % 256)).toNat = n % 256 := by simp
  unfold CanMsg.setDataLength
  rw [hx, resize_nil, e]

theorem setData_eq (x : CanMsg) (d : Bytes) :
    x.setData d = { x with data := d, dlc := BitVec.ofNat 8 (dlcLoop (d.length % 256) kDataLengthCode) } := by
  have e : (BitVec.ofNat 8 d.length).toNat = d.length % 256 := by simp
  unfold CanMsg.setData CanMsg.setDataLength
  rw [e]

/-- The message read. -/
theorem parse_spec (cfg : CanCfg) (ok : cfg.Ok) (m : CanMsg) (R t : Bytes) (index : Nat) (ht : t.length = 8)
    (small : R.length ≤ 2 ^ 28)
    (hR : R = t ++ (m.head cfg.frame cfg.mandatory ++ cfg.fileTail m index))
    (hl : cfg.store = .mlsd → m.data.length ≤ 255 ∧ m.data.length ≤ cfg.writerMax) :
    cfg.parse R m.data = cfg.kept m := by
  have hm := members_spec cfg m t _ R ht small hR
  unfold CanCfg.parse
  have T := take_has cfg m R hm
  have N := take_none cfg R
  have D := takeData_spec cfg ok m R t index ht hR hm hl
  have hid := m.messageId.isLt
  obtain ⟨frame, mandatory, store, writerMax⟩ := cfg
  clear hR hm hl ok
  dsimp only
  cases frame <;> cases mandatory
  · rw [T "BusChannel" .busChannel rfl (by decide) _ rfl rfl]; try dsimp only [CanMsg.init]
    rw [T "ID" .id rfl (by decide) _ rfl rfl]; try dsimp only [CanMsg.init]
    rw [T "IDE" .ide rfl (by decide) _ rfl rfl]; try dsimp only
    rw [readId' _ _ hid]; try dsimp only
    rw [T "DLC" .dlc rfl (by decide) _ rfl rfl]; try dsimp only [CanMsg.init]
    rw [T "DataLength" .dataLength rfl (by decide) _ rfl rfl]; try dsimp only [CanMsg.init]
    rw [setLen_init _ rfl]; try dsimp only
    rw [D _ (by simp)]; simp only [CanCfg.hasData, setData_eq]
    rw [T "Dir" .dir rfl (by decide) _ rfl rfl]; try dsimp only [CanMsg.init]
    rw [T "CRC" .crc rfl (by decide) _ rfl rfl]; try dsimp only [CanMsg.init]
    rw [T "SRR" .srr rfl (by decide) _ rfl rfl]; try dsimp only [CanMsg.init]
    rw [T "EDL" .edl rfl (by decide) _ rfl rfl]; try dsimp only [CanMsg.init]
    rw [T "BRS" .brs rfl (by decide) _ rfl rfl]; try dsimp only [CanMsg.init]
    rw [T "ESI" .esi rfl (by decide) _ rfl rfl]; try dsimp only [CanMsg.init]
    rw [take_ro]
    rw [T "R1" .r1 rfl (by decide) _ rfl rfl]; try dsimp only [CanMsg.init]
    rw [T "WakeUp" .wakeUp rfl (by decide) _ rfl rfl]; try dsimp only [CanMsg.init]
    rw [T "SingleWire" .singleWire rfl (by decide) _ rfl rfl]; try dsimp only [CanMsg.init]
    rw [T "FrameDuration" .frameDuration rfl (by decide) _ rfl rfl]; try dsimp only [CanMsg.init]
    rw [N "BitPosition" .bitPosition rfl rfl]
    simp only [toNat_ne_zero, bit16, BitVec.ofNat_toNat, BitVec.setWidth_eq]
    simp [CanCfg.kept, CanCfg.has, CanCfg.members, CanCfg.hasData]
  · rw [T "BusChannel" .busChannel rfl (by decide) _ rfl rfl]; try dsimp only [CanMsg.init]
    rw [T "ID" .id rfl (by decide) _ rfl rfl]; try dsimp only [CanMsg.init]
    rw [T "IDE" .ide rfl (by decide) _ rfl rfl]; try dsimp only
    rw [readId' _ _ hid]; try dsimp only
    rw [T "DLC" .dlc rfl (by decide) _ rfl rfl]; try dsimp only [CanMsg.init]
    rw [T "DataLength" .dataLength rfl (by decide) _ rfl rfl]; try dsimp only [CanMsg.init]
    rw [setLen_init _ rfl]; try dsimp only
    rw [D _ (by simp)]; simp only [CanCfg.hasData, setData_eq]
    rw [N "Dir" .dir rfl rfl]
    rw [N "CRC" .crc rfl rfl]
    rw [N "SRR" .srr rfl rfl]
    rw [N "EDL" .edl rfl rfl]
    rw [N "BRS" .brs rfl rfl]
    rw [N "ESI" .esi rfl rfl]
    rw [take_ro]
    rw [N "R1" .r1 rfl rfl]
    rw [N "WakeUp" .wakeUp rfl rfl]
    rw [N "SingleWire" .singleWire rfl rfl]
    rw [N "FrameDuration" .frameDuration rfl rfl]
    rw [N "BitPosition" .bitPosition rfl rfl]
    simp only [toNat_ne_zero, bit16, BitVec.ofNat_toNat, BitVec.setWidth_eq]
    simp [CanCfg.kept, CanCfg.has, CanCfg.members, CanCfg.hasData]
  · rw [T "BusChannel" .busChannel rfl (by decide) _ rfl rfl]; try dsimp only [CanMsg.init]
    rw [T "ID" .id rfl (by decide) _ rfl rfl]; try dsimp only [CanMsg.init]
    rw [T "IDE" .ide rfl (by decide) _ rfl rfl]; try dsimp only
    rw [readId' _ _ hid]; try dsimp only
    rw [T "DLC" .dlc rfl (by decide) _ rfl rfl]; try dsimp only [CanMsg.init]
    rw [T "DataLength" .dataLength rfl (by decide) _ rfl rfl]; try dsimp only [CanMsg.init]
    rw [setLen_init _ rfl]; try dsimp only
    rw [D _ (by simp)]; simp only [CanCfg.hasData, setData_eq]
    rw [T "Dir" .dir rfl (by decide) _ rfl rfl]; try dsimp only [CanMsg.init]
    rw [T "CRC" .crc rfl (by decide) _ rfl rfl]; try dsimp only [CanMsg.init]
    rw [T "SRR" .srr rfl (by decide) _ rfl rfl]; try dsimp only [CanMsg.init]
    rw [N "EDL" .edl rfl rfl]
    rw [N "BRS" .brs rfl rfl]
    rw [N "ESI" .esi rfl rfl]
    rw [take_ro]
    rw [T "R1" .r1 rfl (by decide) _ rfl rfl]; try dsimp only [CanMsg.init]
    rw [T "WakeUp" .wakeUp rfl (by decide) _ rfl rfl]; try dsimp only [CanMsg.init]
    rw [T "SingleWire" .singleWire rfl (by decide) _ rfl rfl]; try dsimp only [CanMsg.init]
    rw [T "FrameDuration" .frameDuration rfl (by decide) _ rfl rfl]; try dsimp only [CanMsg.init]
    rw [N "BitPosition" .bitPosition rfl rfl]
    simp only [toNat_ne_zero, bit16, BitVec.ofNat_toNat, BitVec.setWidth_eq]
    simp [CanCfg.kept, CanCfg.has, CanCfg.members, CanCfg.hasData]
  · rw [T "BusChannel" .busChannel rfl (by decide) _ rfl rfl]; try dsimp only [CanMsg.init]
    rw [T "ID" .id rfl (by decide) _ rfl rfl]; try dsimp only [CanMsg.init]
    rw [T "IDE" .ide rfl (by decide) _ rfl rfl]; try dsimp only
    rw [readId' _ _ hid]; try dsimp only
    rw [T "DLC" .dlc rfl (by decide) _ rfl rfl]; try dsimp only [CanMsg.init]
    rw [T "DataLength" .dataLength rfl (by decide) _ rfl rfl]; try dsimp only [CanMsg.init]
    rw [setLen_init _ rfl]; try dsimp only
    rw [D _ (by simp)]; simp only [CanCfg.hasData, setData_eq]
    rw [N "Dir" .dir rfl rfl]
    rw [N "CRC" .crc rfl rfl]
    rw [N "SRR" .srr rfl rfl]
    rw [N "EDL" .edl rfl rfl]
    rw [N "BRS" .brs rfl rfl]
    rw [N "ESI" .esi rfl rfl]
    rw [take_ro]
    rw [N "R1" .r1 rfl rfl]
    rw [N "WakeUp" .wakeUp rfl rfl]
    rw [N "SingleWire" .singleWire rfl rfl]
    rw [N "FrameDuration" .frameDuration rfl rfl]
    rw [N "BitPosition" .bitPosition rfl rfl]
    simp only [toNat_ne_zero, bit16, BitVec.ofNat_toNat, BitVec.setWidth_eq]
    simp [CanCfg.kept, CanCfg.has, CanCfg.members, CanCfg.hasData]
  · rw [T "BusChannel" .busChannel rfl (by decide) _ rfl rfl]; try dsimp only [CanMsg.init]
    rw [T "ID" .id rfl (by decide) _ rfl rfl]; try dsimp only [CanMsg.init]
    rw [T "IDE" .ide rfl (by decide) _ rfl rfl]; try dsimp only
    rw [readId' _ _ hid]; try dsimp only
    rw [T "DLC" .dlc rfl (by decide) _ rfl rfl]; try dsimp only [CanMsg.init]
    rw [T "DataLength" .dataLength rfl (by decide) _ rfl rfl]; try dsimp only [CanMsg.init]
    rw [setLen_init _ rfl]; try dsimp only
    rw [D _ (by simp)]; simp only [CanCfg.hasData, setData_eq]
    rw [T "Dir" .dir rfl (by decide) _ rfl rfl]; try dsimp only [CanMsg.init]
    rw [T "CRC" .crc rfl (by decide) _ rfl rfl]; try dsimp only [CanMsg.init]
    rw [T "SRR" .srr rfl (by decide) _ rfl rfl]; try dsimp only [CanMsg.init]
    rw [T "EDL" .edl rfl (by decide) _ rfl rfl]; try dsimp only [CanMsg.init]
    rw [T "BRS" .brs rfl (by decide) _ rfl rfl]; try dsimp only [CanMsg.init]
    rw [T "ESI" .esi rfl (by decide) _ rfl rfl]; try dsimp only [CanMsg.init]
    rw [take_ro]
    rw [T "R1" .r1 rfl (by decide) _ rfl rfl]; try dsimp only [CanMsg.init]
    rw [T "WakeUp" .wakeUp rfl (by decide) _ rfl rfl]; try dsimp only [CanMsg.init]
    rw [T "SingleWire" .singleWire rfl (by decide) _ rfl rfl]; try dsimp only [CanMsg.init]
    rw [T "FrameDuration" .frameDuration rfl (by decide) _ rfl rfl]; try dsimp only [CanMsg.init]
    rw [T "BitPosition" .bitPosition rfl (by decide) _ rfl rfl]; try dsimp only [CanMsg.init]
    simp only [toNat_ne_zero, bit16, BitVec.ofNat_toNat, BitVec.setWidth_eq]
    simp [CanCfg.kept, CanCfg.has, CanCfg.members, CanCfg.hasData]
  · rw [T "BusChannel" .busChannel rfl (by decide) _ rfl rfl]; try dsimp only [CanMsg.init]
    rw [T "ID" .id rfl (by decide) _ rfl rfl]; try dsimp only [CanMsg.init]
    rw [T "IDE" .ide rfl (by decide) _ rfl rfl]; try dsimp only
    rw [readId' _ _ hid]; try dsimp only
    rw [T "DLC" .dlc rfl (by decide) _ rfl rfl]; try dsimp only [CanMsg.init]
    rw [T "DataLength" .dataLength rfl (by decide) _ rfl rfl]; try dsimp only [CanMsg.init]
    rw [setLen_init _ rfl]; try dsimp only
    rw [D _ (by simp)]; simp only [CanCfg.hasData, setData_eq]
    rw [T "Dir" .dir rfl (by decide) _ rfl rfl]; try dsimp only [CanMsg.init]
    rw [T "CRC" .crc rfl (by decide) _ rfl rfl]; try dsimp only [CanMsg.init]
    rw [T "SRR" .srr rfl (by decide) _ rfl rfl]; try dsimp only [CanMsg.init]
    rw [T "EDL" .edl rfl (by decide) _ rfl rfl]; try dsimp only [CanMsg.init]
    rw [T "BRS" .brs rfl (by decide) _ rfl rfl]; try dsimp only [CanMsg.init]
    rw [T "ESI" .esi rfl (by decide) _ rfl rfl]; try dsimp only [CanMsg.init]
    rw [take_ro]
    rw [T "R1" .r1 rfl (by decide) _ rfl rfl]; try dsimp only [CanMsg.init]
    rw [T "WakeUp" .wakeUp rfl (by decide) _ rfl rfl]; try dsimp only [CanMsg.init]
    rw [T "SingleWire" .singleWire rfl (by decide) _ rfl rfl]; try dsimp only [CanMsg.init]
    rw [T "FrameDuration" .frameDuration rfl (by decide) _ rfl rfl]; try dsimp only [CanMsg.init]
    rw [T "BitPosition" .bitPosition rfl (by decide) _ rfl rfl]; try dsimp only [CanMsg.init]
    simp only [toNat_ne_zero, bit16, BitVec.ofNat_toNat, BitVec.setWidth_eq]
    simp [CanCfg.kept, CanCfg.has, CanCfg.members, CanCfg.hasData]
  · rw [T "BusChannel" .busChannel rfl (by decide) _ rfl rfl]; try dsimp only [CanMsg.init]
    rw [N "ID" .id rfl rfl]
    rw [N "IDE" .ide rfl rfl]
    rw [N "DLC" .dlc rfl rfl]
    rw [N "DataLength" .dataLength rfl rfl]
    rw [no_takeData _ rfl]
    rw [T "Dir" .dir rfl (by decide) _ rfl rfl]; try dsimp only [CanMsg.init]
    rw [N "CRC" .crc rfl rfl]
    rw [N "SRR" .srr rfl rfl]
    rw [N "EDL" .edl rfl rfl]
    rw [N "BRS" .brs rfl rfl]
    rw [N "ESI" .esi rfl rfl]
    rw [take_ro]
    rw [N "R1" .r1 rfl rfl]
    rw [N "WakeUp" .wakeUp rfl rfl]
    rw [N "SingleWire" .singleWire rfl rfl]
    rw [N "FrameDuration" .frameDuration rfl rfl]
    rw [N "BitPosition" .bitPosition rfl rfl]
    simp only [toNat_ne_zero, bit16, BitVec.ofNat_toNat, BitVec.setWidth_eq]
    simp [CanCfg.kept, CanCfg.has, CanCfg.members, CanCfg.hasData]
  · rw [T "BusChannel" .busChannel rfl (by decide) _ rfl rfl]; try dsimp only [CanMsg.init]
    rw [N "ID" .id rfl rfl]
    rw [N "IDE" .ide rfl rfl]
    rw [N "DLC" .dlc rfl rfl]
    rw [N "DataLength" .dataLength rfl rfl]
    rw [no_takeData _ rfl]
    rw [T "Dir" .dir rfl (by decide) _ rfl rfl]; try dsimp only [CanMsg.init]
    rw [N "CRC" .crc rfl rfl]
    rw [N "SRR" .srr rfl rfl]
    rw [N "EDL" .edl rfl rfl]
    rw [N "BRS" .brs rfl rfl]
    rw [N "ESI" .esi rfl rfl]
    rw [take_ro]
    rw [N "R1" .r1 rfl rfl]
    rw [N "WakeUp" .wakeUp rfl rfl]
    rw [N "SingleWire" .singleWire rfl rfl]
    rw [N "FrameDuration" .frameDuration rfl rfl]
    rw [N "BitPosition" .bitPosition rfl rfl]
    simp only [toNat_ne_zero, bit16, BitVec.ofNat_toNat, BitVec.setWidth_eq]
    simp [CanCfg.kept, CanCfg.has, CanCfg.members, CanCfg.hasData]

end Mdf
