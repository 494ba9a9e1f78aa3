import Verif.Proof.CanObs

/-!
CAN messages: C33 (data length code), C34 (the sample record), C52 (messages that are read back).
-/

namespace Mdf

/-! ### C33: the data length code -/

theorem dlcLoop_code (n : Nat) (h : n ≤ 64) : IsCode n (dlcLoop n kDataLengthCode) := by
  have key : ∀ n : Fin 65, dlcLoop n.val kDataLengthCode < 16 ∧ n.val ≤ fdLength (dlcLoop n.val kDataLengthCode) ∧
      ∀ e : Fin (dlcLoop n.val kDataLengthCode), fdLength e.val < n.val := by decide +kernel
  obtain ⟨h1, h2, h3⟩ := key ⟨n, by omega⟩
  exact ⟨h1, h2, fun e he => h3 ⟨e, he⟩⟩

theorem isCode_unique {n a b : Nat} (ha : IsCode n a) (hb : IsCode n b) : a = b := by
  rcases Nat.lt_trichotomy a b with h | h | h
  · have := hb.2.2 a h; have := ha.2.1; omega
  · exact h
  · have := ha.2.2 b h; have := hb.2.1; omega

/-- After setting up to 64 data bytes the code is the smallest one that covers them, and the bytes are those that were set. -/
theorem C33_set_data (m : CanMsg) (data : Bytes) (h : data.length ≤ 64) :
    (m.setData data).data = data ∧ (m.setData data).dataLength.toNat = data.length ∧
    IsCode data.length (m.setData data).getDlc.toNat := by
  have e : (BitVec.ofNat 8 data.length).toNat = data.length := by simp; omega
  refine ⟨rfl, ?_, ?_⟩
  · exact e
  · have hc := dlcLoop_code data.length h
    rw [getDlc_toNat]
    simp only [CanMsg.setData, CanMsg.setDataLength, e]
    have h16 := hc.1
    rw [BitVec.toNat_ofNat]
    have : dlcLoop data.length kDataLengthCode % 2 ^ 8 % 16 = dlcLoop data.length kDataLengthCode := by omega
    rw [this]
    exact hc

/-- The same for `DataLength`: the data bytes are cut or filled with zeros. -/
theorem C33_set_length (m : CanMsg) (n : Byte) (h : n.toNat ≤ 64) :
    (m.setDataLength n).data.length = n.toNat ∧ (m.setDataLength n).dataLength = n ∧
    IsCode n.toNat (m.setDataLength n).getDlc.toNat ∧
    ∀ i, i < n.toNat → (m.setDataLength n).data[i]? = some (m.data.getD i 0) := by
  have hl : (m.setDataLength n).data.length = n.toNat := resize_length _ _
  refine ⟨hl, ?_, ?_, ?_⟩
  · unfold CanMsg.dataLength; rw [hl]; simp
  · have hc := dlcLoop_code n.toNat h
    rw [getDlc_toNat]
    simp only [CanMsg.setDataLength]
    have h16 := hc.1
    rw [BitVec.toNat_ofNat]
    have : dlcLoop n.toNat kDataLengthCode % 2 ^ 8 % 16 = dlcLoop n.toNat kDataLengthCode := by omega
    rw [this]
    exact hc
  · intro i hi
    simp only [CanMsg.setDataLength, resizeBytes]
    by_cases hd : i < m.data.length
    · rw [List.getElem?_append_left (by simp; omega), List.getElem?_take_of_lt hi]
      simp [hd]
    · rw [List.getElem?_append_right (by simp; omega), List.length_take, List.getElem?_replicate, if_pos (by omega)]
      simp [List.getD, hd]

/-- C52: the id of a message: ids above 0x7FF are extended, `CanId` is the id without the mark. -/
theorem C52_message_id (m : CanMsg) (id : BitVec 32) (h : id.toNat < 2 ^ 29) :
    (m.setMessageId id).canId = id ∧ ((m.setMessageId id).extended = true ↔ 0x7FF < id.toNat) := by
  have hb : id.getLsbD 31 = false := by
    rw [BitVec.getLsbD, Nat.testBit_lt_two_pow (by omega)]
  have h31 : ∀ x : BitVec 32, (x &&& 0x80000000#32 ≠ 0) ↔ x.getLsbD 31 = true := by
    intro x
    have : (0x80000000#32) = BitVec.twoPow 32 31 := by decide
    rw [this, BitVec.and_twoPow]
    cases x.getLsbD 31 <;> simp
  have hid : id &&& ~~~0x80000000#32 = id := by
    apply BitVec.eq_of_getLsbD_eq
    intro i hi
    rw [BitVec.getLsbD_and, BitVec.getLsbD_not]
    have : (0x80000000#32) = BitVec.twoPow 32 31 := by decide
    rw [this, BitVec.getLsbD_twoPow]
    by_cases e : i = 31
    · subst e; rw [hb]; rfl
    · simp [hi, Ne.symm e]
  unfold CanMsg.setMessageId CanMsg.canId CanMsg.extended
  dsimp only
  by_cases hx : id.toNat > 0x7FF
  · rw [if_pos hx]
    refine ⟨?_, by simp only [decide_eq_true_eq]; rw [h31, BitVec.getLsbD_or, hb]; exact ⟨fun _ => hx, fun _ => by decide⟩⟩
    rw [BitVec.and_or_distrib_right, hid]
    have : (0x80000000#32 &&& ~~~0x80000000#32) = 0#32 := by decide
    rw [this, BitVec.or_zero]
  · rw [if_neg hx]
    refine ⟨hid, ?_⟩
    simp only [decide_eq_true_eq]
    rw [h31, hb]
    exact ⟨nofun, fun hc => absurd hc hx⟩

example : ((CanMsg.init).setMessageId 0x7FF#32).extended = false ∧ ((CanMsg.init).setMessageId 0x800#32).extended = true := by decide

/-- Decoding: each of the 16 codes has its length; so the decoded length covers the bytes, and lengths that have a code of their own
round trip. -/
theorem C33_decode (d : Byte) (h : d.toNat < 16) : dlcToLength d = fdLength d.toNat := by
  have key : ∀ n : Fin 16, kDataLengthCode.getD n.val 0 = fdLength n.val := by decide
  exact key ⟨d.toNat, h⟩

theorem C33_round_trip (m : CanMsg) (data : Bytes) (h : data.length ≤ 64) :
    data.length ≤ dlcToLength (m.setData data).getDlc ∧
    ((∃ d, d < 16 ∧ fdLength d = data.length) → dlcToLength (m.setData data).getDlc = data.length) := by
  obtain ⟨_, _, hc⟩ := C33_set_data m data h
  rw [C33_decode _ hc.1]
  refine ⟨hc.2.1, ?_⟩
  rintro ⟨d, hd, hdl⟩
  have hle := hc.2.1
  rcases Nat.lt_trichotomy (m.setData data).getDlc.toNat d with hlt | heq | hgt
  · exfalso
    have hmono : ∀ b : Fin 16, ∀ a : Fin b.val, fdLength a.val < fdLength b.val := by decide
    have := hmono ⟨d, hd⟩ ⟨_, hlt⟩
    simp only at this
    omega
  · rw [heq, hdl]
  · have := hc.2.2 d hgt; omega

example : (CanMsg.init.setData (List.replicate 20 7)).getDlc = 11 ∧ dlcToLength 11 = 20 ∧
    (CanMsg.init.setData (List.replicate 21 7)).getDlc = 12 ∧ dlcToLength 12 = 24 := by decide

/-- More than 64 bytes are not covered: the code is 0. -/
theorem C33_too_long (m : CanMsg) (data : Bytes) (h : 64 < data.length) (h2 : data.length ≤ 255) :
    (m.setData data).getDlc = 0 := by
  have e : (BitVec.ofNat 8 data.length).toNat = data.length := by simp; omega
  have key : ∀ n : Fin 256, 64 < n.val → dlcLoop n.val kDataLengthCode = 16 := by decide +kernel
  have := key ⟨data.length, by omega⟩ h
  simp only [CanMsg.getDlc, CanMsg.setData, CanMsg.setDataLength, e]
  simp only at this
  rw [this]
  decide

example : (CanMsg.init.setData (List.replicate 65 7)).getDlc = 0 := C33_too_long _ _ (by decide) (by decide)

/-! ### C34: the sample record -/

/-- The property as wanted, for all settings of the writer: the record made of a message has the size of the records of the group, the
time stays, and each member read by its channel is that of the message. -/
def C34_Statement : Prop :=
  ∀ (cfg : CanCfg) (m : CanMsg) (s : CanSample) (index : Nat), cfg.writerMax ≤ 2 ^ 27 → s.record.length = cfg.recordSize →
    s.vlsdData = false →
    ∃ s', cfg.save m s = some s' ∧ (s'.stored index).length = cfg.recordSize ∧ (s'.stored index).take 8 = s.record.take 8 ∧
      ∀ n c, (n, c) ∈ cfg.members → n ≠ .dataBytes →
        ∃ v, m.meaning n = some v ∧ c.getUnsigned (s'.stored index) 0 = .ok (BitVec.ofNat 64 v) ∧ v < 2 ^ 64

/-- C34 for all kinds of frames, both sets of members and all storage types.  Missing: MLSD storage with a maximum length below 8 (see
`C34_short_max_length_false`); records are below 128 MiB. -/
theorem C34_members_partial (cfg : CanCfg) (ok : cfg.Ok) (m : CanMsg) (s : CanSample) (index : Nat)
    (hs : s.record.length = cfg.recordSize) (hv : s.vlsdData = false) :
    ∃ s', cfg.save m s = some s' ∧ (s'.stored index).length = cfg.recordSize ∧ (s'.stored index).take 8 = s.record.take 8 ∧
      ∀ n c, (n, c) ∈ cfg.members → n ≠ .dataBytes →
        ∃ v, m.meaning n = some v ∧ c.getUnsigned (s'.stored index) 0 = .ok (BitVec.ofNat 64 v) ∧ v < 2 ^ 64 := by
  have he := save_spec cfg ok m s hs
  refine ⟨_, he, ?_⟩
  have hst := stored_spec cfg ok m s _ hs hv index he
  have hsz := recordSize_eq ok
  have h8 : (s.record.take 8).length = 8 := by rw [List.length_take]; omega
  have htl : (cfg.fileTail m index).length = (cfg.tail m).length := by
    unfold CanCfg.fileTail
    split
    · rename_i hc
      rw [leBytes_length]
      have hd := hc.1
      unfold CanCfg.hasData at hd
      unfold CanCfg.tail CanMsg.tail
      cases hf : cfg.frame <;> simp_all
    · rfl
  have hlen : (s.record.take 8 ++ (m.head cfg.frame cfg.mandatory ++ cfg.fileTail m index)).length = cfg.recordSize := by
    rw [List.length_append, h8, List.length_append, htl, tail_length cfg ok m, hsz]
  have hfb : cfg.frameBytes ≤ 2 ^ 27 + 100 := by
    have hw := ok.2
    unfold CanCfg.frameBytes
    split <;> (repeat' split) <;> omega
  rw [hst]
  refine ⟨hlen, by rw [List.take_append_of_le_length (by omega), List.take_of_length_le (by omega)], ?_⟩
  intro n c hmem hn
  obtain ⟨v, h1, h2, h3⟩ := members_spec cfg m (s.record.take 8) (cfg.fileTail m index) _ h8 (by rw [hlen, hsz]; omega) rfl _ hmem hn
  exact ⟨v, h1, h3, h2⟩

/-- An error frame with all members. -/
def exCanMsg : CanMsg :=
  { CanMsg.init.setData [1, 2, 3] with
    busChannel := 5, messageId := 0x92345678, dir := true, brs := true, r0 := true, singleWire := true, bitPosition := 777,
    errorType := 5, duration := 123456, crc := 0xCAFE }

def exCanCfg : CanCfg := ⟨.error, false, .mlsd, 8⟩

example : exCanCfg.Ok ∧ exCanCfg.recordSize = 34 ∧
    (∃ s', exCanCfg.save exCanMsg ⟨List.replicate 34 9, false, []⟩ = some s' ∧
      s'.record = List.replicate 8 9 ++ [5, 0x78, 0x56, 0x34, 0x92, 0x93, 3, 0xAC, 0x40, 0xE2, 1, 0, 9, 3, 0xFE, 0xCA, 0, 0, 1, 2, 3,
        0xFF, 0xFF, 0xFF, 0xFF, 0xFF]) ∧
    (exCanCfg.members.map fun e => exCanMsg.meaning e.1) = [some 5, some 0x12345678, some 1, some 3, some 3, some 1, some 0, some 0,
      some 1, some 0, some 0, some 1, some 1, some 0, some 5, some 123456, some 777, some 0xCAFE, none] := by
  refine ⟨by decide, by decide +kernel, ⟨_, rfl, by decide +kernel⟩, by decide +kernel⟩

/-- With MLSD storage and a maximum length of 4 the record is longer than the records of the group. -/
theorem C34_short_max_length_false : ¬ C34_Statement := by
  intro h
  obtain ⟨s', h1, h2, -⟩ := h ⟨.data, false, .mlsd, 4⟩ CanMsg.init ⟨List.replicate 28 0, false, []⟩ 0 (by decide) (by decide +kernel) rfl
  have h3 : s'.stored 0 = s'.record := by
    have : (CanCfg.save ⟨.data, false, .mlsd, 4⟩ CanMsg.init ⟨List.replicate 28 0, false, []⟩).map (·.vlsdData) = some false := by
      decide +kernel
    rw [h1] at this
    unfold CanSample.stored
    simp only [Option.map_some, Option.some.injEq] at this
    rw [this]; rfl
  rw [h3] at h2
  have h4 : (CanCfg.save ⟨.data, false, .mlsd, 4⟩ CanMsg.init ⟨List.replicate 28 0, false, []⟩).map (·.record.length) = some 32 := by
    decide +kernel
  rw [h1] at h4
  have h5 : CanCfg.recordSize ⟨.data, false, .mlsd, 4⟩ = 28 := by decide +kernel
  simp only [Option.map_some, Option.some.injEq] at h4
  omega

theorem drop_head (t h r : Bytes) (ht : t.length = 8) : (t ++ (h ++ r)).drop (8 + h.length) = r := by
  rw [← ht, ← List.append_assoc, ← List.length_append, List.drop_left]

/-- The data bytes outside the record: they are given to the writer as variable length data, and the channel of the data bytes, the last 8
bytes of the record, gets their position. -/
theorem C34_data_outside (cfg : CanCfg) (ok : cfg.Ok) (m : CanMsg) (s s' : CanSample) (index : Nat)
    (hs : s.record.length = cfg.recordSize) (hv : s.vlsdData = false) (he : cfg.save m s = some s') (hst : cfg.store ≠ .mlsd) (c : Chan)
    (hc : (CanName.dataBytes, c) ∈ cfg.members) :
    s'.vlsdData = true ∧ s'.vlsdBuffer = m.data ∧ c.type = .variableLength ∧ c.bitCount = 64 ∧ c.bitOffset = 0 ∧
    c.byteOffset + 8 = cfg.recordSize ∧ (s'.stored index).drop c.byteOffset = leBytes 8 index := by
  have hd : cfg.hasData = true := by
    obtain ⟨frame, mandatory, store, writerMax⟩ := cfg
    cases frame <;> cases mandatory <;> simp_all [CanCfg.members, CanCfg.hasData]
  have hch := data_channel cfg hd m
  have hcc : c = cfg.dataChan (8 + (m.head cfg.frame cfg.mandatory).length) := by
    rw [head_length]
    obtain ⟨frame, mandatory, store, writerMax⟩ := cfg
    cases frame <;> cases mandatory <;> simp_all [CanCfg.members, CanCfg.hasData]
  have h8 : (s.record.take 8).length = 8 := by rw [List.length_take, hs, recordSize_eq ok]; omega
  have hst2 := stored_spec cfg ok m s s' hs hv index he
  have hsv := save_spec cfg ok m s hs
  rw [he] at hsv
  injection hsv with hsv
  have htl : cfg.tail m = List.replicate 8 0 := by
    unfold CanCfg.tail CanMsg.tail
    unfold CanCfg.hasData at hd
    cases hf : cfg.frame <;> simp_all
  have htlen := tail_length cfg ok m
  rw [htl, List.length_replicate] at htlen
  have hft : cfg.fileTail m index = leBytes 8 index := by unfold CanCfg.fileTail; rw [if_pos ⟨hd, hst⟩]
  refine ⟨by rw [hsv]; simp [hd, hst], by rw [hsv]; simp [hd, hst], by rw [hcc]; simp [CanCfg.dataChan, hst],
    by rw [hcc]; simp [CanCfg.dataChan, canBits, hst], by rw [hcc]; rfl, ?_, ?_⟩
  · rw [hcc, recordSize_eq ok]; show 8 + _ + 8 = _; omega
  · rw [hst2, hft, hcc]
    show List.drop (8 + _) _ = _
    exact drop_head _ _ _ h8

/-- MLSD storage as wanted: the data bytes are in the record. -/
def C34_InsideStatement : Prop :=
  ∀ (cfg : CanCfg) (m : CanMsg) (s s' : CanSample), cfg.Ok → s.record.length = cfg.recordSize → s.vlsdData = false →
    cfg.save m s = some s' → cfg.store = .mlsd → ∀ c, (CanName.dataBytes, c) ∈ cfg.members →
    (s'.record.drop c.byteOffset).take m.data.length = m.data

/-- The data bytes inside the record (MLSD storage), followed by 0xFF up to the maximum length.  Missing: more bytes than the maximum length
(`C34_long_data_false`). -/
theorem C34_data_inside_partial (cfg : CanCfg) (ok : cfg.Ok) (m : CanMsg) (s s' : CanSample)
    (hs : s.record.length = cfg.recordSize) (he : cfg.save m s = some s') (hst : cfg.store = .mlsd) (c : Chan)
    (hc : (CanName.dataBytes, c) ∈ cfg.members) (hl : m.data.length ≤ cfg.writerMax) :
    s'.vlsdData = false ∧ c.type = .maxLength ∧ c.bitCount = 8 * cfg.writerMax ∧ c.byteOffset + cfg.writerMax = cfg.recordSize ∧
    s'.record.drop c.byteOffset = m.data ++ List.replicate (cfg.writerMax - m.data.length) 0xFF := by
  have hd : cfg.hasData = true := by
    obtain ⟨frame, mandatory, store, writerMax⟩ := cfg
    cases frame <;> cases mandatory <;> simp_all [CanCfg.members, CanCfg.hasData]
  have hcc : c = cfg.dataChan (8 + (m.head cfg.frame cfg.mandatory).length) := by
    rw [head_length]
    obtain ⟨frame, mandatory, store, writerMax⟩ := cfg
    cases frame <;> cases mandatory <;> simp_all [CanCfg.members, CanCfg.hasData]
  have h8 : (s.record.take 8).length = 8 := by rw [List.length_take, hs, recordSize_eq ok]; omega
  have hsv := save_spec cfg ok m s hs
  rw [he] at hsv
  injection hsv with hsv
  have htl : cfg.tail m = padded m.data cfg.writerMax := by
    unfold CanCfg.tail CanMsg.tail
    rw [groupMax_ok ok hst]
    unfold CanCfg.hasData at hd
    cases hf : cfg.frame <;> simp_all
  have htlen := tail_length cfg ok m
  rw [htl, padded_length] at htlen
  refine ⟨by rw [hsv]; simp [hd, hst], by rw [hcc]; simp [CanCfg.dataChan, hst],
    by rw [hcc]; simp [CanCfg.dataChan, canBits, hst], ?_, ?_⟩
  · rw [hcc, recordSize_eq ok]; show 8 + _ + _ = _; omega
  · rw [hsv, hcc, htl]
    show List.drop (8 + _) (_ ++ (_ ++ _)) = _
    rw [drop_head _ _ _ h8]
    apply List.ext_getElem
    · simp [padded_length]; omega
    · intro i h1 h2
      rw [padded_length] at h1
      by_cases hi : i < m.data.length
      · rw [List.getElem_append_left hi]; simp [padded, hi]
      · rw [List.getElem_append_right (by omega)]; simp [padded, hi]

/-- Data longer than the maximum length are cut. -/
theorem C34_long_data_false : ¬ C34_InsideStatement := by
  intro h
  have := h ⟨.data, true, .mlsd, 8⟩ (CanMsg.init.setData (List.replicate 9 1)) ⟨List.replicate 23 0, false, []⟩ _ (by decide)
    (by decide +kernel) rfl rfl rfl _ (by simp [CanCfg.members]; rfl)
  revert this
  decide +kernel

example : ∃ c, (CanName.dataBytes, c) ∈ (CanCfg.mk .data true .vlsd 0).members ∧ (CanCfg.mk .data true .vlsd 0).Ok ∧
    (CanCfg.mk .data true .vlsd 0).recordSize = 23 := ⟨_, by simp [CanCfg.members]; rfl, by decide, by decide +kernel⟩

/-! ### C52: messages read back -/

/-- The members the observer gets wrong. -/
def canLost (cfg : CanCfg) : List CanName :=
  [.r0, .errorType, .bitPosition] ++ if cfg.frame = .error then [.frameDuration] else []

/-- The events of the samples of a CAN group with VLSD storage: the variable length data comes before the record. -/
def CanObsCfg.events (o : CanObsCfg) (xs : List CanSaved) : List (Nat × Nat × Bytes) :=
  (xs.mapIdx fun i x => o.pair i (x.record, x.msg.data)).flatten

/-- The property as wanted: after reading a CAN group, in a data group with any other groups, the observer has the messages that were
saved. -/
def C52_Statement : Prop :=
  ∀ (o : CanObsCfg) (xs : List CanSaved) (events : List (Nat × Nat × Bytes)), o.cfg.Ok →
    (∀ v, o.vlsdId = some v → v ≠ o.id) → (o.vlsdId.isSome = decide (o.cfg.readStore = .vlsd)) →
    (∀ x ∈ xs, x.Ok o.cfg ∧ x.msg.data.length ≤ 255 ∧ (o.cfg.readStore = .fixed → o.signal x.record = x.msg.data)) →
    xs.length ≤ o.nof → events.filter o.mine = o.events xs →
    ∃ got : List CanMsg, (o.run o.start events).buffer = got.map some ++ List.replicate (o.nof - xs.length) none ∧
      got.length = xs.length ∧
      ∀ (i : Nat) (x : CanSaved) (g : CanMsg), xs[i]? = some x → got[i]? = some g → o.cfg.Preserves [] x.msg g

/-- What the observer keeps of a message. -/
theorem kept_preserves (cfg : CanCfg) (m : CanMsg) : cfg.Preserves (.dlc :: canLost cfg) m (cfg.kept m) := by
  have hid := m.messageId.isLt
  constructor
  · intro n hn hl
    cases n
    case dlc => exact absurd (by simp [canLost]) hl
    case r0 => exact absurd (by simp [canLost]) hl
    case errorType => exact absurd (by simp [canLost]) hl
    case bitPosition => exact absurd (by simp [canLost]) hl
    case busChannel => rfl
    case id =>
      simp only [CanMsg.meaning, CanCfg.kept, hn, if_true, BitVec.toNat_ofNat]
      congr 1; omega
    case ide =>
      have hn2 : cfg.has .id = true := by
        obtain ⟨frame, mandatory, store, writerMax⟩ := cfg
        cases frame <;> cases mandatory <;> first | rfl | exact hn
      simp only [CanMsg.meaning, CanCfg.kept, hn2, if_true, BitVec.toNat_ofNat]
      congr 1; omega
    case frameDuration =>
      have hf : cfg.frame ≠ .error := by
        intro hf; exact hl (by simp [canLost, hf])
      have hb : cfg.has .bitPosition = false := by
        obtain ⟨frame, mandatory, store, writerMax⟩ := cfg
        cases frame <;> cases mandatory <;> first | rfl | exact absurd rfl hf
      simp [CanMsg.meaning, CanCfg.kept, hn, hb]
    case dataBytes => rfl
    case dataLength =>
      simp only [CanMsg.meaning, CanCfg.kept, hn, if_true]
      split
      · rfl
      · simp
    all_goals simp [CanMsg.meaning, CanCfg.kept, hn]
  · intro h
    have : cfg.hasData = true := by
      obtain ⟨frame, mandatory, store, writerMax⟩ := cfg
      cases frame <;> cases mandatory <;> first | rfl | exact nomatch (show false = true from h)
    simp [CanCfg.kept, this]

theorem parse_mlsd (cfg : CanCfg) (h : cfg.store = .mlsd) (R a b : Bytes) : cfg.parse R a = cfg.parse R b := by
  unfold CanCfg.parse CanCfg.takeData
  simp only [h, if_true]

/-- C52, for messages whose data length code is the code of their data.  Missing: the members `canLost` (R0, ErrorType, BitPosition; in
error frames FrameDuration), see the theorems below; other data length codes; with MLSD storage more data than the maximum length. -/
theorem C52_read_partial (o : CanObsCfg) (xs : List CanSaved) (events : List (Nat × Nat × Bytes)) (ok : o.cfg.Ok)
    (hv : ∀ v, o.vlsdId = some v → v ≠ o.id) (hs : o.vlsdId.isSome = decide (o.cfg.readStore = .vlsd))
    (hx : ∀ x ∈ xs, x.Ok o.cfg ∧ x.msg.data.length ≤ 255 ∧ (o.cfg.readStore = .fixed → o.signal x.record = x.msg.data))
    (hn : xs.length ≤ o.nof) (hev : events.filter o.mine = o.events xs)
    (hmax : o.cfg.store = .mlsd → ∀ x ∈ xs, x.msg.data.length ≤ o.cfg.writerMax) :
    ∃ got : List CanMsg, (o.run o.start events).buffer = got.map some ++ List.replicate (o.nof - xs.length) none ∧
      got.length = xs.length ∧
      ∀ (i : Nat) (x : CanSaved) (g : CanMsg), xs[i]? = some x → got[i]? = some g →
        o.cfg.Preserves (.dlc :: canLost o.cfg) x.msg g ∧
        (o.cfg.has .dlc = true → IsCode x.msg.data.length x.msg.getDlc.toNat → g.meaning .dlc = x.msg.meaning .dlc) := by
  refine ⟨xs.map fun x => o.cfg.kept x.msg, ?_, by simp, ?_⟩
  · rw [obs_run_filter, hev]
    have h0 : o.Seen 0 [] o.start := ⟨rfl, rfl, rfl⟩
    have h := (seen_all o hv hs (xs.map fun x => (x.record, x.msg.data)) 0 [] o.start h0 (by simpa using hn)).buffer
    have e : o.events xs = ((xs.map fun x => (x.record, x.msg.data)).mapIdx fun i x => o.pair (0 + i) x).flatten := by
      unfold CanObsCfg.events
      congr 1
      apply List.ext_getElem?
      intro i
      rw [List.getElem?_mapIdx, List.getElem?_mapIdx, List.getElem?_map, Option.map_map, Nat.zero_add]
      rfl
    rw [e, h]
    simp only [List.nil_append, List.map_map, List.length_map, Nat.zero_add]
    congr 1
    apply List.map_congr_left
    intro x hm
    simp only [Function.comp_apply, Option.some.injEq]
    obtain ⟨hok, hlen, hsig⟩ := hx x hm
    have hst := stored_spec o.cfg ok x.msg x.before x.after hok.size hok.fresh x.index hok.saved
    have h8 : (x.before.record.take 8).length = 8 := by
      rw [List.length_take, hok.size, recordSize_eq ok]; omega
    have hsmall : x.record.length ≤ 2 ^ 28 := by
      obtain ⟨s', h1, h2, -⟩ := C34_members_partial o.cfg ok x.msg x.before x.index hok.size hok.fresh
      rw [hok.saved] at h1
      injection h1 with h1
      subst h1
      show (x.after.stored x.index).length ≤ _
      rw [h2, recordSize_eq ok]
      have hw := ok.2
      unfold CanCfg.frameBytes
      split <;> (repeat' split) <;> omega
    have hp := parse_spec o.cfg ok x.msg x.record _ x.index h8 hsmall hst (fun h => ⟨hlen, hmax h x hm⟩)
    rw [← hp]
    by_cases hf : o.cfg.readStore = .fixed
    · rw [if_pos hf, hsig hf]
    · rw [if_neg hf]
      by_cases hvs : o.cfg.readStore = .vlsd
      · rw [if_pos hvs]
      · rw [if_neg hvs]
        have hml : o.cfg.store = .mlsd := by
          unfold CanCfg.readStore at hf hvs
          cases hfr : o.cfg.frame <;> simp [hfr] at hf hvs <;> (cases hst : o.cfg.store <;> simp_all)
        exact parse_mlsd o.cfg hml _ _ _
  · intro i x g hi hg
    rw [List.getElem?_map, hi] at hg
    simp only [Option.map_some, Option.some.injEq] at hg
    subst hg
    refine ⟨kept_preserves o.cfg x.msg, ?_⟩
    intro hd hc
    have hlen := (hx x (List.mem_of_getElem? hi)).2.1
    have hdl : o.cfg.has .dataLength = true := by
      obtain ⟨⟨frame, mandatory, store, writerMax⟩, _, _, _, _⟩ := o
      cases frame <;> cases mandatory <;> first | rfl | exact hd
    have h64 : x.msg.data.length ≤ 64 := by
      have : ∀ d : Fin 16, fdLength d.val ≤ 64 := by decide
      exact Nat.le_trans hc.2.1 (this ⟨_, hc.1⟩)
    have hu := isCode_unique (dlcLoop_code _ h64) hc
    rw [getDlc_toNat] at hu
    simp only [CanMsg.meaning, CanCfg.kept, hdl, if_true, BitVec.toNat_ofNat]
    congr 1
    rw [Nat.mod_eq_of_lt (by omega : x.msg.data.length < 256), hu]
    omega

/-- Two messages of a group with a VLSD group, with a record of another group in between. -/
def exCanObs : CanObsCfg := ⟨⟨.data, false, .vlsd, 8⟩, 1, some 2, 2, fun _ => []⟩

def exCanSaved (data : Bytes) (index : Nat) : CanSaved :=
  let m := { exCanMsg.setData data with brs := false }
  let s : CanSample := ⟨List.replicate 32 0, false, []⟩
  ⟨m, s, ((exCanObs.cfg.save m s).getD s), index⟩

def exCanEvents : List (Nat × Nat × Bytes) :=
  [(0, 2, [1, 2]), (0, 1, (exCanSaved [1, 2] 0).record), (0, 3, [7]), (1, 2, [5]), (1, 1, (exCanSaved [5] 6).record)]

example : exCanObs.cfg.Ok ∧ (∀ x ∈ [exCanSaved [1, 2] 0, exCanSaved [5] 6], x.Ok exCanObs.cfg) ∧
    exCanEvents.filter exCanObs.mine = exCanObs.events [exCanSaved [1, 2] 0, exCanSaved [5] 6] ∧
    IsCode 2 (exCanSaved [1, 2] 0).msg.getDlc.toNat := by
  refine ⟨by decide, ?_, by decide +kernel, (C33_set_data exCanMsg [1, 2] (by decide)).2.2⟩
  intro x hx
  simp only [List.mem_cons, List.not_mem_nil, or_false] at hx
  rcases hx with rfl | rfl <;> exact ⟨by decide +kernel, rfl, by decide +kernel⟩

/-! The members that are lost. -/

/-- If one message read back alone is not what was saved, the property is false. -/
theorem c52_one (cfg : CanCfg) (x : CanSaved) (n : CanName) (ok : cfg.Ok) (hx : x.Ok cfg) (hst : cfg.readStore = .fixed)
    (hd : x.msg.data.length ≤ 255) (hh : cfg.has n = true) (h : C52_Statement) :
    (cfg.parse x.record x.msg.data).meaning n = x.msg.meaning n := by
  obtain ⟨got, h1, h2, h3⟩ := h ⟨cfg, 1, none, 1, fun _ => x.msg.data⟩ [x] [(0, 1, x.record)] ok (by simp)
    (by simp [hst]) (by
      intro y hy
      simp only [List.mem_singleton] at hy
      subst hy
      exact ⟨hx, hd, fun _ => rfl⟩) (by simp) (by simp [CanObsCfg.mine, CanObsCfg.events, CanObsCfg.pair])
  have hb : (CanObsCfg.run ⟨cfg, 1, none, 1, fun _ => x.msg.data⟩ (CanObsCfg.start ⟨cfg, 1, none, 1, fun _ => x.msg.data⟩)
      [(0, 1, x.record)]).buffer = [some (cfg.parse x.record x.msg.data)] := by
    simp [CanObsCfg.run, CanObsCfg.onSample, CanObsCfg.start, CanObs.isNew, hst, CanObsCfg.put]
  rw [hb] at h1
  simp only [List.length_singleton, Nat.sub_self, List.replicate_zero, List.append_nil] at h1 h2
  generalize cfg.parse x.record x.msg.data = p at h1 ⊢
  obtain ⟨g, rfl⟩ := List.length_eq_one_iff.mp h2
  simp only [List.map_cons, List.map_nil, List.cons.injEq, Option.some.injEq, and_true] at h1
  have := (h3 0 x g (by simp) (by simp)).1 n hh (by simp)
  rw [← h1] at this
  exact this

theorem c52_false (cfg : CanCfg) (m : CanMsg) (n : CanName) (ok : cfg.Ok) (hst : cfg.readStore = .fixed) (hd : m.data.length ≤ 255)
    (hh : cfg.has n = true) (hml : cfg.store ≠ .mlsd) (hne : (cfg.kept m).meaning n ≠ m.meaning n) : ¬ C52_Statement := by
  intro h
  obtain ⟨s0, hs0, hv0⟩ : ∃ s0 : CanSample, s0.record.length = cfg.recordSize ∧ s0.vlsdData = false :=
    ⟨⟨List.replicate cfg.recordSize 0, false, []⟩, by simp, rfl⟩
  obtain ⟨s', hs1, hs2, -⟩ := C34_members_partial cfg ok m s0 0 hs0 hv0
  have hst' := stored_spec cfg ok m _ _ hs0 hv0 0 hs1
  have h8 : (s0.record.take 8).length = 8 := by
    rw [List.length_take, hs0, recordSize_eq ok]; omega
  have hp := parse_spec cfg ok m (s'.stored 0) _ 0 h8 (by
      rw [hs2, recordSize_eq ok]
      have hw := ok.2
      unfold CanCfg.frameBytes
      split <;> (repeat' split) <;> omega) hst' (fun h => absurd h hml)
  have := c52_one cfg ⟨m, s0, s', 0⟩ n ok ⟨hs0, hv0, hs1⟩ hst hd hh h
  rw [show CanSaved.record ⟨m, s0, s', 0⟩ = s'.stored 0 from rfl, hp] at this
  exact hne this

/-- The reserved bit R0: the observer looks for a channel `RO`. -/
theorem C52_r0_false : ¬ C52_Statement :=
  c52_false ⟨.data, false, .fixed, 8⟩ { CanMsg.init with r0 := true } .r0 (by decide) rfl (by decide) rfl (by decide) (by decide)

/-- The error type: no channel is looked up. -/
theorem C52_error_type_false : ¬ C52_Statement :=
  c52_false ⟨.error, false, .fixed, 8⟩ { CanMsg.init with errorType := 3 } .errorType (by decide) rfl (by decide) rfl (by decide) (by decide)

/-- The bit position is stored as frame duration. -/
theorem C52_bit_position_false : ¬ C52_Statement :=
  c52_false ⟨.error, false, .fixed, 8⟩ { CanMsg.init with bitPosition := 3 } .bitPosition (by decide) rfl (by decide) rfl (by decide) (by decide)

theorem C52_frame_duration_false : ¬ C52_Statement :=
  c52_false ⟨.error, false, .fixed, 8⟩ { CanMsg.init with duration := 3 } .frameDuration (by decide) rfl (by decide) rfl (by decide) (by decide)

/-- The data length code of a remote frame, the length that is asked for, is overwritten with that of the (absent) data. -/
theorem C52_remote_dlc_false : ¬ C52_Statement :=
  c52_false ⟨.remote, false, .fixed, 8⟩ { CanMsg.init with dlc := 4 } .dlc (by decide) rfl (by decide) rfl (by decide) (by decide)

end Mdf
