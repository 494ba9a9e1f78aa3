import Verif.Proof.Bus

namespace Mdf

set_option linter.unusedSimpArgs false

/-- The 8 bytes in the record. -/
def linBytes (data : Bytes) : Bytes :=
  data.take (min (data.length % 2 ^ 16) 8) ++ List.replicate (8 - min (data.length % 2 ^ 16) 8) 0xFF#8

theorem linTake_length (data : Bytes) : (data.take (min (data.length % 2 ^ 16) 8)).length = min (data.length % 2 ^ 16) 8 := by
  rw [List.length_take]
  have := Nat.mod_le data.length (2 ^ 16)
  omega

theorem linBytes_length (data : Bytes) : (linBytes data).length = 8 := by
  rw [linBytes, List.length_append, linTake_length, List.length_replicate]
  omega

theorem linFill_bit (off : Nat) (data : Bytes) (q : Nat) (b : Bool) :
    (linFill off data).foldl (fun b op => op.bit q b) b = (BusOp.copy off (linBytes data)).bit q b := by
  have hl := linTake_length data
  have hm : min (data.length % 2 ^ 16) 8 ≤ 8 := Nat.min_le_right _ _
  unfold linFill
  dsimp only
  rw [List.foldl_cons, List.foldl_cons, List.foldl_nil, bit_copy, bit_copy, bit_copy, linBytes_length, hl, List.length_replicate]
  rw [testBit_leNat, testBit_leNat, testBit_leNat, linBytes, bitAt_append, hl]
  generalize hn : min (data.length % 2 ^ 16) 8 = n at *
  by_cases h1 : 8 * off ≤ q ∧ q < 8 * off + 8 * n
  · rw [if_neg (by omega), if_pos h1, if_pos (by omega), if_pos (by omega)]
  · by_cases h2 : 8 * off ≤ q ∧ q < 8 * off + 8 * 8
    · rw [if_pos (by omega), if_pos h2, if_neg (by omega)]
      congr 1
      omega
    · rw [if_neg (by omega), if_neg h1, if_neg h2]

theorem Written.fill {a b : List BusOp} {off : Nat} {data r R : Bytes} (h : Written (a ++ linFill off data ++ b) r R) :
    Written (a ++ [.copy off (linBytes data)] ++ b) r R := by
  refine ⟨h.length, fun q => ?_⟩
  rw [h.bits, List.foldl_append, List.foldl_append, linFill_bit, List.foldl_append, List.foldl_append, List.foldl_cons, List.foldl_nil]

theorem Written.fillAt {ops : List BusOp} {off : Nat} {data r R : Bytes} (h : Written ops r R) (n : Nat)
    (e : ops = ops.take n ++ linFill off data ++ ops.drop (n + 2)) :
    Written (ops.take n ++ [.copy off (linBytes data)] ++ ops.drop (n + 2)) r R := by
  rw [e] at h
  exact h.fill

theorem list8 (v : Bytes) (h : v.length = 8) : ∃ a b c d e f g i, v = [a, b, c, d, e, f, g, i] := by
  match v, h with
  | [a, b, c, d, e, f, g, i], _ => exact ⟨a, b, c, d, e, f, g, i, rfl⟩

/-- The group's record is that of the data group's setting. -/
def LinCfg.Same (cfg : LinCfg) : Prop := cfg.kind = .transmissionError → cfg.adapter = cfg.writer

theorem lin_size (cfg : LinCfg) (h : cfg.Same) : busRecordSize cfg.frameBytes = linSize cfg.kind cfg.adapter := by
  obtain ⟨kind, adapter, writer⟩ := cfg
  unfold LinCfg.Same at h
  dsimp only at h
  cases kind with
  | transmissionError =>
    have h := h rfl
    subst h
    cases adapter <;> exact busRecordSize_eq _ (by decide) (by decide)
  | _ => cases adapter <;> cases writer <;> exact busRecordSize_eq _ (by decide) (by decide)

theorem lin_fits (m : LinMsg) (kind : LinKind) (mandatory : Bool) : ∀ op ∈ m.ops kind mandatory, op.Fits (linSize kind mandatory) ∧ 64 ≤ op.first := by
  have hl := linTake_length m.data
  have hm : min (m.data.length % 2 ^ 16) 8 ≤ 8 := Nat.min_le_right _ _
  cases kind <;> cases mandatory <;>
    simp only [LinMsg.ops, LinMsg.body, LinMsg.rest, linFill, linSize, if_true, if_false, Bool.false_eq_true, List.cons_append, List.nil_append,
      List.append_nil, List.forall_mem_cons, BusOp.Fits, BusOp.first, BusOp.little, leBytes_length, hl, List.length_replicate] <;>
    generalize min (m.data.length % 2 ^ 16) 8 = n at * <;>
    and_intros <;> first | exact forall_empty | omega

theorem toNat_mask4 (x : Byte) : ((x &&& 15#8) <<< 4).toNat = x.toNat % 16 * 16 := by
  rw [toNat_shl, toNat_and15]
  omega

theorem toNat_getId (m : LinMsg) : m.getId.toNat = m.linId.toNat % 64 := toNat_and63 _
theorem toNat_getReceived (m : LinMsg) : m.getReceived.toNat = m.dataLength.toNat % 16 := toNat_and15 _
theorem toNat_getExpected (m : LinMsg) : m.getExpected.toNat = m.spare.toNat % 16 := toNat_and15 _
theorem toNat_getLength (m : LinMsg) : m.getLength.toNat = m.dataLength.toNat / 16 := by
  have : ∀ x : Fin 256, ((BitVec.ofFin x : Byte) &&& 0xF0#8) >>> 4 = BitVec.ofNat 8 ((BitVec.ofFin x : Byte).toNat / 16) := by decide +kernel
  have h := this m.dataLength.toFin
  have e : BitVec.ofFin m.dataLength.toFin = m.dataLength := rfl
  rw [e] at h
  rw [LinMsg.getLength, h, BitVec.toNat_ofNat]
  have := m.dataLength.isLt
  omega
theorem toNat_getLongType (m : LinMsg) : m.getLongType.toNat = m.spare.toNat / 16 % 4 := by
  have : ∀ x : Fin 256, ((BitVec.ofFin x : Byte) &&& 0x30#8) >>> 4 = BitVec.ofNat 8 ((BitVec.ofFin x : Byte).toNat / 16 % 4) := by decide +kernel
  have h := this m.spare.toFin
  have e : BitVec.ofFin m.spare.toFin = m.spare := rfl
  rw [e] at h
  rw [LinMsg.getLongType, h, BitVec.toNat_ofNat]
  omega

/-- The number in the two bits of the checksum model. -/
theorem model_bits (x : LinModel) : Int.bmod ((x.code.toNat % 4 : Nat) : Int) (2 ^ 2) = x.number := by
  cases x <;> decide

/-- The sequences of writes with the data bytes as one write. -/
theorem lin_frame (m : LinMsg) (mandatory : Bool) (r R : Bytes) (hw : Written (m.ops .frame mandatory) r R) :
    Written ([.set 8 m.busChannel, .set 9 (m.getId &&& 0x3F#8), .or 9 (flagBit m.getDir 6), .set 10 m.getReceived,
      .or 10 ((m.getLength &&& 0x0F#8) <<< 4), .copy 11 (linBytes m.data)] ++ (if mandatory then [] else m.rest)) r R := by
  cases mandatory <;> exact hw.fillAt (off := 11) (data := m.data) 5 rfl

theorem lin_checksum (m : LinMsg) (r R : Bytes) (hw : Written (m.ops .checksumError false) r R) :
    Written ([.set 8 m.busChannel, .set 9 (m.getId &&& 0x3F#8), .or 9 (flagBit m.getDir 6), .set 10 m.getReceived,
      .or 10 ((m.getLength &&& 0x0F#8) <<< 4), .copy 11 (linBytes m.data)] ++ m.rest) r R :=
  hw.fillAt (off := 11) (data := m.data) 5 rfl

theorem lin_receive (m : LinMsg) (mandatory : Bool) (r R : Bytes) (hw : Written (m.ops .receiveError mandatory) r R) :
    Written [.set 8 m.busChannel, .set 9 (m.getId &&& 0x3F#8), .set 10 (m.getReceived &&& 0x0F#8), .or 10 ((m.getExpected &&& 0x0F#8) <<< 4),
     .set 11 (m.getLength &&& 0x0F#8), .or 11 ((m.model.code &&& 0x03#8) <<< 4), .copy 12 (linBytes m.data),
     .little 20 8 m.sof.toNat, .little 28 4 m.baudrate.toNat, .little 32 4 m.response.toNat, .little 36 4 m.breakLength.toNat,
     .little 40 4 m.delimiter.toNat] r R :=
  hw.fillAt (off := 12) (data := m.data) 6 rfl

/-- A number, a `float` or a signed number in a record of writes. -/
syntax "linfield" : tactic
macro_rules
  | `(tactic| linfield) => `(tactic| (
      set_option linter.unusedSimpArgs false in
      simp only [List.foldl_cons, List.foldl_nil, List.length_cons, List.length_nil, BusOp.field, BusOp.covers, BusOp.first, BusOp.last, BusOp.little, leBytes_length, Nat.reduceMul,
        Nat.reduceAdd, Nat.reduceSub, Nat.reduceLeDiff, and_true, true_and, and_false, false_and, decide_true, decide_false, if_true, if_false,
        Bool.false_eq_true, reduceCtorEq,
        toNat_and63, toNat_and15, toNat_and7, toNat_and3, toNat_and1, toNat_shl, toNat_bool, toNat_bool', toNat_flag, BitVec.toNat_setWidth,
        BitVec.toNat_ofNat, leNat_leBytes, Nat.reducePow, toNat_getId, toNat_getReceived, toNat_getExpected, toNat_getLength, toNat_getLongType]
      busbits))

syntax "linmember" ident ident : tactic
macro_rules
  | `(tactic| linmember $hw $hr) => `(tactic| first
    | exact forall_empty
    | exact forall_none
    | (refine forall_some (Written.num $hw _ _ _ _ (by decide) (by rw [$hr:ident]; decide) (by rw [$hr:ident]; decide) rfl (fun x => ?_))
       linfield
       done)
    | (refine forall_some (Written.float $hw _ _ (by decide) (by rw [$hr:ident]; decide) (by rw [$hr:ident]; decide) rfl (fun x => ?_))
       linfield
       done)
    | (refine forall_some (Written.int $hw _ _ _ _ _ (by decide) (by rw [$hr:ident]; decide) (by rw [$hr:ident]; decide) rfl (fun x => ?_) (model_bits _))
       linfield
       done))

attribute [local irreducible] Chan.busValue

theorem lin_frameFalse (m : LinMsg) (writer : Bool) (r R : Bytes) (hr : r.length = linSize .frame false) (hw : Written (m.ops .frame false) r R) :
    ∀ e ∈ (LinCfg.mk .frame false writer).members, ∀ v, exceptFor (linLost .frame) m.meaning e.1 = some v → e.2.busValue R = some v := by
  obtain ⟨b1, b2, b3, b4, b5, b6, b7, b8, hb⟩ := list8 (linBytes m.data) (linBytes_length m.data)
  have hg := Bool.toNat_le m.getDir
  replace hw := lin_frame m false r R hw
  rw [hb] at hw
  simp only [LinMsg.rest, linSize, if_true, if_false, Bool.false_eq_true, List.cons_append, List.nil_append, BusOp.little] at hw hr
  simp only [LinCfg.members, linBody, linRest, if_true, if_false, Bool.false_eq_true, List.cons_append, List.nil_append, List.forall_mem_cons]
  and_intros <;> linmember hw hr

theorem lin_frameTrue (m : LinMsg) (writer : Bool) (r R : Bytes) (hr : r.length = linSize .frame true) (hw : Written (m.ops .frame true) r R) :
    ∀ e ∈ (LinCfg.mk .frame true writer).members, ∀ v, exceptFor (linLost .frame) m.meaning e.1 = some v → e.2.busValue R = some v := by
  obtain ⟨b1, b2, b3, b4, b5, b6, b7, b8, hb⟩ := list8 (linBytes m.data) (linBytes_length m.data)
  have hg := Bool.toNat_le m.getDir
  replace hw := lin_frame m true r R hw
  rw [hb] at hw
  simp only [LinMsg.rest, linSize, if_true, if_false, Bool.false_eq_true, List.cons_append, List.nil_append, BusOp.little] at hw hr
  simp only [LinCfg.members, linBody, linRest, if_true, if_false, Bool.false_eq_true, List.cons_append, List.nil_append, List.forall_mem_cons]
  and_intros <;> linmember hw hr

theorem lin_checksumFalse (m : LinMsg) (writer : Bool) (r R : Bytes) (hr : r.length = linSize .checksumError false) (hw : Written (m.ops .checksumError false) r R) :
    ∀ e ∈ (LinCfg.mk .checksumError false writer).members, ∀ v, exceptFor (linLost .checksumError) m.meaning e.1 = some v → e.2.busValue R = some v := by
  obtain ⟨b1, b2, b3, b4, b5, b6, b7, b8, hb⟩ := list8 (linBytes m.data) (linBytes_length m.data)
  have hg := Bool.toNat_le m.getDir
  replace hw := lin_checksum m r R hw
  rw [hb] at hw
  simp only [LinMsg.rest, linSize, if_true, if_false, Bool.false_eq_true, List.cons_append, List.nil_append, BusOp.little] at hw hr
  simp only [LinCfg.members, linBody, linRest, if_true, if_false, Bool.false_eq_true, List.cons_append, List.nil_append, List.forall_mem_cons]
  and_intros <;> linmember hw hr

theorem lin_transmissionFalse (m : LinMsg) (r R : Bytes) (hr : r.length = linSize .transmissionError false) (hw : Written (m.ops .transmissionError false) r R) :
    ∀ e ∈ (LinCfg.mk .transmissionError false false).members, ∀ v, exceptFor (linLost .transmissionError) m.meaning e.1 = some v → e.2.busValue R = some v := by
  simp only [LinMsg.ops, LinMsg.rest, linSize, if_true, if_false, Bool.false_eq_true, List.cons_append, List.nil_append, BusOp.little] at hw hr
  simp only [LinCfg.members, linBody, linRest, if_true, if_false, Bool.false_eq_true, List.cons_append, List.nil_append, List.forall_mem_cons]
  and_intros <;> linmember hw hr

theorem lin_wakeUpFalse (m : LinMsg) (writer : Bool) (r R : Bytes) (hr : r.length = linSize .wakeUp false) (hw : Written (m.ops .wakeUp false) r R) :
    ∀ e ∈ (LinCfg.mk .wakeUp false writer).members, ∀ v, exceptFor (linLost .wakeUp) m.meaning e.1 = some v → e.2.busValue R = some v := by
  simp only [LinMsg.ops, LinMsg.rest, linSize, if_true, if_false, Bool.false_eq_true, List.cons_append, List.nil_append, BusOp.little] at hw hr
  simp only [LinCfg.members, linBody, linRest, if_true, if_false, Bool.false_eq_true, List.cons_append, List.nil_append, List.forall_mem_cons]
  and_intros <;> linmember hw hr

theorem lin_syncFalse (m : LinMsg) (writer : Bool) (r R : Bytes) (hr : r.length = linSize .syncError false) (hw : Written (m.ops .syncError false) r R) :
    ∀ e ∈ (LinCfg.mk .syncError false writer).members, ∀ v, exceptFor (linLost .syncError) m.meaning e.1 = some v → e.2.busValue R = some v := by
  simp only [LinMsg.ops, LinMsg.rest, linSize, if_true, if_false, Bool.false_eq_true, List.cons_append, List.nil_append, BusOp.little] at hw hr
  simp only [LinCfg.members, linBody, linRest, if_true, if_false, Bool.false_eq_true, List.cons_append, List.nil_append, List.forall_mem_cons]
  and_intros <;> linmember hw hr

theorem lin_receiveFalse (m : LinMsg) (writer : Bool) (r R : Bytes) (hr : r.length = linSize .receiveError false) (hw : Written (m.ops .receiveError false) r R) :
    ∀ e ∈ (LinCfg.mk .receiveError false writer).members, ∀ v, exceptFor (linLost .receiveError) m.meaning e.1 = some v → e.2.busValue R = some v := by
  obtain ⟨b1, b2, b3, b4, b5, b6, b7, b8, hb⟩ := list8 (linBytes m.data) (linBytes_length m.data)
  have hg := Bool.toNat_le m.getDir
  replace hw := lin_receive m false r R hw
  rw [hb] at hw
  simp only [LinMsg.rest, linSize, if_true, if_false, Bool.false_eq_true, List.cons_append, List.nil_append, BusOp.little] at hw hr
  simp only [LinCfg.members, linBody, linRest, if_true, if_false, Bool.false_eq_true, List.cons_append, List.nil_append, List.forall_mem_cons]
  and_intros <;> linmember hw hr

theorem lin_spikeFalse (m : LinMsg) (writer : Bool) (r R : Bytes) (hr : r.length = linSize .spike false) (hw : Written (m.ops .spike false) r R) :
    ∀ e ∈ (LinCfg.mk .spike false writer).members, ∀ v, exceptFor (linLost .spike) m.meaning e.1 = some v → e.2.busValue R = some v := by
  simp only [LinMsg.ops, LinMsg.rest, linSize, if_true, if_false, Bool.false_eq_true, List.cons_append, List.nil_append, BusOp.little] at hw hr
  simp only [LinCfg.members, linBody, linRest, if_true, if_false, Bool.false_eq_true, List.cons_append, List.nil_append, List.forall_mem_cons]
  and_intros <;> linmember hw hr

theorem lin_longDomFalse (m : LinMsg) (writer : Bool) (r R : Bytes) (hr : r.length = linSize .longDom false) (hw : Written (m.ops .longDom false) r R) :
    ∀ e ∈ (LinCfg.mk .longDom false writer).members, ∀ v, exceptFor (linLost .longDom) m.meaning e.1 = some v → e.2.busValue R = some v := by
  simp only [LinMsg.ops, LinMsg.rest, linSize, if_true, if_false, Bool.false_eq_true, List.cons_append, List.nil_append, BusOp.little] at hw hr
  simp only [LinCfg.members, linBody, linRest, if_true, if_false, Bool.false_eq_true, List.cons_append, List.nil_append, List.forall_mem_cons]
  and_intros <;> linmember hw hr

theorem lin_checksumTrue (m : LinMsg) (writer : Bool) (r R : Bytes) (hr : r.length = linSize .checksumError true) (hw : Written (m.ops .checksumError true) r R) :
    ∀ e ∈ (LinCfg.mk .checksumError true writer).members, ∀ v, exceptFor (linLost .checksumError) m.meaning e.1 = some v → e.2.busValue R = some v := by
  simp only [LinMsg.ops, LinMsg.rest, linSize, if_true, if_false, Bool.false_eq_true, List.cons_append, List.nil_append, BusOp.little] at hw hr
  simp only [LinCfg.members, linBody, linRest, if_true, if_false, Bool.false_eq_true, List.cons_append, List.nil_append, List.forall_mem_cons]
  and_intros <;> linmember hw hr

theorem lin_transmissionTrue (m : LinMsg) (r R : Bytes) (hr : r.length = linSize .transmissionError true) (hw : Written (m.ops .transmissionError true) r R) :
    ∀ e ∈ (LinCfg.mk .transmissionError true true).members, ∀ v, exceptFor (linLost .transmissionError) m.meaning e.1 = some v → e.2.busValue R = some v := by
  simp only [LinMsg.ops, LinMsg.rest, linSize, if_true, if_false, Bool.false_eq_true, List.cons_append, List.nil_append, BusOp.little] at hw hr
  simp only [LinCfg.members, linBody, linRest, if_true, if_false, Bool.false_eq_true, List.cons_append, List.nil_append, List.forall_mem_cons]
  and_intros <;> linmember hw hr

theorem lin_wakeUpTrue (m : LinMsg) (writer : Bool) (r R : Bytes) (hr : r.length = linSize .wakeUp true) (hw : Written (m.ops .wakeUp true) r R) :
    ∀ e ∈ (LinCfg.mk .wakeUp true writer).members, ∀ v, exceptFor (linLost .wakeUp) m.meaning e.1 = some v → e.2.busValue R = some v := by
  simp only [LinMsg.ops, LinMsg.rest, linSize, if_true, if_false, Bool.false_eq_true, List.cons_append, List.nil_append, BusOp.little] at hw hr
  simp only [LinCfg.members, linBody, linRest, if_true, if_false, Bool.false_eq_true, List.cons_append, List.nil_append, List.forall_mem_cons]
  and_intros <;> linmember hw hr

theorem lin_syncTrue (m : LinMsg) (writer : Bool) (r R : Bytes) (hr : r.length = linSize .syncError true) (hw : Written (m.ops .syncError true) r R) :
    ∀ e ∈ (LinCfg.mk .syncError true writer).members, ∀ v, exceptFor (linLost .syncError) m.meaning e.1 = some v → e.2.busValue R = some v := by
  simp only [LinMsg.ops, LinMsg.rest, linSize, if_true, if_false, Bool.false_eq_true, List.cons_append, List.nil_append, BusOp.little] at hw hr
  simp only [LinCfg.members, linBody, linRest, if_true, if_false, Bool.false_eq_true, List.cons_append, List.nil_append, List.forall_mem_cons]
  and_intros <;> linmember hw hr

theorem lin_receiveTrue (m : LinMsg) (writer : Bool) (r R : Bytes) (hr : r.length = linSize .receiveError true) (hw : Written (m.ops .receiveError true) r R) :
    ∀ e ∈ (LinCfg.mk .receiveError true writer).members, ∀ v, exceptFor (linLost .receiveError) m.meaning e.1 = some v → e.2.busValue R = some v := by
  obtain ⟨b1, b2, b3, b4, b5, b6, b7, b8, hb⟩ := list8 (linBytes m.data) (linBytes_length m.data)
  have hg := Bool.toNat_le m.getDir
  replace hw := lin_receive m true r R hw
  rw [hb] at hw
  simp only [LinMsg.rest, linSize, if_true, if_false, Bool.false_eq_true, List.cons_append, List.nil_append, BusOp.little] at hw hr
  simp only [LinCfg.members, linBody, linRest, if_true, if_false, Bool.false_eq_true, List.cons_append, List.nil_append, List.forall_mem_cons]
  and_intros <;> linmember hw hr

theorem lin_spikeTrue (m : LinMsg) (writer : Bool) (r R : Bytes) (hr : r.length = linSize .spike true) (hw : Written (m.ops .spike true) r R) :
    ∀ e ∈ (LinCfg.mk .spike true writer).members, ∀ v, exceptFor (linLost .spike) m.meaning e.1 = some v → e.2.busValue R = some v := by
  simp only [LinMsg.ops, LinMsg.rest, linSize, if_true, if_false, Bool.false_eq_true, List.cons_append, List.nil_append, BusOp.little] at hw hr
  simp only [LinCfg.members, linBody, linRest, if_true, if_false, Bool.false_eq_true, List.cons_append, List.nil_append, List.forall_mem_cons]
  and_intros <;> linmember hw hr

theorem lin_longDomTrue (m : LinMsg) (writer : Bool) (r R : Bytes) (hr : r.length = linSize .longDom true) (hw : Written (m.ops .longDom true) r R) :
    ∀ e ∈ (LinCfg.mk .longDom true writer).members, ∀ v, exceptFor (linLost .longDom) m.meaning e.1 = some v → e.2.busValue R = some v := by
  simp only [LinMsg.ops, LinMsg.rest, linSize, if_true, if_false, Bool.false_eq_true, List.cons_append, List.nil_append, BusOp.little] at hw hr
  simp only [LinCfg.members, linBody, linRest, if_true, if_false, Bool.false_eq_true, List.cons_append, List.nil_append, List.forall_mem_cons]
  and_intros <;> linmember hw hr

theorem lin_value (m : LinMsg) (kind : LinKind) (adapter writer : Bool) (same : kind = .transmissionError → adapter = writer) (r R : Bytes)
    (hr : r.length = linSize kind adapter) (hw : Written (m.ops kind adapter) r R) :
    ∀ e ∈ (LinCfg.mk kind adapter writer).members, ∀ v, exceptFor (linLost kind) m.meaning e.1 = some v → e.2.busValue R = some v := by
  cases kind with
  | frame => cases adapter; exact lin_frameFalse m writer r R hr hw; exact lin_frameTrue m writer r R hr hw
  | wakeUp => cases adapter; exact lin_wakeUpFalse m writer r R hr hw; exact lin_wakeUpTrue m writer r R hr hw
  | checksumError => cases adapter; exact lin_checksumFalse m writer r R hr hw; exact lin_checksumTrue m writer r R hr hw
  | transmissionError =>
    have h := same rfl
    subst h
    cases adapter
    · exact lin_transmissionFalse m r R hr hw
    · exact lin_transmissionTrue m r R hr hw
  | syncError => cases adapter; exact lin_syncFalse m writer r R hr hw; exact lin_syncTrue m writer r R hr hw
  | receiveError => cases adapter; exact lin_receiveFalse m writer r R hr hw; exact lin_receiveTrue m writer r R hr hw
  | spike => cases adapter; exact lin_spikeFalse m writer r R hr hw; exact lin_spikeTrue m writer r R hr hw
  | longDom => cases adapter; exact lin_longDomFalse m writer r R hr hw; exact lin_longDomTrue m writer r R hr hw

/-! ### The data bytes -/

/-- The bytes of the record where the data bytes are. -/
theorem lin_dataAt (m : LinMsg) (kind : LinKind) (adapter writer : Bool) (r R : Bytes) (hr : r.length = linSize kind adapter)
    (hw : Written (m.ops kind adapter) r R) (c : Chan) (hc : (LinName.dataBytes, c) ∈ (LinCfg.mk kind adapter writer).members) :
    (R.drop c.byteOffset).take 8 = linBytes m.data := by
  obtain ⟨b1, b2, b3, b4, b5, b6, b7, b8, hb⟩ := list8 (linBytes m.data) (linBytes_length m.data)
  have hlt := leNat_lt [b1, b2, b3, b4, b5, b6, b7, b8]
  simp only [List.length_cons, List.length_nil, Nat.reduceAdd, Nat.reducePow] at hlt
  have none : (∀ d, (LinName.dataBytes, d) ∉ (LinCfg.mk kind adapter writer).members) → (R.drop c.byteOffset).take 8 = linBytes m.data :=
    fun h => absurd hc (h c)
  cases kind with
  | frame =>
    have ho : c.byteOffset = 11 := by cases adapter <;> simp [LinCfg.members, linBody, linRest] at hc <;> subst hc <;> rfl
    have hw := lin_frame m adapter r R hw
    rw [ho, hb]
    rw [hb] at hw
    cases adapter <;> simp only [LinMsg.rest, linSize, if_true, if_false, Bool.false_eq_true, List.cons_append, List.nil_append] at hw hr <;>
      refine hw.bytesAt 11 8 _ rfl (by rw [hr]; decide) rfl (fun x => ?_) <;> linfield
  | checksumError =>
    cases adapter with
    | true => exact none (by simp [LinCfg.members])
    | false =>
      have ho : c.byteOffset = 11 := by simp [LinCfg.members, linBody, linRest] at hc; subst hc; rfl
      have hw := lin_checksum m r R hw
      rw [ho, hb]
      rw [hb] at hw
      simp only [LinMsg.rest, linSize, if_true, if_false, Bool.false_eq_true, List.cons_append, List.nil_append] at hw hr
      refine hw.bytesAt 11 8 _ rfl (by rw [hr]; decide) rfl (fun x => ?_)
      linfield
  | receiveError =>
    have ho : c.byteOffset = 12 := by simp [LinCfg.members] at hc; subst hc; rfl
    have hw := lin_receive m adapter r R hw
    rw [ho, hb]
    rw [hb] at hw
    simp only [linSize] at hr
    refine hw.bytesAt 12 8 _ rfl (by rw [hr]; decide) rfl (fun x => ?_)
    linfield
  | transmissionError => cases writer <;> exact none (by simp [LinCfg.members])
  | _ => exact none (by simp [LinCfg.members])

/-- The length channel of a group with data bytes. -/
theorem lin_lengthValue (m : LinMsg) (kind : LinKind) (adapter writer : Bool) (same : kind = .transmissionError → adapter = writer)
    (r R : Bytes) (hr : r.length = linSize kind adapter)
    (hw : Written (m.ops kind adapter) r R) (len : Chan) (hc : (LinName.dataLength, len) ∈ (LinCfg.mk kind adapter writer).members) :
    canValue len R = m.getLength.toNat := by
  have hl : LinName.dataLength ∉ linLost kind := by cases kind <;> decide
  have h := lin_value m kind adapter writer same r R hr hw _ hc (.num m.getLength.toNat) (by simp only [exceptFor, hl, if_false]; rfl)
  have ht : len.dataType = .unsignedLe := by
    revert hc
    cases kind <;> cases adapter <;> cases writer <;> simp [LinCfg.members, linBody, linRest] <;> intro e <;> subst e <;> rfl
  unfold Chan.busValue at h
  rw [ht] at h
  dsimp only at h
  unfold canValue
  split at h
  · next v hv =>
    rw [hv]
    simpa using h
  · cases h

theorem lin_data (m : LinMsg) (kind : LinKind) (adapter writer : Bool) (same : kind = .transmissionError → adapter = writer)
    (r R : Bytes) (hr : r.length = linSize kind adapter) (hw : Written (m.ops kind adapter) r R) (h8 : m.data.length ≤ 8)
    (hl : m.getLength.toNat = m.data.length) : (LinCfg.mk kind adapter writer).DataFound m.data R := by
  intro c len hc hlen
  have h1 := lin_dataAt m kind adapter writer r R hr hw c hc
  have h2 := lin_lengthValue m kind adapter writer same r R hr hw len hlen
  have hin : c.byteOffset + 8 ≤ R.length := by
    have := congrArg List.length h1
    rw [List.length_take, List.length_drop, linBytes_length] at this
    omega
  unfold mlsdBytes
  rw [h2, hl]
  dsimp only
  rw [if_pos (by omega)]
  have e : ((R.drop c.byteOffset).take 8).take m.data.length = (R.drop c.byteOffset).take m.data.length := by
    rw [List.take_take, Nat.min_eq_left h8]
  rw [← e, h1, linBytes]
  have hm : min (m.data.length % 2 ^ 16) 8 = m.data.length := by omega
  rw [hm, List.take_length, List.take_append_of_le_length (Nat.le_refl _), List.take_length]

/-- Too many data bytes: with a data length that reaches behind the record, zeros are returned. -/
theorem lin_dataLost (m : LinMsg) (r R : Bytes) (hr : r.length = linSize .frame true) (hw : Written (m.ops .frame true) r R)
    (h8 : 8 < m.getLength.toNat) : mlsdBytes (busMlsd 11) (canBits 10 4 4) R = List.replicate m.getLength.toNat 0 := by
  have h2 := lin_lengthValue m .frame true true (by decide) r R hr hw (canBits 10 4 4) (by simp [LinCfg.members, linBody])
  have hl := hw.length
  unfold mlsdBytes
  rw [h2]
  dsimp only
  rw [if_neg]
  have : (busMlsd 11).byteOffset = 11 := rfl
  have e : linSize .frame true = 19 := rfl
  omega

/-! ### The members that are lost -/

theorem lin_dirLost (m : LinMsg) (kind : LinKind) (adapter : Bool) (hk : kind = .frame ∨ kind = .checksumError) (r R : Bytes)
    (hr : r.length = linSize kind adapter) (hw : Written (m.ops kind adapter) r R) : (canBits 9 7 1).busValue R = some (.num 0) := by
  obtain ⟨b1, b2, b3, b4, b5, b6, b7, b8, hb⟩ := list8 (linBytes m.data) (linBytes_length m.data)
  have hg := Bool.toNat_le m.getDir
  rcases hk with hk | hk
  · subst hk
    have hw := lin_frame m adapter r R hw
    rw [hb] at hw
    cases adapter <;> simp only [LinMsg.rest, linSize, if_true, if_false, Bool.false_eq_true, List.cons_append, List.nil_append] at hw hr <;>
      refine hw.num _ _ _ _ (by decide) (by rw [hr]; decide) (by rw [hr]; decide) rfl (fun x => ?_) <;> linfield
  · subst hk
    cases adapter with
    | true =>
      simp only [LinMsg.ops, linSize, if_true, List.append_nil] at hw hr
      refine hw.num _ _ _ _ (by decide) (by rw [hr]; decide) (by rw [hr]; decide) rfl (fun x => ?_)
      linfield
    | false =>
      have hw := lin_checksum m r R hw
      rw [hb] at hw
      simp only [LinMsg.rest, linSize, if_true, if_false, Bool.false_eq_true, List.cons_append, List.nil_append] at hw hr
      refine hw.num _ _ _ _ (by decide) (by rw [hr]; decide) (by rw [hr]; decide) rfl (fun x => ?_)
      linfield

theorem lin_modelLost (m : LinMsg) (adapter : Bool) (r R : Bytes) (hr : r.length = linSize .receiveError adapter)
    (hw : Written (m.ops .receiveError adapter) r R) : (busSigned 9 6 2).busValue R = some (.int 0) := by
  obtain ⟨b1, b2, b3, b4, b5, b6, b7, b8, hb⟩ := list8 (linBytes m.data) (linBytes_length m.data)
  have hw := lin_receive m adapter r R hw
  rw [hb] at hw
  simp only [linSize] at hr
  refine hw.int 9 6 2 0 0 (by decide) (by rw [hr]; decide) (by rw [hr]; decide) rfl (fun x => ?_) (by decide)
  linfield

theorem lin_sofLost (m : LinMsg) (kind : LinKind) (adapter : Bool) (hk : kind = .wakeUp ∨ kind = .spike) (r R : Bytes)
    (hr : r.length = linSize kind adapter) (hw : Written (m.ops kind adapter) r R) :
    (canBits 13 0 8).busValue R = some (.num (m.sof.toNat % 256)) := by
  rcases hk with hk | hk <;> subst hk <;> simp only [LinMsg.ops, linSize] at hw hr <;>
    refine hw.num _ _ _ _ (by decide) (by rw [hr]; decide) (by rw [hr]; decide) rfl (fun x => ?_) <;> linfield

/-! ### Bits of bytes that hold two values -/

theorem byte_ext {a b : Byte} (h0 : a.getLsbD 0 = b.getLsbD 0) (h1 : a.getLsbD 1 = b.getLsbD 1) (h2 : a.getLsbD 2 = b.getLsbD 2)
    (h3 : a.getLsbD 3 = b.getLsbD 3) (h4 : a.getLsbD 4 = b.getLsbD 4) (h5 : a.getLsbD 5 = b.getLsbD 5) (h6 : a.getLsbD 6 = b.getLsbD 6)
    (h7 : a.getLsbD 7 = b.getLsbD 7) : a = b := by
  apply BitVec.eq_of_getLsbD_eq
  intro i hi
  have h : i = 0 ∨ i = 1 ∨ i = 2 ∨ i = 3 ∨ i = 4 ∨ i = 5 ∨ i = 6 ∨ i = 7 := by omega
  rcases h with rfl | rfl | rfl | rfl | rfl | rfl | rfl | rfl <;> assumption

theorem mask_id (a x : Byte) : ((a &&& ~~~0x3F#8) ||| (x &&& 0x3F#8)) &&& 0x3F#8 = x &&& 0x3F#8 := by apply byte_ext <;> simp
theorem mask_idDir (a x : Byte) : ((a &&& ~~~0x3F#8) ||| (x &&& 0x3F#8)) &&& 0x80#8 = a &&& 0x80#8 := by apply byte_ext <;> simp
theorem mask_dir (a : Byte) : (a ||| 0x80#8) &&& 0x80#8 = 0x80#8 := by apply byte_ext <;> simp
theorem mask_dirOff (a : Byte) : (a &&& ~~~0x80#8) &&& 0x80#8 = 0#8 := by apply byte_ext <;> simp
theorem mask_dirId (a : Byte) : (a ||| 0x80#8) &&& 0x3F#8 = a &&& 0x3F#8 := by apply byte_ext <;> simp
theorem mask_dirOffId (a : Byte) : (a &&& ~~~0x80#8) &&& 0x3F#8 = a &&& 0x3F#8 := by apply byte_ext <;> simp
theorem mask_low (a x : Byte) : ((a &&& ~~~0x0F#8) ||| (x &&& 0x0F#8)) &&& 0x0F#8 = x &&& 0x0F#8 := by apply byte_ext <;> simp
theorem mask_lowHigh (a x : Byte) : ((a &&& ~~~0x0F#8) ||| (x &&& 0x0F#8)) &&& 0xF0#8 = a &&& 0xF0#8 := by apply byte_ext <;> simp
theorem mask_lowType (a x : Byte) : ((a &&& ~~~0x0F#8) ||| (x &&& 0x0F#8)) &&& 0x30#8 = a &&& 0x30#8 := by apply byte_ext <;> simp
theorem mask_high (a x : Byte) : (((a &&& ~~~0xF0#8) ||| ((x <<< 4) &&& 0xF0#8)) &&& 0xF0#8) >>> 4 = x &&& 0x0F#8 := by apply byte_ext <;> simp
theorem mask_highLow (a x : Byte) : ((a &&& ~~~0xF0#8) ||| ((x <<< 4) &&& 0xF0#8)) &&& 0x0F#8 = a &&& 0x0F#8 := by apply byte_ext <;> simp
theorem mask_type (a x : Byte) : (((a &&& ~~~0x30#8) ||| (x <<< 4)) &&& 0x30#8) >>> 4 = x &&& 0x03#8 := by apply byte_ext <;> simp
theorem mask_typeLow (a x : Byte) : ((a &&& ~~~0x30#8) ||| (x <<< 4)) &&& 0x0F#8 = a &&& 0x0F#8 := by apply byte_ext <;> simp

/-! ### Names of groups -/

theorem contains_skip (pat : List Char) (t bus : List Char) (h : '_' ∉ bus) : containsName ('_' :: pat) (bus ++ t) = containsName ('_' :: pat) t := by
  induction bus with
  | nil => rfl
  | cons c cs ih =>
    rw [List.mem_cons, not_or] at h
    have hne : ('_' == c) = false := by simpa using h.1
    rw [List.cons_append, containsName, ih h.2, List.isPrefixOf, hne]
    rfl

theorem text_first (k : LinKind) : ∃ pat, k.text = '_' :: pat := by cases k <;> exact ⟨_, rfl⟩

theorem linKindOf_skip (t bus : List Char) (h : '_' ∉ bus) : linKindOf (bus ++ t) = linKindOf t := by
  have e : (fun k : LinKind => containsName k.text (bus ++ t)) = fun k => containsName k.text t := by
    funext k
    obtain ⟨pat, hp⟩ := text_first k
    rw [hp, contains_skip pat t bus h]
  unfold linKindOf
  rw [e]

end Mdf
