import Verif.Proof.Bus

namespace Mdf

set_option linter.unusedSimpArgs false

theorem flx_size (cfg : FlxCfg) : busRecordSize cfg.frameBytes = flxSize cfg.kind cfg.mandatory := by
  obtain ⟨kind, mandatory⟩ := cfg
  cases kind <;> cases mandatory <;> exact busRecordSize_eq _ (by decide) (by decide)

theorem flx_fits (m : FlxMsg) (kind : FlxKind) (mandatory : Bool) : ∀ op ∈ m.ops kind mandatory, op.Fits (flxSize kind mandatory) ∧ 64 ≤ op.first := by
  cases kind <;> cases mandatory <;>
    simp [FlxMsg.ops, FlxMsg.head, FlxMsg.dirOp, FlxMsg.crcs, flxSize, BusOp.Fits, BusOp.first]

attribute [local irreducible] Chan.busValue

theorem flx_value_frame (m : FlxMsg) (mandatory : Bool) (index : Nat) (r R : Bytes) (hr : r.length = flxSize .frame mandatory)
    (hw : Written (m.ops .frame mandatory ++ (m.var .frame mandatory).patch (flxSize .frame mandatory) index) r R) :
    ∀ e ∈ (FlxCfg.mk .frame mandatory).members, ∀ v, exceptFor [.flxChannel, .channelMask] m.meaning e.1 = some v → e.2.busValue R = some v := by
  have h1 := Bool.toNat_le m.reserved
  have h2 := Bool.toNat_le m.preamble
  have h3 := Bool.toNat_le m.sync
  have h4 := Bool.toNat_le m.startup
  have h5 := Bool.toNat_le m.multiplexed
  have h6 := Bool.toNat_le m.valid
  have h7 := Bool.toNat_le m.syntaxError
  have h8 := Bool.toNat_le m.contentError
  have h9 := Bool.toNat_le m.boundaryError
  have h10 := Bool.toNat_le m.txConflict
  cases mandatory <;>
    simp only [FlxMsg.ops, FlxMsg.head, FlxMsg.dirOp, FlxMsg.crcs, FlxMsg.var, BusVar.patch, flxSize, if_true, if_false, Bool.false_eq_true,
      List.cons_append, List.nil_append] at hw hr <;>
    simp only [FlxCfg.members, flxHead, flxCrcs, if_true, if_false, Bool.false_eq_true, List.cons_append, List.nil_append, List.forall_mem_cons] <;>
    and_intros
  all_goals first
    | exact forall_empty
    | exact forall_none
    | (refine forall_some (hw.num _ _ _ _ (by decide) (by rw [hr]; decide) (by rw [hr]; decide) rfl (fun x => ?_))
       busfield)

theorem flx_value_pdu (m : FlxMsg) (mandatory : Bool) (index : Nat) (r R : Bytes) (hr : r.length = flxSize .pdu mandatory)
    (hw : Written (m.ops .pdu mandatory ++ (m.var .pdu mandatory).patch (flxSize .pdu mandatory) index) r R) :
    ∀ e ∈ (FlxCfg.mk .pdu mandatory).members, ∀ v, exceptFor [.flxChannel, .channelMask] m.meaning e.1 = some v → e.2.busValue R = some v := by
  have h1 := Bool.toNat_le m.reserved
  have h2 := Bool.toNat_le m.preamble
  have h3 := Bool.toNat_le m.sync
  have h4 := Bool.toNat_le m.startup
  have h5 := Bool.toNat_le m.multiplexed
  have h6 := Bool.toNat_le m.valid
  have h7 := Bool.toNat_le m.syntaxError
  have h8 := Bool.toNat_le m.contentError
  have h9 := Bool.toNat_le m.boundaryError
  have h10 := Bool.toNat_le m.txConflict
  cases mandatory <;>
    simp only [FlxMsg.ops, FlxMsg.head, FlxMsg.dirOp, FlxMsg.crcs, FlxMsg.var, BusVar.patch, flxSize, if_true, if_false, Bool.false_eq_true,
      List.cons_append, List.nil_append] at hw hr <;>
    simp only [FlxCfg.members, flxHead, flxCrcs, if_true, if_false, Bool.false_eq_true, List.cons_append, List.nil_append, List.forall_mem_cons] <;>
    and_intros
  all_goals first
    | exact forall_empty
    | exact forall_none
    | (refine forall_some (hw.num _ _ _ _ (by decide) (by rw [hr]; decide) (by rw [hr]; decide) rfl (fun x => ?_))
       busfield)

theorem flx_value_frameHeader (m : FlxMsg) (mandatory : Bool) (index : Nat) (r R : Bytes) (hr : r.length = flxSize .frameHeader mandatory)
    (hw : Written (m.ops .frameHeader mandatory ++ (m.var .frameHeader mandatory).patch (flxSize .frameHeader mandatory) index) r R) :
    ∀ e ∈ (FlxCfg.mk .frameHeader mandatory).members, ∀ v, exceptFor [.flxChannel, .channelMask] m.meaning e.1 = some v → e.2.busValue R = some v := by
  have h1 := Bool.toNat_le m.reserved
  have h2 := Bool.toNat_le m.preamble
  have h3 := Bool.toNat_le m.sync
  have h4 := Bool.toNat_le m.startup
  have h5 := Bool.toNat_le m.multiplexed
  have h6 := Bool.toNat_le m.valid
  have h7 := Bool.toNat_le m.syntaxError
  have h8 := Bool.toNat_le m.contentError
  have h9 := Bool.toNat_le m.boundaryError
  have h10 := Bool.toNat_le m.txConflict
  cases mandatory <;>
    simp only [FlxMsg.ops, FlxMsg.head, FlxMsg.dirOp, FlxMsg.crcs, FlxMsg.var, BusVar.patch, flxSize, if_true, if_false, Bool.false_eq_true,
      List.cons_append, List.nil_append] at hw hr <;>
    simp only [FlxCfg.members, flxHead, flxCrcs, if_true, if_false, Bool.false_eq_true, List.cons_append, List.nil_append, List.forall_mem_cons] <;>
    and_intros
  all_goals first
    | exact forall_empty
    | exact forall_none
    | (refine forall_some (hw.num _ _ _ _ (by decide) (by rw [hr]; decide) (by rw [hr]; decide) rfl (fun x => ?_))
       busfield)

theorem flx_value_nullFrame (m : FlxMsg) (mandatory : Bool) (index : Nat) (r R : Bytes) (hr : r.length = flxSize .nullFrame mandatory)
    (hw : Written (m.ops .nullFrame mandatory ++ (m.var .nullFrame mandatory).patch (flxSize .nullFrame mandatory) index) r R) :
    ∀ e ∈ (FlxCfg.mk .nullFrame mandatory).members, ∀ v, exceptFor [.flxChannel, .channelMask] m.meaning e.1 = some v → e.2.busValue R = some v := by
  have h1 := Bool.toNat_le m.reserved
  have h2 := Bool.toNat_le m.preamble
  have h3 := Bool.toNat_le m.sync
  have h4 := Bool.toNat_le m.startup
  have h5 := Bool.toNat_le m.multiplexed
  have h6 := Bool.toNat_le m.valid
  have h7 := Bool.toNat_le m.syntaxError
  have h8 := Bool.toNat_le m.contentError
  have h9 := Bool.toNat_le m.boundaryError
  have h10 := Bool.toNat_le m.txConflict
  cases mandatory <;>
    simp only [FlxMsg.ops, FlxMsg.head, FlxMsg.dirOp, FlxMsg.crcs, FlxMsg.var, BusVar.patch, flxSize, if_true, if_false, Bool.false_eq_true,
      List.cons_append, List.nil_append] at hw hr <;>
    simp only [FlxCfg.members, flxHead, flxCrcs, if_true, if_false, Bool.false_eq_true, List.cons_append, List.nil_append, List.forall_mem_cons] <;>
    and_intros
  all_goals first
    | exact forall_empty
    | exact forall_none
    | (refine forall_some (hw.num _ _ _ _ (by decide) (by rw [hr]; decide) (by rw [hr]; decide) rfl (fun x => ?_))
       busfield)

theorem flx_value_errorFrame (m : FlxMsg) (mandatory : Bool) (index : Nat) (r R : Bytes) (hr : r.length = flxSize .errorFrame mandatory)
    (hw : Written (m.ops .errorFrame mandatory ++ (m.var .errorFrame mandatory).patch (flxSize .errorFrame mandatory) index) r R) :
    ∀ e ∈ (FlxCfg.mk .errorFrame mandatory).members, ∀ v, exceptFor [.flxChannel, .channelMask] m.meaning e.1 = some v → e.2.busValue R = some v := by
  have h1 := Bool.toNat_le m.reserved
  have h2 := Bool.toNat_le m.preamble
  have h3 := Bool.toNat_le m.sync
  have h4 := Bool.toNat_le m.startup
  have h5 := Bool.toNat_le m.multiplexed
  have h6 := Bool.toNat_le m.valid
  have h7 := Bool.toNat_le m.syntaxError
  have h8 := Bool.toNat_le m.contentError
  have h9 := Bool.toNat_le m.boundaryError
  have h10 := Bool.toNat_le m.txConflict
  cases mandatory <;>
    simp only [FlxMsg.ops, FlxMsg.head, FlxMsg.dirOp, FlxMsg.crcs, FlxMsg.var, BusVar.patch, flxSize, if_true, if_false, Bool.false_eq_true,
      List.cons_append, List.nil_append] at hw hr <;>
    simp only [FlxCfg.members, flxHead, flxCrcs, if_true, if_false, Bool.false_eq_true, List.cons_append, List.nil_append, List.forall_mem_cons] <;>
    and_intros
  all_goals first
    | exact forall_empty
    | exact forall_none
    | (refine forall_some (hw.num _ _ _ _ (by decide) (by rw [hr]; decide) (by rw [hr]; decide) rfl (fun x => ?_))
       busfield)

theorem flx_value_symbol (m : FlxMsg) (mandatory : Bool) (index : Nat) (r R : Bytes) (hr : r.length = flxSize .symbol mandatory)
    (hw : Written (m.ops .symbol mandatory ++ (m.var .symbol mandatory).patch (flxSize .symbol mandatory) index) r R) :
    ∀ e ∈ (FlxCfg.mk .symbol mandatory).members, ∀ v, exceptFor [.flxChannel, .channelMask] m.meaning e.1 = some v → e.2.busValue R = some v := by
  have h1 := Bool.toNat_le m.reserved
  have h2 := Bool.toNat_le m.preamble
  have h3 := Bool.toNat_le m.sync
  have h4 := Bool.toNat_le m.startup
  have h5 := Bool.toNat_le m.multiplexed
  have h6 := Bool.toNat_le m.valid
  have h7 := Bool.toNat_le m.syntaxError
  have h8 := Bool.toNat_le m.contentError
  have h9 := Bool.toNat_le m.boundaryError
  have h10 := Bool.toNat_le m.txConflict
  cases mandatory <;>
    simp only [FlxMsg.ops, FlxMsg.head, FlxMsg.dirOp, FlxMsg.crcs, FlxMsg.var, BusVar.patch, flxSize, if_true, if_false, Bool.false_eq_true,
      List.cons_append, List.nil_append] at hw hr <;>
    simp only [FlxCfg.members, flxHead, flxCrcs, if_true, if_false, Bool.false_eq_true, List.cons_append, List.nil_append, List.forall_mem_cons] <;>
    and_intros
  all_goals first
    | exact forall_empty
    | exact forall_none
    | (refine forall_some (hw.num _ _ _ _ (by decide) (by rw [hr]; decide) (by rw [hr]; decide) rfl (fun x => ?_))
       busfield)

theorem flx_value (m : FlxMsg) (kind : FlxKind) (mandatory : Bool) (index : Nat) (r R : Bytes) (hr : r.length = flxSize kind mandatory)
    (hw : Written (m.ops kind mandatory ++ (m.var kind mandatory).patch (flxSize kind mandatory) index) r R) :
    ∀ e ∈ (FlxCfg.mk kind mandatory).members, ∀ v, exceptFor [.flxChannel, .channelMask] m.meaning e.1 = some v → e.2.busValue R = some v := by
  cases kind with
  | frame => exact flx_value_frame m mandatory index r R hr hw
  | pdu => exact flx_value_pdu m mandatory index r R hr hw
  | frameHeader => exact flx_value_frameHeader m mandatory index r R hr hw
  | nullFrame => exact flx_value_nullFrame m mandatory index r R hr hw
  | errorFrame => exact flx_value_errorFrame m mandatory index r R hr hw
  | symbol => exact flx_value_symbol m mandatory index r R hr hw

theorem flx_var (m : FlxMsg) (kind : FlxKind) (mandatory : Bool) : ∀ e ∈ (FlxCfg.mk kind mandatory).members, e.2.type = .variableLength →
    m.var kind mandatory = .set m.data := by
  cases kind <;> cases mandatory <;> simp [FlxCfg.members, flxHead, flxCrcs, busVlsd, canBits, FlxMsg.var]

theorem flx_plain (m : FlxMsg) (kind : FlxKind) (mandatory : Bool) :
    (∀ e ∈ (FlxCfg.mk kind mandatory).members, e.2.type ≠ .variableLength) → ∀ d, m.var kind mandatory ≠ .set d := by
  cases kind <;> cases mandatory <;> simp [FlxCfg.members, flxHead, flxCrcs, busVlsd, canBits, FlxMsg.var]

/-- The record of the full PDU ends with the position. -/
theorem flx_pduOffset : ∀ e ∈ (FlxCfg.mk .pdu false).members, e.2.type = .variableLength → e.2.byteOffset = flxSize .pdu false - 8 := by
  simp [FlxCfg.members, flxHead, busVlsd, canBits, flxSize]

/-- In all other records there are two bytes behind the channel of the position. -/
theorem flx_offset (kind : FlxKind) (mandatory : Bool) (h : ¬ (kind = .pdu ∧ mandatory = false)) :
    ∀ e ∈ (FlxCfg.mk kind mandatory).members, e.2.type = .variableLength → e.2.byteOffset + 10 = flxSize kind mandatory := by
  cases kind <;> cases mandatory <;> simp [FlxCfg.members, flxHead, flxCrcs, busVlsd, canBits, flxSize] at h ⊢

theorem flx_channels (m : FlxMsg) (kind : FlxKind) (mandatory : Bool) (index : Nat) (r R : Bytes) (hr : r.length = flxSize kind mandatory)
    (hw : Written (m.ops kind mandatory ++ (m.var kind mandatory).patch (flxSize kind mandatory) index) r R) :
    ∀ e ∈ (FlxCfg.mk kind mandatory).members, (e.1 = .flxChannel ∨ e.1 = .channelMask) → e.2.busValue R = some (.num 0) := by
  cases kind <;> cases mandatory <;>
    simp only [FlxMsg.ops, FlxMsg.head, FlxMsg.dirOp, FlxMsg.crcs, FlxMsg.var, BusVar.patch, flxSize, if_true, if_false, Bool.false_eq_true,
      List.cons_append, List.nil_append] at hw hr <;>
    simp only [FlxCfg.members, flxHead, flxCrcs, if_true, if_false, Bool.false_eq_true, List.cons_append, List.nil_append, List.forall_mem_cons,
      reduceCtorEq, or_self, or_true, or_false, false_implies, true_and, true_implies] <;>
    and_intros
  all_goals first
    | exact forall_empty
    | (refine hw.num _ _ _ _ (by decide) (by rw [hr]; decide) (by rw [hr]; decide) rfl (fun x => ?_)
       simp only [flexRayChannelValue, flexRayChannelMaskValue, BitVec.ofNat_eq_ofNat]
       busfield)

/-- The channel of the position, in two parts. -/
theorem split8 (R : Bytes) (off : Nat) (a b : Bytes) (h1 : (R.drop off).take 2 = a) (h2 : (R.drop (off + 2)).take 6 = b) :
    (R.drop off).take 8 = a ++ b := by
  rw [← h1, ← h2, ← List.drop_drop, ← List.take_add]

theorem vlsd_offset (off : Nat) : (busVlsd off).byteOffset = off := rfl
theorem vlsd_type (off : Nat) : ((busVlsd off).type = .variableLength) = True := by simp [busVlsd]
theorem bits_type (a b c : Nat) : ((canBits a b c).type = .variableLength) = False := by simp [canBits]

/-- What the channel of the position holds. -/
theorem flx_position (m : FlxMsg) (kind : FlxKind) (mandatory : Bool) (h : ¬ (kind = .pdu ∧ mandatory = false)) (index : Nat) (r R : Bytes)
    (hr : r.length = flxSize kind mandatory)
    (hw : Written (m.ops kind mandatory ++ (m.var kind mandatory).patch (flxSize kind mandatory) index) r R) :
    ∀ e ∈ (FlxCfg.mk kind mandatory).members, e.2.type = .variableLength →
      (R.drop e.2.byteOffset).take 8 = [0, 0] ++ leBytes 6 index := by
  have hz : leNat ([0, 0] : Bytes) = 0 := by decide
  have h6 : leNat (leBytes 6 index) = index % 2 ^ 48 := by rw [leNat_leBytes]
  cases kind <;> cases mandatory <;>
    first
    | exact absurd ⟨rfl, rfl⟩ h
    | skip
  all_goals
    simp only [FlxMsg.ops, FlxMsg.head, FlxMsg.dirOp, FlxMsg.crcs, FlxMsg.var, BusVar.patch, flxSize, if_true, if_false, Bool.false_eq_true,
      List.cons_append, List.nil_append, BitVec.ofNat_eq_ofNat] at hw hr
    simp only [FlxCfg.members, flxHead, flxCrcs, if_true, if_false, Bool.false_eq_true, List.cons_append, List.nil_append, List.forall_mem_cons,
      vlsd_type, bits_type, false_implies, true_implies, true_and, vlsd_offset]
  all_goals first
    | exact forall_empty
    | skip
  all_goals
    refine ⟨split8 R _ [0, 0] (leBytes 6 index) ?_ ?_, forall_empty⟩
    · refine hw.bytesAt _ 2 _ rfl (by rw [hr]; decide) rfl (fun x => ?_)
      rw [hz]
      busfield
    · refine hw.bytesAt _ 6 _ (leBytes_length 6 index) (by rw [hr]; decide) rfl (fun x => ?_)
      rw [h6]
      busfield

end Mdf
