import Verif.Proof.Bus

namespace Mdf

set_option linter.unusedSimpArgs false

theorem most_size (cfg : MostCfg) : busRecordSize cfg.frameBytes = mostSize cfg.kind cfg.mandatory := by
  obtain ⟨kind, mandatory⟩ := cfg
  cases kind <;> cases mandatory <;> exact busRecordSize_eq _ (by decide) (by decide)

theorem most_fits (m : MostMsg) (kind : MostKind) (mandatory : Bool) : ∀ op ∈ m.ops kind mandatory, op.Fits (mostSize kind mandatory) ∧ 64 ≤ op.first := by
  cases kind <;> cases mandatory <;>
    simp [MostMsg.ops, MostMsg.head, MostMsg.short, mostSize, BusOp.Fits, BusOp.first]

theorem most_value (m : MostMsg) (kind : MostKind) (mandatory : Bool) (index : Nat) (r R : Bytes) (hr : r.length = mostSize kind mandatory)
    (hw : Written (m.ops kind mandatory ++ (m.var kind).patch (mostSize kind mandatory) index) r R) :
    ∀ e ∈ (MostCfg.mk kind mandatory).members, ∀ v, m.meaning kind e.1 = some v → e.2.busValue R = some v := by
  have h1 := Bool.toNat_le m.txFailed
  have h2 := Bool.toNat_le m.flag
  cases kind <;> cases mandatory <;>
    simp only [MostCfg.members, mostShort, if_true, if_false, Bool.false_eq_true, List.cons_append, List.nil_append, List.forall_mem_cons] <;>
    and_intros
  all_goals first
    | exact forall_empty
    | exact forall_none
    | (refine forall_some (hw.num _ _ _ _ (by decide) (by rw [hr]; decide) (by rw [hr]; decide) rfl (fun x => ?_))
       simp only [MostMsg.ops, MostMsg.head, MostMsg.short, MostMsg.var, BusVar.patch, mostSize, if_true, if_false, Bool.false_eq_true,
         List.cons_append, List.nil_append]
       busfield)

theorem most_data (m : MostMsg) (kind : MostKind) (mandatory : Bool) : ∀ e ∈ (MostCfg.mk kind mandatory).members, e.2.type = .variableLength →
    m.var kind = .set m.data ∧ e.2.byteOffset = mostSize kind mandatory - 8 := by
  cases kind <;> cases mandatory <;> simp [MostCfg.members, mostShort, busVlsd, canBits, MostMsg.var, mostSize]

theorem most_plain (m : MostMsg) (kind : MostKind) (mandatory : Bool) :
    (∀ e ∈ (MostCfg.mk kind mandatory).members, e.2.type ≠ .variableLength) → ∀ d, m.var kind ≠ .set d := by
  cases kind <;> cases mandatory <;> simp [MostCfg.members, mostShort, busVlsd, canBits, MostMsg.var]

end Mdf
