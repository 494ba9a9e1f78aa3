import Verif.Proof.Bus

namespace Mdf

set_option linter.unusedSimpArgs false

theorem eth_size (cfg : EthCfg) (h : cfg.adapter = cfg.writer) : busRecordSize cfg.frameBytes = ethSize cfg.kind cfg.adapter := by
  obtain ⟨kind, adapter, writer⟩ := cfg
  dsimp only at h
  subst h
  cases kind <;> cases adapter <;> exact busRecordSize_eq _ (by decide) (by decide)

theorem eth_fits (m : EthMsg) (kind : EthKind) (mandatory : Bool) : ∀ op ∈ m.ops kind mandatory, op.Fits (ethSize kind mandatory) ∧ 64 ≤ op.first := by
  cases kind <;> cases mandatory <;>
    simp [EthMsg.ops, EthMsg.first, ethSize, BusOp.Fits, BusOp.first, BusOp.little, leBytes_length]

theorem eth_value (m : EthMsg) (kind : EthKind) (mandatory : Bool) (index : Nat) (r R : Bytes) (hr : r.length = ethSize kind mandatory)
    (hw : Written (m.ops kind mandatory ++ (m.var kind mandatory).patch (ethSize kind mandatory) index) r R) :
    ∀ e ∈ (EthCfg.mk kind mandatory mandatory).members, ∀ v, m.meaning e.1 = some v → e.2.busValue R = some v := by
  have h1 := Bool.toNat_le m.dir
  obtain ⟨s1, s2, s3, s4, s5, s6, hsrc⟩ := vector6 m.source
  obtain ⟨d1, d2, d3, d4, d5, d6, hdst⟩ := vector6 m.destination
  have e1 := leNat_lt [s1, s2, s3, s4, s5, s6]
  have e2 := leNat_lt [d1, d2, d3, d4, d5, d6]
  simp only [List.length_cons, List.length_nil, Nat.reduceAdd, Nat.reducePow] at e1 e2
  cases kind <;> cases mandatory <;>
    simp only [EthMsg.ops, EthMsg.first, EthMsg.var, BusVar.patch, ethSize, if_true, if_false, Bool.false_eq_true, List.cons_append, List.nil_append,
      hsrc, hdst] at hw hr <;>
    simp only [EthCfg.members, ethFirst, if_true, if_false, Bool.false_eq_true, List.cons_append, List.nil_append, List.forall_mem_cons] <;>
    and_intros
  all_goals first
    | exact forall_empty
    | exact forall_none
    | (refine forall_some (hw.num _ _ _ _ (by decide) (by rw [hr]; decide) (by rw [hr]; decide) rfl (fun x => ?_))
       busfield)
    | (refine forall_some (hw.bytes _ _ _ (by simp) (by decide) (by rw [hr]; decide) rfl (fun x => ?_))
       simp only [hsrc, hdst, List.length_cons, List.length_nil]
       busfield)

theorem eth_data (m : EthMsg) (kind : EthKind) (mandatory : Bool) : ∀ e ∈ (EthCfg.mk kind mandatory mandatory).members, e.2.type = .variableLength →
    m.var kind mandatory = .set m.data ∧ e.2.byteOffset = ethSize kind mandatory - 8 := by
  cases kind <;> cases mandatory <;> simp [EthCfg.members, ethFirst, busVlsd, busBytes, canBits, EthMsg.var, ethSize]

theorem eth_plain (m : EthMsg) (kind : EthKind) (mandatory : Bool) :
    (∀ e ∈ (EthCfg.mk kind mandatory mandatory).members, e.2.type ≠ .variableLength) → ∀ d, m.var kind mandatory ≠ .set d := by
  cases kind <;> cases mandatory <;> simp [EthCfg.members, ethFirst, busVlsd, busBytes, canBits, EthMsg.var]

end Mdf
