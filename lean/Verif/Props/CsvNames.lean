import Verif.Props.CsvFiles

/-! C96, the names of the files: which characters of the name of a measurement file and of a group are kept. -/

namespace Mdf

/-- The characters kept in a name: letters, digits, '_' and '-', and the control characters that are not blanks. -/
def KeptInName (c : Byte) : Prop :=
  (0x30#8 ≤ c ∧ c ≤ 0x39#8) ∨ (0x41#8 ≤ c ∧ c ≤ 0x5A#8) ∨ (0x61#8 ≤ c ∧ c ≤ 0x7A#8) ∨ c = 0x5F#8 ∨ c = 0x2D#8 ∨
    c < 0x09#8 ∨ (0x0D#8 < c ∧ c < 0x20#8) ∨ c = 0x7F#8

instance (c : Byte) : Decidable (KeptInName c) := by unfold KeptInName; infer_instance

/-- **C96.**  `StripName` is defined for a text exactly if it is ASCII, and keeps of it letters, digits, '_', '-' and control characters, in
order. -/
theorem C96_names_kept (t : Bytes) :
    (stripName t = none ↔ ∃ c ∈ t, 0x80#8 ≤ c) ∧ ∀ u, stripName t = some u → u = t.filter fun c => KeptInName c := by
  have key : ∀ x : Fin 256, BitVec.ofFin x < 0x80#8 → stripKeep (BitVec.ofFin x) = decide (KeptInName (BitVec.ofFin x)) := by decide +kernel
  have key' : ∀ c : Byte, c < 0x80#8 → stripKeep c = decide (KeptInName c) := fun c h => key c.toFin h
  unfold stripName
  by_cases h : t.any (fun c => 0x80#8 ≤ c) = true
  · rw [if_pos h]
    refine ⟨⟨fun _ => ?_, fun _ => rfl⟩, fun u hu => by cases hu⟩
    simpa using h
  · rw [if_neg h]
    refine ⟨⟨fun hn => (by cases hn), fun ⟨c, hc, h'⟩ => absurd (List.any_eq_true.2 ⟨c, hc, by simpa using h'⟩) h⟩, ?_⟩
    intro u hu
    cases hu
    apply List.filter_congr
    intro c hc
    have hlt : c < 0x80#8 := by
      rw [← BitVec.not_le]
      intro h'
      exact h (List.any_eq_true.2 ⟨c, hc, by simpa using h'⟩)
    exact key' c hlt

example : stripName [0x41, 0x40, 0x20, 0x5F, 0x37] = some [0x41, 0x5F, 0x37] := by decide

end Mdf
