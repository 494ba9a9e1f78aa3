import Verif.Props.DataList

/-! C90, a buffer that is too small, and the bytes behind a data block. -/

namespace Mdf

/-- **C90.**  Copying a data block into a buffer: if the bytes fit they are copied to their place and nothing else of the buffer changes; if
not, a plain block throws before anything is copied, and a compressed one is written beyond the end of the buffer. -/
theorem C90_copy_fits (b : DBlk) (dest : Bytes) (idx : Nat) (hc : b.Complete) (h0 : b.size ≠ 0) :
    (idx + b.size ≤ dest.length → b.copy dest idx = .ok (dest.take idx ++ b.content ++ dest.drop (idx + b.size), idx + b.size)) ∧
    (dest.length < idx + b.size → b.copy dest idx = if b.dz then .ub else .throw) := by
  constructor
  · intro h
    rw [copy_complete hc dest idx h]
    unfold dlPut
    rw [content_length hc]
  · intro h
    unfold DBlk.copy
    rw [if_neg h0]
    cases b.dz <;> simp [h]

/-- **C90.**  What the record reader finds at a plain data block is the file from there on: first the data, then what follows it.  Behind the
data of a compressed block there is nothing. -/
theorem C90_block_in_file (b : DBlk) (hc : b.Complete) :
    b.toBlk.data = b.content ∧ b.toBlk.data ++ b.toBlk.after = b.avail := by
  unfold DBlk.toBlk
  by_cases hz : b.dz = true
  · rw [if_pos hz]
    refine ⟨dz_content hc hz, ?_⟩
    show (b.avail ++ List.replicate b.size 0).take b.size ++ [] = b.avail
    rw [dz_content hc hz, List.append_nil]
    unfold DBlk.Complete at hc
    rw [if_pos hz] at hc
    exact List.take_of_length_le (by omega)
  · rw [if_neg hz]
    exact ⟨rfl, List.take_append_drop _ _⟩

example : (plainBlk .dt [1, 2] [9]).copy [0, 0] 1 = .throw ∧ (zipBlk .dt [1, 2]).copy [0, 0] 1 = .ub ∧
    (plainBlk .dt [1, 2] [9]).copy [0, 0, 0] 1 = .ok ([0, 1, 2], 3) := by decide

end Mdf
