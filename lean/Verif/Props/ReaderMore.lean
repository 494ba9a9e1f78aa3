import Verif.Props.Reader

/-! C98, blocks with fewer links than their class has: a list ends at a block without links, and nothing is looked for at a missing link. -/

namespace Mdf

/-- The next link of a block without links leads nowhere: the list ends there, with the blocks before it. -/
theorem C98_list_ends (rd : Nat → Option RBlk) (fuel link made : Nat) (b : RBlk) (hl : validLink link = true) (hr : rd link = some b)
    (hb : b.links = []) (hf : 0 < fuel) : walk rd fuel link made = ([⟨made, b⟩], made + 1, .ok) := by
  have h0 : ∀ i, b.link i = 0 := fun i => by unfold RBlk.link; rw [hb]; rfl
  have hz : validLink 0 = false := by decide
  obtain ⟨fuel, rfl⟩ : ∃ k, fuel = k + 1 := ⟨fuel - 1, by omega⟩
  unfold walk
  rw [if_pos hl, hr]
  dsimp only
  rw [h0]
  cases fuel with
  | zero => unfold walk; rw [hz]; rfl
  | succ k => unfold walk; rw [hz]; rfl

/-- A link that a block does not have is not followed. -/
theorem C98_missing_link (rd : Nat → Option RBlk) (fuel made i : Nat) (b : RBlk) (hb : b.links.length ≤ i) :
    walk rd fuel (b.link i) made = ([], made, .ok) := by
  have h0 : b.link i = 0 := by unfold RBlk.link; rw [List.getD_eq_getElem?_getD, List.getElem?_eq_none hb]; rfl
  have hz : validLink 0 = false := by decide
  rw [h0]
  cases fuel <;> (unfold walk; rw [hz]; rfl)

example : walk (fun l => if l = 100 then some ⟨[], [1#8]⟩ else none) 3 100 5 = ([⟨5, ⟨[], [1#8]⟩⟩], 6, .ok) := by decide

end Mdf
