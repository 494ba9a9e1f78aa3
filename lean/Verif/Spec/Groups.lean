import Verif.Model.Groups

/-!
What it means that data groups keep their own samples.
-/

namespace Mdf

/-- The queues of a measurement: `order` has every data group with a queue once; without periodic saving there is only the last pass. -/
structure Passes (m : SaveMode) (f : DgFile) (order : List Nat) (saves : List (Nat → SavePart)) : Prop where
  nodup : order.Nodup
  queues : ∀ i, i ∈ order ↔ ∃ d, f.dgs[i]? = some d ∧ d.cached = true
  once : m.periodic = false → saves.length ≤ 1

/-- The record bytes saved for data group `i`. -/
def savedFor (i : Nat) (saves : List (Nat → SavePart)) : Bytes := saves.flatMap fun parts => (parts i).data

/-- After the measurement a reader gets for each data group what was there before, followed by what was saved for it. -/
def KeepsOwn (f f' : DgFile) (order : List Nat) (saves : List (Nat → SavePart)) : Prop :=
  f'.dgs.length = f.dgs.length ∧
  ∀ i d d', f.dgs[i]? = some d → f'.dgs[i]? = some d' →
    d'.stream f'.bytes = d.stream f.bytes ++ (if i ∈ order then savedFor i saves else [])

/-- The data blocks are in the file. -/
def DgFile.Ok (f : DgFile) : Prop := ∀ d ∈ f.dgs, ∀ pos len, d.data = .dt pos len → 24 ≤ len ∧ pos + len ≤ f.bytes.length

/-- Each channel group, VLSD groups not counted, has samples. -/
def DgData.Full (d : DgData) : Prop := ∀ g ∈ d.groups, g.vlsd = true ∨ 0 < g.nof

/-- No channel group has samples. -/
def DgData.Unused (d : DgData) : Prop := ∀ g ∈ d.groups, g.nof = 0

/-- The data groups of earlier measurements come first, and each of their channel groups (VLSD groups not counted) has samples; the
data groups after them are new: no samples and no data block. -/
def DgFile.Orderly (f : DgFile) : Prop :=
  ∃ old new, f.dgs = old ++ new ∧ (∀ d ∈ old, d.Full) ∧ ∀ d ∈ new, d.Unused ∧ d.data = .none

end Mdf
