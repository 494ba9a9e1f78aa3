import Verif.Model.BlockKinds

/-! Following the links of a file from block to block. -/

namespace Mdf

/-- A block as it is come to: its class, whether as a member of a list, and its position. -/
structure Place where
  kind : Nat
  chain : Bool
  pos : Nat
deriving DecidableEq

/-- The header at `x` has a link to `y`: by one of the links of the class that lead to blocks, or to the next member of the list. -/
def LeadsTo (Sc : Schema) (data : Bytes) (x y : Place) : Prop :=
  ∃ h, readHeader data x.pos = some h ∧ validLink y.pos = true ∧
    ((∃ s ∈ Sc x.kind, y = ⟨s.kind, s.chain, h.1.links.getD s.index 0⟩) ∨ (x.chain = true ∧ y = ⟨x.kind, true, h.1.links.getD 0 0⟩))

/-- Each place of the list leads to the next one. -/
def IsWay (Sc : Schema) (data : Bytes) : List Place → Prop
  | x :: y :: rest => LeadsTo Sc data x y ∧ IsWay Sc data (y :: rest)
  | _ => True

/-- Following links never comes back to a position. -/
def NoWayBack (Sc : Schema) (data : Bytes) (x : Place) : Prop :=
  ∀ way, IsWay Sc data (x :: way) → ((x :: way).map (·.pos)).Nodup

end Mdf
