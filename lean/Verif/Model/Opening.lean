import Verif.Model.BlockKinds

/-!
# The composition of a channel

The loop of `Cn4Block::Read` over the composition of a channel.  The reading of an array or channel block is a parameter.
-/

namespace Mdf

/-- `ReadBlockType` (mdfblock.cpp lines 186-195). -/
def blockTypeAt (data : Bytes) (pos : Nat) : Bytes :=
  let t := readStr 2 (data.drop pos)
  if t.1 = [0x23#8, 0x23#8] then (readStr 2 t.2).1 else t.1

/-- The loop of `Cn4Block::Read` (cn4block.cpp lines 418-436).  The block type is that of the first block. -/
def readCxLoop (readCa readCn : Nat → FinRes (RTree × Nat)) (ty : Bytes) : (fuel : Nat) → (link : Nat) → FinRes (List RTree)
  | 0, link => if validLink link then .hang else .ok []
  | fuel + 1, link =>
    if validLink link then
      if ty = [0x43#8, 0x41#8] then (readCa link).bind fun r => (readCxLoop readCa readCn ty fuel r.2).map (r.1 :: ·)
      else if ty = [0x43#8, 0x4E#8] then (readCn link).bind fun r => (readCxLoop readCa readCn ty fuel r.2).map (r.1 :: ·)
      else readCxLoop readCa readCn ty fuel link
    else .ok []

/-- `Cn4Block::Read` (cn4block.cpp lines 413-438). -/
def readCx (readCa readCn : Nat → FinRes (RTree × Nat)) (data : Bytes) (fuel link : Nat) : FinRes (List RTree) :=
  if validLink link then readCxLoop readCa readCn (blockTypeAt data link) fuel link else .ok []

end Mdf
