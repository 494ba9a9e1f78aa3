/-!
# The group of a channel

Models `IDataGroup::FindParentChannelGroup` (/repo/mdflib/src/dg4block.cpp lines 798-807, dg3block.cpp lines 309-318) and
`MdfFile::FindParentDataGroup` (/repo/mdflib/src/mdf4file.cpp lines 259-272, mdf3file.cpp lines 162-175) with the functions `Find` of the
block classes.

Simplified: the lists hold no null pointers (the code skips them), the header block exists.
-/

namespace Mdf

/-- A block: its number (in place of its address), its `file_position_` (zero if it was not saved), number and position of its
`md_comment_`, and the blocks that `Find` of its class asks first, in order: of a data group the channel groups, then the data blocks
(dg4block.cpp lines 66-77, dg3block.cpp lines 18-35 with the trigger block in front), of a channel group the source, the channels and the
sample reductions (cg4block.cpp lines 274-302, cg3block.cpp lines 212-223 only the channels), of a channel the source, the conversion, the
unit, the composition and the data blocks (cn4block.cpp lines 564-597, cn3block.cpp lines 357-365), of a conversion the inverse, the unit
and the references (cc4block.cpp lines 325-347). -/
inductive FBlock where
  | mk (id : Nat) (pos : Int) (comment : Option (Nat × Int)) (kids : List FBlock)

/-- The number of a block. -/
def FBlock.id : FBlock → Nat
  | .mk id _ _ _ => id

/-- `MdfBlock::Find` (mdfblock.cpp lines 589-597). -/
def findSelf (i : Int) (id : Nat) (pos : Int) (comment : Option (Nat × Int)) : Option Nat :=
  if pos = i then some id
  else match comment with
    | some c => if c.2 = i then some c.1 else none
    | none => none

mutual
/-- `Find`: the blocks below, then the block itself and its comment. -/
def FBlock.find (i : Int) : FBlock → Option Nat
  | .mk id pos comment kids =>
    match findIn i kids with
    | some x => some x
    | none => findSelf i id pos comment

/-- The loops over lists of blocks, for example cg4block.cpp lines 281-289. -/
def findIn (i : Int) : List FBlock → Option Nat
  | [] => none
  | b :: bs =>
    match b.find i with
    | some x => some x
    | none => findIn i bs
end

/-- `FindParentChannelGroup` of a data group with the channel groups `cgs`; `i` is `Index()` of the channel. -/
def parentCg (cgs : List FBlock) (i : Int) : Option FBlock := cgs.find? fun g => (g.find i).isSome

/-- `FindParentDataGroup` of a file with the data groups `dgs`. -/
def parentDg (dgs : List FBlock) (i : Int) : Option FBlock := if i ≤ 0 then none else dgs.find? fun g => (g.find i).isSome

end Mdf
