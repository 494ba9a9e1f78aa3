import Verif.Model.BlockKinds

/-!
# References to blocks of others

The positions stored are in `FileSt.start` (Model/Block, `Info.refs`).  Here: how a reader finds the blocks, and the elements of a
hierarchy block, which are stored and read at different links.
-/

namespace Mdf

/-- `Hd4Block::Find` (hd4block.cpp lines 77-131) and `Find` of the blocks below it, which end in `MdfBlock::Find` (mdfblock.cpp lines
589-597): the first block at that position, in the order in which they are searched. -/
def findBlock (pos : Nat → Nat) (order : List Nat) (link : Nat) : Option Nat :=
  if validLink link then order.find? fun j => pos j == link else none

/-- `ElementLink` (ichannel.h lines 109-118): an element of a hierarchy, pointers to blocks. -/
structure ChElem where
  dg : Option Nat
  cg : Option Nat
  cn : Option Nat
deriving DecidableEq, Repr

/-- `Index` of the block pointed to, zero without. -/
def posOf (pos : Nat → Nat) : Option Nat → Nat
  | none => 0
  | some j => pos j

/-- The links of the elements (ch4block.cpp lines 79-88), which follow four links (next, first hierarchy below, name, comment). -/
def chLinks (pos : Nat → Nat) (four : List Nat) (es : List ChElem) : List Nat :=
  four ++ es.flatMap fun e => [posOf pos e.dg, posOf pos e.cg, posOf pos e.cn]

/-- `dynamic_cast` to a class. -/
def asKind (kind : Nat → Nat) (k : Nat) (p : Option Nat) : Option Nat := p.filter fun j => kind j == k

/-- `Ch4Block::FindReferencedBlocks` (ch4block.cpp lines 148-168, without the hierarchies below); `find` is `Hd4Block::Find`. -/
def chElements (find : Nat → Option Nat) (kind : Nat → Nat) (links : List Nat) (n : Nat) : List ChElem :=
  (List.range n).filterMap fun k =>
    if 5 + k * 3 < links.length then
      some ⟨asKind kind kDg (find (links.getD (5 + k * 3) 0)), asKind kind kCg (find (links.getD (5 + k * 3 + 1) 0)),
        asKind kind kCn (find (links.getD (5 + k * 3 + 2) 0))⟩
    else none

end Mdf
