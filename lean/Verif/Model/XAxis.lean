import Verif.Model.Refs

/-!
# The channel for the X axis

`IChannel::DefaultX` and `IChannelGroup::GetXChannel`: what `Cn4Block::Write` (/repo/mdflib/src/cn4block.cpp lines 494-562),
`Cg4Block::Write` (/repo/mdflib/src/cg4block.cpp lines 187-264), `Dg4Block::Write` with `UpdateDefaultX` (/repo/mdflib/src/dg4block.cpp lines
112-155 and 600-612) and `Hd4Block::Write` (/repo/mdflib/src/hd4block.cpp lines 510-547) store of the reference, and what is found by it.

Of a file only positions and the three links of the reference are modelled.  Blocks that stand for nothing here (texts, conversions, data) are
part of `size`, the bytes up to the next block.  The channels of a composition are listed with all channels below them, in the order in which
they are written: each after those below it.
-/

namespace Mdf

/-- A channel: flag `CnFlag::DefaultX` and `default_x_`. -/
structure XCn where
  id : Nat
  flag : Bool
  x : ChElem
deriving DecidableEq, Repr

/-- A channel of a group with its composition; `master` tells that its type is `Master` or `VirtualMaster`. -/
structure XTop where
  self : XCn
  master : Bool
  comp : List XCn
deriving DecidableEq, Repr

structure XCg where
  id : Nat
  cns : List XTop
deriving DecidableEq, Repr

structure XDg where
  id : Nat
  cgs : List XCg
deriving DecidableEq, Repr

/-- The file: positions of the blocks (zero: not written), its end, the three links of channels. -/
structure XFile where
  pos : Nat → Nat
  last : Nat
  links : Nat → Nat × Nat × Nat

/-- The blocks of the description. -/
def XTop.ids (t : XTop) : List Nat := t.comp.map (·.id) ++ [t.self.id]
def XCg.ids (g : XCg) : List Nat := g.cns.flatMap XTop.ids ++ [g.id]
def XDg.ids (d : XDg) : List Nat := d.cgs.flatMap XCg.ids ++ [d.id]

/-- `MdfBlock::Write` (mdfblock.cpp lines 622-627): a block is put to the end of the file. -/
def XFile.place (size : Nat → Nat) (s : XFile) (i : Nat) : XFile :=
  { s with pos := fun j => if j = i then s.last else s.pos j, last := s.last + size i }

/-- The links for a reference: `Index()` of the blocks, zero without (cn4block.cpp lines 531-539). -/
def XFile.linksOf (s : XFile) (x : ChElem) : Nat × Nat × Nat := (posOf s.pos x.dg, posOf s.pos x.cg, posOf s.pos x.cn)

def XFile.setLinks (s : XFile) (i : Nat) (l : Nat × Nat × Nat) : XFile := { s with links := fun j => if j = i then l else s.links j }

/-- `Cn4Block::Write` (cn4block.cpp lines 494-562) without the composition: the links are made before the block has its position. -/
def XFile.writeCn (size : Nat → Nat) (s : XFile) (c : XCn) : XFile :=
  if s.pos c.id ≠ 0 then s else ((s.setLinks c.id (if c.flag then s.linksOf c.x else (0, 0, 0))).place size c.id)

/-- A channel with its composition (cn4block.cpp lines 497-501 and 516-517): a written channel is left with all that is below it. -/
def XFile.writeTop (size : Nat → Nat) (s : XFile) (t : XTop) : XFile :=
  if s.pos t.self.id ≠ 0 then s else (t.comp.foldl (XFile.writeCn size) s).writeCn size t.self

/-- `Cg4Block::Write` (cg4block.cpp lines 187-264). -/
def XFile.writeCg (size : Nat → Nat) (s : XFile) (g : XCg) : XFile :=
  let s := g.cns.foldl (XFile.writeTop size) s
  if s.pos g.id ≠ 0 then s else s.place size g.id

/-- `Cn4Block::DefaultX()` (cn4block.cpp lines 1342-1366): `x` is `default_x_`, replaced by what is found at the links.  `order` are the blocks
that `Hd4Block::Find` searches. -/
def XFile.defaultX (s : XFile) (kind : Nat → Nat) (order : List Nat) (flag : Bool) (links : Nat × Nat × Nat) (x : ChElem) : ChElem :=
  if flag then
    ⟨match findBlock s.pos order links.1 with | none => x.dg | some j => asKind kind kDg (some j),
     match findBlock s.pos order links.2.1 with | none => x.cg | some j => asKind kind kCg (some j),
     match findBlock s.pos order links.2.2 with | none => x.cn | some j => asKind kind kCn (some j)⟩
  else x

/-- `Dg4Block::UpdateDefaultX` (dg4block.cpp lines 600-612). -/
def XFile.updX (kind : Nat → Nat) (order : List Nat) (s : XFile) (t : XTop) : XFile :=
  if t.self.flag then
    s.setLinks t.self.id (s.linksOf (s.defaultX kind order t.self.flag (s.links t.self.id) t.self.x))
  else s

/-- `Dg4Block::Write` (dg4block.cpp lines 112-155): the references are completed when the data group is written for the first time. -/
def XFile.writeDg (size kind : Nat → Nat) (order : List Nat) (s : XFile) (d : XDg) : XFile :=
  let s := d.cgs.foldl (XFile.writeCg size) s
  if s.pos d.id ≠ 0 then s else
    d.cgs.foldl (fun s g => g.cns.foldl (XFile.updX kind order) s) (s.place size d.id)

/-- The data groups of `Hd4Block::Write` (hd4block.cpp lines 541-545). -/
def XFile.writeHd (size kind : Nat → Nat) (order : List Nat) (s : XFile) (ds : List XDg) : XFile :=
  ds.foldl (XFile.writeDg size kind order) s

/-- What a reader of the file gets from `DefaultX()`: `default_x_` is empty. -/
def XFile.readX (s : XFile) (kind : Nat → Nat) (order : List Nat) (c : XCn) : ChElem :=
  s.defaultX kind order c.flag (s.links c.id) ⟨none, none, none⟩

/-- `Cg4Block::GetXChannel` (cg4block.cpp lines 79-109) of a group of a file that is read. -/
def XFile.getX (s : XFile) (kind : Nat → Nat) (order : List Nat) (g : XCg) (c : XCn) : Option Nat :=
  let master := (g.cns.find? (·.master)).map (·.self.id)
  if c.flag ∧ (s.links c.id).2.2 ≠ 0 then
    match findBlock s.pos order (s.links c.id).2.2 with
    | some j => asKind kind kCn (some j)
    | none => master
  else master

end Mdf
