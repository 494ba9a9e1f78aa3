import Verif.Model.Reader

/-! What the description of a file is, independent of the calls that read it. -/

namespace Mdf

/-- The blocks `bs` are those of the file, one after the other from `link` on, none left out; there may be more behind them. -/
inductive ReadsTo (rd : Nat → Option RBlk) : Nat → List RBlk → Prop
  | nil (link) : ReadsTo rd link []
  | cons {link b bs} : validLink link = true → rd link = some b → ReadsTo rd (b.link 0) bs → ReadsTo rd link (b :: bs)

/-- The blocks `bs` are all blocks from `link` on. -/
inductive ReadsAll (rd : Nat → Option RBlk) : Nat → List RBlk → Prop
  | nil {link} : validLink link = false → ReadsAll rd link []
  | cons {link b bs} : validLink link = true → rd link = some b → ReadsAll rd (b.link 0) bs → ReadsAll rd link (b :: bs)

/-- What the application sees of the objects of a list. -/
def blks (os : List Obj) : List RBlk := os.map (·.blk)

/-- The values of the header are those of the file. -/
def HdObj.HeaderWhole (d : Img) (h : HdObj) : Prop :=
  d.hdLinks.2 = true ∧ h.links = d.hdLinks.1 ∧ d.hdVal = some h.val ∧ d.hdMd = true

/-- All data groups, channel groups and attachments are there. -/
def HdObj.InfoWhole (d : Img) (h : HdObj) : Prop :=
  ReadsAll (d.blk .dg []) (h.link 0) (h.dg.map (·.self.blk)) ∧
  (∀ g ∈ h.dg, ReadsAll (d.blk .cg []) (g.self.blk.link 1) (g.cg.map (·.self.blk))) ∧
  ReadsAll (d.blk .at []) (h.link 3) (blks h.att)

/-- All channels, sample reductions, hierarchies and events are there. -/
def HdObj.RestWhole (d : Img) (h : HdObj) : Prop :=
  (∀ g ∈ h.dg, ∀ c ∈ g.cg, ReadsAll (d.blk .cn (blks h.att)) (c.self.blk.link 1) (blks c.cn) ∧
    ReadsAll (d.blk .sr (blks h.att)) (c.self.blk.link 4) (blks c.sr)) ∧
  ReadsAll (d.blk .ch (blks h.att)) (h.link 2) (blks h.ch) ∧
  ReadsAll (d.blk .ev (blks h.att)) (h.link 4) (blks h.ev)

/-- What the call `c` promises of the description of an MDF 4 file. -/
def HdObj.Whole (d : Img) (h : HdObj) : RCall → Prop
  | .header => h.HeaderWhole d ∧ ReadsAll (d.blk .fh []) (h.link 1) (blks h.fh)
  | .info => (h.HeaderWhole d ∧ ReadsAll (d.blk .fh []) (h.link 1) (blks h.fh)) ∧ h.InfoWhole d
  | .everything => ((h.HeaderWhole d ∧ ReadsAll (d.blk .fh []) (h.link 1) (blks h.fh)) ∧ h.InfoWhole d) ∧ h.RestWhole d

/-- All data groups and channel groups of an MDF 3 file. -/
def HdObj.InfoWhole3 (d : Img) (h : HdObj) : Prop :=
  ReadsAll (d.blk .dg []) (h.link 0) (h.dg.map (·.self.blk)) ∧
  ∀ g ∈ h.dg, ReadsAll (d.blk .cg []) (g.self.blk.link 1) (g.cg.map (·.self.blk))

/-- All channels and sample reductions of an MDF 3 file. -/
def HdObj.RestWhole3 (d : Img) (h : HdObj) : Prop :=
  ∀ g ∈ h.dg, ∀ c ∈ g.cg, ReadsAll (d.blk .cn []) (c.self.blk.link 1) (blks c.cn) ∧
    ReadsAll (d.blk .sr []) (c.self.blk.link 3) (blks c.sr)

/-- What the call `c` promises of the description of an MDF 3 file. -/
def HdObj.Whole3 (d : Img) (h : HdObj) : RCall → Prop
  | .header => h.HeaderWhole d
  | .info => h.HeaderWhole d ∧ h.InfoWhole3 d
  | .everything => (h.HeaderWhole d ∧ h.InfoWhole3 d) ∧ h.RestWhole3 d

/-- Nothing is in the description that is not in the file, and no list has a gap. -/
def HdObj.Sound (d : Img) (h : HdObj) : Prop :=
  ReadsTo (d.blk .fh []) (h.link 1) (blks h.fh) ∧
  ReadsTo (d.blk .dg []) (h.link 0) (h.dg.map (·.self.blk)) ∧
  (∀ g ∈ h.dg, ReadsTo (d.blk .cg []) (g.self.blk.link 1) (g.cg.map (·.self.blk))) ∧
  ReadsTo (d.blk .at []) (h.link 3) (blks h.att) ∧
  (∀ g ∈ h.dg, ∀ c ∈ g.cg, ReadsTo (d.blk .cn (blks h.att)) (c.self.blk.link 1) (blks c.cn) ∧
    ReadsTo (d.blk .sr (blks h.att)) (c.self.blk.link 4) (blks c.sr)) ∧
  ReadsTo (d.blk .ch (blks h.att)) (h.link 2) (blks h.ch) ∧
  ReadsTo (d.blk .ev (blks h.att)) (h.link 4) (blks h.ev)

/-- The call that reads more. -/
def RCall.rank : RCall → Nat
  | .header => 0
  | .info => 1
  | .everything => 2

/-- What a function may do to the file: it is open afterwards if it was open before. -/
def RStream.Same (s s' : RStream) : Prop := s' = s

end Mdf
