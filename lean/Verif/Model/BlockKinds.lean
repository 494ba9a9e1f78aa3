import Verif.Model.Block

/-!
# The block classes of MDF 4

The links of the block classes that lead to blocks of their own, in the order in which `Write` writes them.  Used for the reader
(`Schema`).  A link to blocks owned by others (attachments of a channel, events, hierarchy elements) is not here: see `Info.refs`.
-/

namespace Mdf

def kHd : Nat := 0
def kDg : Nat := 1
def kCg : Nat := 2
def kCn : Nat := 3
def kFh : Nat := 4
def kSi : Nat := 5
def kAt : Nat := 6
def kCh : Nat := 7
def kEv : Nat := 8
/-- `TX` and `MD` blocks: a text, no links. -/
def kTx : Nat := 9
/-- `DT` and other blocks of sample data; their content is the subject of the models of records and signal data. -/
def kDt : Nat := 10
/-- A conversion with `r` references. -/
def kCc (r : Nat) : Nat := 16 + r

/-- A list of blocks (`WriteLink4List`). -/
def listSlot (index kind : Nat) (opt : UpdOpt) : Slot := ⟨index, true, kind, opt⟩

/-- One block (`WriteBlock4`). -/
def oneSlot (index kind : Nat) : Slot := ⟨index, false, kind, .never⟩

/-- A text or comment (`WriteTx4`, `WriteMdComment`). -/
def textSlot (index : Nat) : Slot := ⟨index, false, kTx, .ifNoLink⟩

/-- hd4block.cpp lines 529-544: file history, comment, attachments, hierarchy, events, data groups; all after the block. -/
def hdSlots : List Slot :=
  [listSlot 1 kFh .never, textSlot 5, listSlot 3 kAt .never, listSlot 2 kCh .never, listSlot 4 kEv .never, listSlot 0 kDg .all]

/-- dg4block.cpp lines 120-122, before the block. -/
def dgPre : List Slot := [listSlot 1 kCg .all, textSlot 3]

/-- dg4block.cpp lines 151-152, after the block.  The list of data blocks holds one block, see DESIGN.md. -/
def dgPost : List Slot := [⟨2, false, kDt, .onlyLast⟩]

/-- cg4block.cpp lines 201-207 (no sample reductions). -/
def cgSlots : List Slot := [listSlot 1 kCn .never, textSlot 2, oneSlot 3 kSi, textSlot 5]

/-- cn4block.cpp lines 515-524, composition by channels; the conversion has `r` references.  The kind of a channel is `kCn`
here, with a conversion without references. -/
def cnSlots (r : Nat) : List Slot :=
  [listSlot 1 kCn .never, textSlot 2, oneSlot 3 kSi, oneSlot 4 (kCc r), oneSlot 6 kTx, textSlot 7]

/-- fh4block.cpp line 57, after the block. -/
def fhSlots : List Slot := [textSlot 1]

/-- si4block.cpp lines 118-120. -/
def siSlots : List Slot := [textSlot 0, textSlot 1, textSlot 2]

/-- at4block.cpp lines 207-209. -/
def atSlots : List Slot := [textSlot 1, textSlot 2, textSlot 3]

/-- ch4block.cpp lines 89-92. -/
def chSlots : List Slot := [textSlot 2, textSlot 3, listSlot 1 kCh .never]

/-- ev4block.cpp lines 204-208, no group name. -/
def evSlots : List Slot := [textSlot 3, textSlot 4]

/-- cc4block.cpp lines 294-302: name, unit, comment, inverse, references (texts). -/
def ccSlots (r : Nat) : List Slot :=
  [textSlot 0, oneSlot 1 kTx, textSlot 2, oneSlot 3 (kCc 0)] ++ (List.range r).map fun i => oneSlot (4 + i) kTx

def mdf4Schema : Schema
  | 0 => hdSlots
  | 1 => dgPre ++ dgPost
  | 2 => cgSlots
  | 3 => cnSlots 0
  | 4 => fhSlots
  | 5 => siSlots
  | 6 => atSlots
  | 7 => chSlots
  | 8 => evSlots
  | 9 => []
  | k => if 16 ≤ k then ccSlots (k - 16) else []

end Mdf
