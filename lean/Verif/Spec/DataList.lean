import Verif.Model.DataList

/-!
Data behind a link, as the MDF standard says: the link leads to a data block, to a chain of list blocks with links to data
blocks, or to an HL block with such a chain; the data are the contents of the blocks in this order.  An LD block
has links to blocks of invalidation bytes after the links to blocks of values.

Sample reductions: for each interval the records of the means, the minima and the maxima.  In RD blocks a record is its
values followed by its invalidation bytes; RV blocks hold the values of all records and RI blocks the invalidation bytes.
-/

namespace Mdf

/-- The data of a block. -/
def DBlk.content (b : DBlk) : Bytes := b.avail.take b.size

/-- The file holds all data of the block. -/
def DBlk.Complete (b : DBlk) : Prop := if b.dz then b.avail.length = b.size else b.size ≤ b.avail.length

instance (b : DBlk) : Decidable b.Complete := by unfold DBlk.Complete; infer_instance

/-- The data of blocks put together. -/
def contents (bs : List DBlk) : Bytes := bs.flatMap DBlk.content

/-- Links and the data blocks they lead to; links may be empty. -/
inductive Points (disk : Disk) : List Nat → List DBlk → Prop
  | nil : Points disk [] []
  | skip (links : List Nat) (bs : List DBlk) : Points disk links bs → Points disk (0 :: links) bs
  | cons (link : Nat) (b : DBlk) (links : List Nat) (bs : List DBlk) : link ≠ 0 → disk link = .data b → Points disk links bs →
      Points disk (link :: links) (b :: bs)

/-- A chain of DL blocks, or LD blocks if `ld`, with the data blocks of its values and those of its
invalidation bytes. -/
inductive Lists (disk : Disk) (ld : Bool) : Nat → List DBlk → List DBlk → Prop
  | nil : Lists disk ld 0 [] []
  | cons (link next : Nat) (values invalid : List Nat) (bs bs' is is' : List DBlk) : link ≠ 0 →
      disk link = .list ld next values.length (values ++ invalid) → Points disk values bs → Points disk invalid is →
      (ld = false → invalid = []) → Lists disk ld next bs' is' → Lists disk ld link (bs ++ bs') (is ++ is')

/-- The data blocks behind a link: those of the values and those of the invalidation bytes. -/
inductive Behind (disk : Disk) : Nat → List DBlk → List DBlk → Prop
  | none : Behind disk 0 [] []
  | block (link : Nat) (b : DBlk) : link ≠ 0 → disk link = .data b → Behind disk link [b] []
  | list (link : Nat) (ld : Bool) (bs is : List DBlk) : link ≠ 0 → Lists disk ld link bs is → Behind disk link bs is
  | hl (link first : Nat) (ld : Bool) (bs is : List DBlk) : link ≠ 0 → first ≠ 0 → disk link = .hl first → Lists disk ld first bs is →
      Behind disk link bs is

/-- A record: its values and its invalidation bytes. -/
structure ColRec where
  values : Bytes
  invalid : Bytes
deriving DecidableEq, Repr

/-- The record as it is stored row by row. -/
def ColRec.row (r : ColRec) : Bytes := r.values ++ r.invalid

/-- Mean, minimum and maximum of one interval. -/
structure SrRow where
  mean : ColRec
  min : ColRec
  max : ColRec
deriving DecidableEq, Repr

/-- The records in the order they are stored. -/
def srRecs (rows : List SrRow) : List ColRec := rows.flatMap fun r => [r.mean, r.min, r.max]

end Mdf
