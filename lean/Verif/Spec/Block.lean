import Verif.Model.Block

/-! What it means that a file holds the blocks of the program, and a tree of blocks. -/

namespace Mdf

/-- The bytes `bs` are in the file at position `p`. -/
def HasAt (data : Bytes) (p : Nat) (bs : Bytes) : Prop := ∀ i, i < bs.length → data[p + i]? = bs[i]?

/-- The size of a block: header, links and values. -/
def FileSt.size (S : FileSt) (id : Nat) : Nat := 24 + 8 * (S.st id).links.length + (S.st id).body.length

/-- Byte `i` of the values is one of those that are written again. -/
def Info.rewrites (inf : Info) (i : Nat) : Prop := ∃ r ∈ inf.upd, r.1 ≤ i ∧ i < r.1 + r.2

/-- A block in the file: its place is 8-byte aligned and within the file, the header in the file tells the type, the true size and
the links of the block object, and the values are in the file, except those that are to be written again. -/
structure Mirror (I : Nat → Info) (S : FileSt) (id : Nat) : Prop where
  aligned : S.pos id % 8 = 0
  len : (S.st id).len = S.size id
  inside : S.pos id + S.size id ≤ S.data.length
  header : HasAt S.data (S.pos id) (headerBytes (I id).ty (S.st id).len (S.st id).links)
  body : ∀ i, i < (S.st id).body.length → ¬ (I id).rewrites i →
    S.data[S.pos id + (24 + 8 * (S.st id).links.length) + i]? = (S.st id).body[i]?

/-- All values of the block are in the file. -/
def BExact (S : FileSt) (id : Nat) : Prop :=
  HasAt S.data (S.pos id + (24 + 8 * (S.st id).links.length)) (S.st id).body

/-- All written blocks are in the file and do not overlap. -/
structure FileInv (I : Nat → Info) (S : FileSt) : Prop where
  mirror : ∀ id, 0 < S.pos id → Mirror I S id
  disjoint : ∀ a b, a ≠ b → 0 < S.pos a → 0 < S.pos b →
    S.pos a + S.size a ≤ S.pos b ∨ S.pos b + S.size b ≤ S.pos a

/-- What the program does with its blocks. -/
inductive BOp where
  | /-- `Write` of a block begins: the size of the link list is set -/ start (id : Nat)
  | /-- the block itself is written -/ write (id : Nat)
  | /-- `UpdateLink` -/ link (id i v : Nat)
  | /-- the user changes the values of the block object -/ values (id : Nat) (body : Bytes)
  | /-- sample data is written at the end of the file -/ data (bs : Bytes)

def FileSt.step (I : Nat → Info) (S : FileSt) : BOp → FileSt
  | .start id => S.start I id
  | .write id => S.writeSelf I id
  | .link id i v => S.updateLink id i v
  | .values id body => S.set id { S.st id with body := body }
  | .data bs => { S with data := S.data ++ bs }

/-- The values of a block in the file may only be changed where the class writes them again. -/
def BOp.Allowed (I : Nat → Info) (S : FileSt) : BOp → Prop
  | .values id body => 0 < S.pos id →
      body.length = (S.st id).body.length ∧ ∀ i, ¬ (I id).rewrites i → body[i]? = (S.st id).body[i]?
  | _ => True

def FileSt.run (I : Nat → Info) (S : FileSt) : List BOp → FileSt
  | [] => S
  | op :: ops => (S.step I op).run I ops

def AllowedRun (I : Nat → Info) (S : FileSt) : List BOp → Prop
  | [] => True
  | op :: ops => op.Allowed I S ∧ AllowedRun I (S.step I op) ops

/-- Everything before position `n` is as in `file`, and no block is there. -/
structure Keeps (n : Nat) (file : Bytes) (S : FileSt) : Prop where
  len : n ≤ S.data.length
  same : ∀ q, q < n → S.data[q]? = file[q]?
  behind : ∀ id, 0 < S.pos id → n ≤ S.pos id

/-- A block type as the classes have: up to four characters, no zero and no blank at the ends. -/
structure TypeOk (ty : Bytes) : Prop where
  len : ty.length ≤ 4
  zero : ∀ c ∈ ty, c ≠ 0#8
  first : ∀ c ∈ ty.head?, isSpace c = false
  last : ∀ c ∈ ty.getLast?, isSpace c = false

/-! ## Trees of blocks -/

mutual
def Node.ids : Node → List Nat
  | .mk id pre post => id :: (pre.ids ++ post.ids)
def Slots.ids : Slots → List Nat
  | .nil => []
  | .cons _ kids rest => kids.ids ++ rest.ids
def Kids.ids : Kids → List Nat
  | .nil => []
  | .cons n rest => n.ids ++ rest.ids
end

/-- The link indices used for the blocks below. -/
def Slots.indices : Slots → List Nat
  | .nil => []
  | .cons s _ rest => s.index :: rest.indices

mutual
/-- What the classes guarantee: the type is a type, each link index is used for one purpose and is within the link list, link 0 of a
block in a list is not used for something else, and a link that does not lead to a list leads to one block. -/
def NodeShape (I : Nat → Info) (inChain : Bool) : Node → Prop
  | .mk id pre post =>
    TypeOk (I id).ty ∧ (inChain = true → 0 < (I id).nlinks) ∧ (pre.indices ++ post.indices).Nodup ∧
    (∀ i ∈ pre.indices ++ post.indices, i < (I id).nlinks ∧ (inChain = true → i ≠ 0) ∧ ∀ r ∈ (I id).refs, r.1 ≠ i) ∧
    (inChain = true → ∀ r ∈ (I id).refs, r.1 ≠ 0) ∧ SlotsShape I pre ∧ SlotsShape I post
def SlotsShape (I : Nat → Info) : Slots → Prop
  | .nil => True
  | .cons s kids rest => KidsShape I s kids ∧ SlotsShape I rest
def KidsShape (I : Nat → Info) (s : Slot) : Kids → Prop
  | .nil => True
  | .cons n rest => NodeShape I s.chain n ∧ (I n.id).kind = s.kind ∧ (s.chain = false → rest.isNil = true) ∧ KidsShape I s rest
end

mutual
/-- New block objects: not in the file, no links. -/
def NodeFresh (S : FileSt) : Node → Prop
  | .mk id pre post => S.pos id = 0 ∧ (S.st id).links = [] ∧ SlotsFresh S pre ∧ SlotsFresh S post
def SlotsFresh (S : FileSt) : Slots → Prop
  | .nil => True
  | .cons _ kids rest => KidsFresh S kids ∧ SlotsFresh S rest
def KidsFresh (S : FileSt) : Kids → Prop
  | .nil => True
  | .cons n rest => NodeFresh S n ∧ KidsFresh S rest
end

mutual
/-- The block is in the file and its links lead to the blocks below.  With `strict` everything below is in the file and all values are
as in memory.  Without it new blocks may stand at the end of the lists and values may have changed, but only where the next `Write`
of the tree comes by. -/
def NodeOk (I : Nat → Info) (S : FileSt) (strict : Bool) : Node → Prop
  | .mk id pre post =>
    0 < S.pos id ∧ (S.st id).links.length = (I id).nlinks ∧ (strict = true → BExact S id) ∧
    SlotsOk I S strict id pre ∧ SlotsOk I S strict id post
def SlotsOk (I : Nat → Info) (S : FileSt) (strict : Bool) (id : Nat) : Slots → Prop
  | .nil => True
  | .cons s kids rest => KidsOk I S strict s id s.index kids ∧ SlotsOk I S strict id rest
/-- Link `ti` of block `tid` leads to the first of the blocks, link 0 of each block to the next. -/
def KidsOk (I : Nat → Info) (S : FileSt) (strict : Bool) (s : Slot) (tid ti : Nat) : Kids → Prop
  | .nil => S.link tid ti = 0
  | .cons n rest =>
    (S.pos n.id = 0 ∧ strict = false ∧ S.link tid ti = 0 ∧ NodeFresh S n ∧ KidsFresh S rest) ∨
    (0 < S.pos n.id ∧ S.link tid ti = S.pos n.id ∧ NodeOk I S (strict || decide (s.opt ≠ .all)) n ∧
      (s.chain = true → KidsOk I S strict s n.id 0 rest))
end

/-! ## What is to be read -/

def Slots.slots : Slots → List Slot
  | .nil => []
  | .cons s _ rest => s :: rest.slots

mutual
/-- The blocks of the tree have the links their class has. -/
def NodeFits (I : Nat → Info) (Sc : Schema) : Node → Prop
  | .mk id pre post => Sc (I id).kind = pre.slots ++ post.slots ∧ SlotsFits I Sc pre ∧ SlotsFits I Sc post
def SlotsFits (I : Nat → Info) (Sc : Schema) : Slots → Prop
  | .nil => True
  | .cons _ kids rest => KidsFits I Sc kids ∧ SlotsFits I Sc rest
def KidsFits (I : Nat → Info) (Sc : Schema) : Kids → Prop
  | .nil => True
  | .cons n rest => NodeFits I Sc n ∧ KidsFits I Sc rest
end

mutual
/-- The tree as a reader should see it: types and values of the blocks (`body`), in the order of the lists. -/
def Node.view (I : Nat → Info) (body : Nat → Bytes) : Node → RTree
  | .mk id pre post => .mk (I id).ty (body id) (pre.views I body ++ post.views I body)
def Slots.views (I : Nat → Info) (body : Nat → Bytes) : Slots → List (List RTree)
  | .nil => []
  | .cons _ kids rest => kids.views I body :: rest.views I body
def Kids.views (I : Nat → Info) (body : Nat → Bytes) : Kids → List RTree
  | .nil => []
  | .cons n rest => n.view I body :: rest.views I body
end

def FileSt.bodies (S : FileSt) (id : Nat) : Bytes := (S.st id).body

/-! ## Changing a tree between two writes -/

mutual
/-- The blocks `Write` comes by each time. -/
def Node.live : Node → List Nat
  | .mk id pre post => id :: (pre.live ++ post.live)
def Slots.live : Slots → List Nat
  | .nil => []
  | .cons s kids rest => (if s.opt = .all then kids.live else []) ++ rest.live
def Kids.live : Kids → List Nat
  | .nil => []
  | .cons n rest => n.live ++ rest.live
end

mutual
/-- `n'` is `n` with new blocks at the ends of the lists of live blocks. -/
def NodeGrown (S : FileSt) : Node → Node → Prop
  | .mk id pre post, .mk id' pre' post' => id' = id ∧ SlotsGrown S pre pre' ∧ SlotsGrown S post post'
def SlotsGrown (S : FileSt) : Slots → Slots → Prop
  | .nil, .nil => True
  | .cons s kids rest, .cons s' kids' rest' => s' = s ∧ KidsGrown S s.opt kids kids' ∧ SlotsGrown S rest rest'
  | _, _ => False
def KidsGrown (S : FileSt) (opt : UpdOpt) : Kids → Kids → Prop
  | .nil, l => KidsFresh S l
  | .cons n rest, .cons n' rest' => (if opt = .all then NodeGrown S n n' else n' = n) ∧ KidsGrown S opt rest rest'
  | _, _ => False
end

/-- What may happen between two writes of a tree: sample data is written at the end of the file, values of live blocks change where
the class writes them again, new blocks are added at the ends of lists of live blocks. -/
structure Edited (I : Nat → Info) (S : FileSt) (n : Node) (S' : FileSt) (n' : Node) : Prop where
  data : ∃ bs, S'.data = S.data ++ bs
  pos : ∀ id, S'.pos id = S.pos id
  kept : ∀ id, 0 < S.pos id → (S'.st id).len = (S.st id).len ∧ (S'.st id).links = (S.st id).links ∧
    (S'.st id).body.length = (S.st id).body.length ∧ ∀ i, ¬ (I id).rewrites i → (S'.st id).body[i]? = (S.st id).body[i]?
  values : ∀ id, 0 < S.pos id → id ∉ n.live → (S'.st id).body = (S.st id).body
  thrown : S'.thrown = S.thrown
  grown : NodeGrown S' n n'

/-- A tree in a file after it was written the first time and any number of times again with changes between. -/
inductive Session (I : Nat → Info) : FileSt → Node → Prop
  | first {S : FileSt} {n : Node} : FileInv I S → S.data ≠ [] → S.thrown = false → NodeFresh S n → NodeShape I false n → n.ids.Nodup →
      Session I (writeNode I S n) n
  | again {S S' : FileSt} {n n' : Node} : Session I S n → Edited I S n S' n' → NodeShape I false n' → n'.ids.Nodup →
      Session I (writeNode I S' n') n'

end Mdf
