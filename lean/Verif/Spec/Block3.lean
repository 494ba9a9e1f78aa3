import Verif.Model.Block3
import Verif.Spec.Block

/-! What it means that an MDF 3 file holds the blocks of the program, and a tree of blocks. -/

namespace Mdf

/-- The size of a block: header, links and values. -/
def FileSt.size3 (S : FileSt) (id : Nat) : Nat := 4 + 4 * (S.st id).links.length + (S.st id).body.length

/-- Byte `i` of the block is one of those that are written again. -/
def Info3.rewrites (inf : Info3) (i : Nat) : Prop := ∃ r ∈ inf.upd, r.1 ≤ i ∧ i < r.1 + r.2

/-- The size of the block that the file tells, from the size of the values. -/
def Info3.decl (inf : Info3) (n : Nat) : Nat :=
  (match inf.final with
    | none => inf.first n
    | some f => f n) % 2 ^ 16

/-- A block in the file: it is within the file, and all its bytes are there, except those that are to be written again. -/
structure Mirror3 (I : Nat → Info3) (S : FileSt) (id : Nat) : Prop where
  len : (S.st id).len = (I id).decl (S.st id).body.length
  inside : S.pos id + S.size3 id ≤ S.data.length
  bytes : ∀ i, i < S.size3 id → ¬ (I id).rewrites i → S.data[S.pos id + i]? = (lay3 (I id) (S.st id))[i]?

/-- The whole block is in the file. -/
def BExact3 (I : Nat → Info3) (S : FileSt) (id : Nat) : Prop := HasAt S.data (S.pos id) (lay3 (I id) (S.st id))

/-- All written blocks are in the file and do not overlap. -/
structure FileInv3 (I : Nat → Info3) (S : FileSt) : Prop where
  mirror : ∀ id, 0 < S.pos id → Mirror3 I S id
  disjoint : ∀ a b, a ≠ b → 0 < S.pos a → 0 < S.pos b →
    S.pos a + S.size3 a ≤ S.pos b ∨ S.pos b + S.size3 b ≤ S.pos a

/-- `Write` comes by the block again: `last` tells whether it is the last of its list. -/
def UpdOpt.again (opt : UpdOpt) (last : Bool) : Bool :=
  match opt with
  | .all => true
  | .onlyLast => last
  | _ => false

mutual
/-- What the classes guarantee: the type has two characters, each link index is used for one purpose; the links to blocks that are written
after the block itself stand in the header, link 0 of a block in a list is in the header and not used for something else, and a link
that does not lead to a list leads to one block. -/
def NodeShape3 (I : Nat → Info3) (inChain : Bool) : Node → Prop
  | .mk id pre post =>
    (inChain = true → 0 < (I id).head) ∧ (I id).head ≤ (I id).nlinks ∧ (pre.indices ++ post.indices).Nodup ∧
    (∀ i ∈ pre.indices ++ post.indices, i < (I id).nlinks ∧ (inChain = true → i ≠ 0)) ∧
    (∀ i ∈ post.indices, i < (I id).head) ∧ SlotsShape3 I pre ∧ SlotsShape3 I post
def SlotsShape3 (I : Nat → Info3) : Slots → Prop
  | .nil => True
  | .cons s kids rest => KidsShape3 I s kids ∧ SlotsShape3 I rest
def KidsShape3 (I : Nat → Info3) (s : Slot) : Kids → Prop
  | .nil => True
  | .cons n rest => NodeShape3 I s.chain n ∧ (I n.id).kind = s.kind ∧ (s.chain = false → rest.isNil = true) ∧ KidsShape3 I s rest
end

mutual
/-- The block is in the file and its links lead to the blocks below.  With `strict` everything below is in the file as it is in memory.
Without it new blocks may stand at the end of the lists and values may have changed, but only where the next `Write` of the tree comes
by. -/
def NodeOk3 (I : Nat → Info3) (S : FileSt) (strict : Bool) : Node → Prop
  | .mk id pre post =>
    0 < S.pos id ∧ (S.st id).links.length = (I id).nlinks ∧ (strict = true → BExact3 I S id) ∧
    SlotsOk3 I S true id pre ∧ SlotsOk3 I S strict id post
def SlotsOk3 (I : Nat → Info3) (S : FileSt) (strict : Bool) (id : Nat) : Slots → Prop
  | .nil => True
  | .cons s kids rest => KidsOk3 I S strict s id s.index kids ∧ SlotsOk3 I S strict id rest
/-- Link `ti` of block `tid` leads to the first of the blocks, link 0 of each block to the next. -/
def KidsOk3 (I : Nat → Info3) (S : FileSt) (strict : Bool) (s : Slot) (tid ti : Nat) : Kids → Prop
  | .nil => S.link tid ti = 0
  | .cons n rest =>
    (S.pos n.id = 0 ∧ strict = false ∧ S.link tid ti = 0 ∧ NodeFresh S n ∧ KidsFresh S rest) ∨
    (0 < S.pos n.id ∧ S.link tid ti = S.pos n.id ∧ NodeOk3 I S (strict || !s.opt.again rest.isNil) n ∧
      (s.chain = true → KidsOk3 I S strict s n.id 0 rest))
end

/-! ## What is to be read -/

mutual
/-- The blocks of the tree have the links their class has. -/
def NodeFits3 (I : Nat → Info3) (Sc : Schema) : Node → Prop
  | .mk id pre post => Sc (I id).kind = pre.slots ++ post.slots ∧ SlotsFits3 I Sc pre ∧ SlotsFits3 I Sc post
def SlotsFits3 (I : Nat → Info3) (Sc : Schema) : Slots → Prop
  | .nil => True
  | .cons _ kids rest => KidsFits3 I Sc kids ∧ SlotsFits3 I Sc rest
def KidsFits3 (I : Nat → Info3) (Sc : Schema) : Kids → Prop
  | .nil => True
  | .cons n rest => NodeFits3 I Sc n ∧ KidsFits3 I Sc rest
end

mutual
/-- The tree as a reader should see it: the values of the blocks, in the order of the lists. -/
def Node.view3 {V : Type} (val : Nat → V) : Node → RTree3 V
  | .mk id pre post => .mk (val id) (pre.views3 val ++ post.views3 val)
def Slots.views3 {V : Type} (val : Nat → V) : Slots → List (List (RTree3 V))
  | .nil => []
  | .cons _ kids rest => kids.views3 val :: rest.views3 val
def Kids.views3 {V : Type} (val : Nat → V) : Kids → List (RTree3 V)
  | .nil => []
  | .cons n rest => n.view3 val :: rest.views3 val
end

/-- The type of a block: two capital letters. -/
def TypeOk3 (ty : Bytes) : Prop := ty.length = 2 ∧ ∀ c ∈ ty, 0x41 ≤ c.toNat ∧ c.toNat ≤ 0x5A

/-- The class reads the values `v` from a block with the values `body`, whatever the links behind the values are and whatever follows
the block in the file. -/
def Reads3 {V : Type} (G : Getter V) (heads : Nat → Nat) (inf : Info3) (body : Bytes) (v : V) : Prop :=
  heads inf.kind = inf.head ∧ TypeOk3 inf.ty ∧
  ∀ tail rest, tail.length = inf.nlinks - inf.head →
    G inf.kind (inf.decl body.length) (body.take inf.cut ++ links4 tail ++ body.drop inf.cut ++ rest)
      = some (v, tail.map (· % 2 ^ 32))

/-! ## Changing a tree between two writes -/

mutual
/-- The blocks `Write` comes by each time. -/
def Node.live3 : Node → List Nat
  | .mk id _ post => id :: post.live3
def Slots.live3 : Slots → List Nat
  | .nil => []
  | .cons s kids rest => kids.live3 s.opt ++ rest.live3
def Kids.live3 (opt : UpdOpt) : Kids → List Nat
  | .nil => []
  | .cons n rest => (if opt.again rest.isNil then n.live3 else []) ++ rest.live3 opt
end

mutual
/-- `n'` is `n` with new blocks at the ends of the lists of live blocks. -/
def NodeGrown3 (S : FileSt) : Node → Node → Prop
  | .mk id pre post, .mk id' pre' post' => id' = id ∧ pre' = pre ∧ SlotsGrown3 S post post'
def SlotsGrown3 (S : FileSt) : Slots → Slots → Prop
  | .nil, .nil => True
  | .cons s kids rest, .cons s' kids' rest' => s' = s ∧ KidsGrown3 S s.opt kids kids' ∧ SlotsGrown3 S rest rest'
  | _, _ => False
def KidsGrown3 (S : FileSt) (opt : UpdOpt) : Kids → Kids → Prop
  | .nil, l => KidsFresh S l
  | .cons n rest, .cons n' rest' =>
    (if opt.again rest'.isNil then NodeGrown3 S n n' else n' = n) ∧ KidsGrown3 S opt rest rest'
  | _, _ => False
end

/-- What the user may do between two writes of a tree: change values of blocks that are written again, where the class writes them again,
and add new blocks at the ends of lists of such blocks. -/
structure Edited3 (I : Nat → Info3) (S : FileSt) (n : Node) (S' : FileSt) (n' : Node) : Prop where
  data : S'.data = S.data
  pos : ∀ id, S'.pos id = S.pos id
  kept : ∀ id, 0 < S.pos id → (S'.st id).len = (S.st id).len ∧ (S'.st id).links = (S.st id).links ∧
    (S'.st id).body.length = (S.st id).body.length ∧
    ∀ i, ¬ (I id).rewrites i → (lay3 (I id) (S'.st id))[i]? = (lay3 (I id) (S.st id))[i]?
  values : ∀ id, 0 < S.pos id → id ∉ n'.live3 → (S'.st id).body = (S.st id).body
  thrown : S'.thrown = S.thrown
  grown : NodeGrown3 S' n n'

/-! ## Measurements -/

mutual
/-- The block and all blocks below it, each with what is below it. -/
def Node.nodes : Node → List Node
  | .mk id pre post => .mk id pre post :: (pre.nodes ++ post.nodes)
def Slots.nodes : Slots → List Node
  | .nil => []
  | .cons _ kids rest => kids.nodes ++ rest.nodes
def Kids.nodes : Kids → List Node
  | .nil => []
  | .cons n rest => n.nodes ++ rest.nodes
end

/-- Once in the file, the blocks below a block of this kind are not written again. -/
def Node.leaf3 : Node → Prop
  | .mk _ _ post => ∀ s ∈ post.slots, ∀ last, s.opt.again last = false

/-- The channel group may change like this while it is recorded: the size is the same and only bytes that are written again change. -/
def BodyEdit3 (inf : Info3) (b : BObj) (body : Bytes) : Prop :=
  body.length = b.body.length ∧ ∀ i, ¬ inf.rewrites i → (lay3 inf { b with body := body })[i]? = (lay3 inf b)[i]?

/-- The history of an MDF 3 file: the tree `n` is written, written again with changes, and samples are saved.  `log` tells for each
data group the bytes that were saved for it.  `dk` is the class of data groups, `d` their link to the data; the
file had `start` bytes before.  Samples that are saved
for a data group that has samples must follow those in the file. -/
inductive Session3 (I : Nat → Info3) (Sc : Schema) (dk d start : Nat) : FileSt → Node → (Nat → Bytes) → Prop
  | first {S : FileSt} {n : Node} : FileInv3 I S → S.data.length = start → 0 < start → S.thrown = false → NodeFresh S n → NodeShape3 I false n →
      NodeFits3 I Sc n → n.ids.Nodup → Session3 I Sc dk d start (writeNode3 I S n) n (fun _ => [])
  | again {S S' : FileSt} {n n' : Node} {log : Nat → Bytes} : Session3 I Sc dk d start S n log → Edited3 I S n S' n' →
      NodeShape3 I false n' → NodeFits3 I Sc n' → n'.ids.Nodup → Session3 I Sc dk d start (writeNode3 I S' n') n' log
  | samples {S : FileSt} {n : Node} {log : Nat → Bytes} (dg : Nat) (bytes : Bytes) (cgs : List (Node × Bytes)) :
      Session3 I Sc dk d start S n log → dg ∈ n.ids → (I dg).kind = dk → d < (I dg).head →
      (∀ p ∈ cgs, p.1 ∈ n.nodes ∧ p.1.leaf3 ∧ BodyEdit3 (I p.1.id) (S.st p.1.id) p.2) →
      (cgs.map (·.1.id)).Nodup → dg ∉ cgs.map (·.1.id) →
      (0 < S.link dg d → S.link dg d + (log dg).length = S.data.length) →
      Session3 I Sc dk d start (S.saveSamples3 I dg d bytes cgs) n (fun j => if j = dg then log dg ++ bytes else log j)

end Mdf
