import Verif.Model.Mdf3Meta

/-!
# Program, trigger, dependency and extension blocks of MDF 3 files

Models /repo/mdflib/src/pr3block.cpp, tr3block.cpp, cd3block.cpp and ce3block.cpp (`Read` and, where there is one, `Write`), how the header
shows the program text (hd3block.cpp lines 59-70), and the places where these blocks are read: hd3block.cpp lines 146-151, dg3block.cpp
lines 62-67, cn3block.cpp lines 235-247.  They cannot be made through the API, only other tools write them.

The file is a list of bytes, `none` is an exception.  Numbers are bits.
-/

namespace Mdf

/-! ## Program block -/

/-- `Pr3Block::Read` (pr3block.cpp lines 15-19): the size is a `uint64_t` expression, it wraps for blocks that tell less than four bytes. -/
def readPr3 (file : Bytes) (pos : Nat) : Option Bytes :=
  (readHeader3 0 file pos).map fun h => (readStr ((2 ^ 64 + h.1.1 - 4) % 2 ^ 64) h.2).1

/-- `Pr3Block::Write` (pr3block.cpp lines 21-29) of a new block: type, size with 16 bits, text. -/
def pr3Bytes (text : Bytes) : Bytes :=
  writeStr [0x50, 0x52] 2 ++ leBytes 2 ((4 + text.length) % 2 ^ 16) ++ writeStr text text.length

/-- "Link to program data" (hd3block.cpp line 69). -/
def kNoProgram : Bytes :=
  [0x4C, 0x69, 0x6E, 0x6B, 0x20, 0x74, 0x6F, 0x20, 0x70, 0x72, 0x6F, 0x67, 0x72, 0x61, 0x6D, 0x20, 0x64, 0x61, 0x74, 0x61]

/-- The description of the item "Program PR" in `GetBlockProperty` of a header that was read from a file with the link `link`
(hd3block.cpp lines 59-70 and 146-151). -/
def programItem (file : Bytes) (link : Nat) : Option Bytes :=
  if 0 < link then
    (readPr3 file link).map fun t => if 20 < t.length then t.take 20 ++ [0x2E, 0x2E] else t
  else some kNoProgram

/-! ## Trigger block -/

/-- `Tr3Event` (tr3block.h lines 13-17). -/
structure Tr3Event where
  time : BitVec 64
  pre : BitVec 64
  post : BitVec 64
deriving DecidableEq, Repr

/-- tr3block.cpp lines 57-59. -/
def Tr3Event.write (e : Tr3Event) : Bytes := putNum (n := 8) e.time ++ (putNum (n := 8) e.pre ++ putNum (n := 8) e.post)

/-- tr3block.cpp lines 24-27. -/
def Tr3Event.read : Get Tr3Event := do
  let a ← getNum 8
  let b ← getNum 8
  let c ← getNum 8
  pure ⟨a, b, c⟩

/-- The loop over the events (tr3block.cpp lines 20-29): `n` events are left, `bytes` bytes of the `size` were read. -/
def readTrEvents (size : Nat) : (n bytes : Nat) → Get (List Tr3Event)
  | 0, _ => pure []
  | n + 1, bytes =>
    if size < bytes + 8 then pure []
    else do
      let e ← Tr3Event.read
      let es ← readTrEvents size n (bytes + 24)
      pure (e :: es)

/-- `MdfBlock::ReadTx3` (mdfblock.cpp lines 549-558). -/
def readTx3 (file : Bytes) (link : Nat) : Option Bytes :=
  if 0 < link then (readHeader3 0 file link).bind fun h => (getTx3 h.1.1 h.2).map (·.1) else some []

/-- `event_list_` and `comment_` of a trigger block. -/
structure Tr3Obj where
  events : List Tr3Event
  comment : Bytes
deriving DecidableEq, Repr

/-- `Tr3Block::Read` (tr3block.cpp lines 15-32). -/
def readTr3 (file : Bytes) (pos : Nat) : Option Tr3Obj :=
  (readHeader3 1 file pos).bind fun h =>
  (getNum 2 h.2).bind fun n =>
  (readTrEvents h.1.1 n.1.toNat 10 n.2).bind fun es =>
  (readTx3 file (h.1.2.getD 0 0)).map fun c => ⟨es.1, c⟩

/-- `Tr3Block::Write` (tr3block.cpp lines 34-63) of a new block whose comment is at `tx`: the number of events and the size have 16
bits. -/
def tr3Bytes (tx : Nat) (es : List Tr3Event) : Bytes :=
  writeStr [0x54, 0x52] 2 ++ leBytes 2 ((10 + 24 * (es.length % 2 ^ 16)) % 2 ^ 16) ++ links4 [tx] ++
    (putNum (n := 2) (BitVec.ofNat 16 es.length) ++ es.flatMap Tr3Event.write)

/-! ## Dependency block -/

/-- `Dependency` (cd3block.h lines 11-15). -/
structure Dep3 where
  dg : BitVec 32
  cg : BitVec 32
  cn : BitVec 32
deriving DecidableEq, Repr

/-- The loop of cd3block.cpp lines 19-25. -/
def readDeps3 : (n : Nat) → Get (List Dep3)
  | 0 => pure []
  | n + 1 => do
    let a ← getNum 4
    let b ← getNum 4
    let c ← getNum 4
    let ds ← readDeps3 n
    pure (⟨a, b, c⟩ :: ds)

/-- `Cd3Block::Read` (cd3block.cpp lines 8-37): the dependencies and the dimensions.  The loop over the dimensions starts at 256. -/
def readCd3 (file : Bytes) (pos : Nat) : Option (List Dep3 × List (BitVec 16)) :=
  (readHeader3 0 file pos).bind fun h =>
  (getNum 2 h.2).bind fun t =>
  (getNum 2 t.2).bind fun n =>
    if t.1 = 0#16 then some ([], [])
    else if t.1 = 1#16 ∨ t.1 = 2#16 then (readDeps3 n.1.toNat n.2).map fun r => (r.1, [])
    else (getNums 2 (n.1.toNat - 256) n.2).map fun r => ([], r.1)

/-! ## Extension block -/

/-- The members of `Ce3Block` (ce3block.h): `a`, `b` are `nof_module_` and `address_` of a DIM block or `message_id_` and `index_` of a CAN
block, then the two texts. -/
inductive Ce3Obj where
  | dim (module : BitVec 16) (address : BitVec 32) (description ecu : Bytes)
  | can (id index : BitVec 32) (message sender : Bytes)
  | other
deriving DecidableEq, Repr

/-- `Ce3Block::Read` (ce3block.cpp lines 8-31). -/
def readCe3 (file : Bytes) (pos : Nat) : Option Ce3Obj :=
  (readHeader3 0 file pos).bind fun h =>
  (getNum 2 h.2).bind fun t =>
    if t.1 = 2#16 then
      (getNum 2 t.2).bind fun m => (getNum 4 m.2).map fun a =>
        .dim m.1 a.1 (readStr 80 a.2).1 (readStr 32 (readStr 80 a.2).2).1
    else if t.1 = 19#16 then
      (getNum 4 t.2).bind fun m => (getNum 4 m.2).map fun a =>
        .can m.1 a.1 (readStr 36 a.2).1 (readStr 36 (readStr 36 a.2).2).1
    else some .other

end Mdf
