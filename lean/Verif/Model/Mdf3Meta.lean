import Verif.Model.Block3
import Verif.Model.Meta

/-!
# The values of the blocks of an MDF 3 file

What the block classes of MDF 3 write behind their links and what they read there: hd3block.cpp, dg3block.cpp, cg3block.cpp,
cn3block.cpp, cc3block.cpp and tx3block.cpp.  Numbers are bits.  Left out are the blocks that cannot be made through the API (program
PR, trigger TR, sample reduction SR, dependency CD and extension CE blocks; see `Sr3` and `Rare3`) and the text ranges of a conversion, for which there is no
setter.
-/

namespace Mdf

/-- `ReadStr` as a step of reading; it never throws. -/
def getStr (n : Nat) : Get Bytes := fun s => some (readStr n s)

/-- `WriteBool` (mdfblock.cpp lines 490-493). -/
def putBool (b : Bool) : Bytes := putNum (n := 2) (if b then 1 else 0)

/-- `ReadBool` (mdfblock.cpp lines 483-488). -/
def getBool : Get Bool := do
  let x ← getNum 2
  pure (decide (x ≠ 0))

/-- The loops that handle blocks of older versions of the format: a step is done if the bytes read so far are less than the size of
the block. -/
def stepsWhile {σ : Type} (size : Nat) : List (Nat × (σ → Get σ)) → (bytes : Nat) → σ → Get σ
  | [], _, s => pure s
  | (k, f) :: rest, bytes, s => if bytes < size then f s >>= stepsWhile size rest (bytes + k) else pure s

/-! ## HD -/

/-- The members of `Hd3Block` (hd3block.h lines 66-72) and of its timestamp (mdf3timestamp.h lines 22-28). -/
structure Hd3Vals where
  nofDg : BitVec 16 := 0
  date : Bytes := [0x30, 0x31, 0x3A, 0x30, 0x31, 0x3A, 0x31, 0x39, 0x37, 0x30]
  time : Bytes := [0x30, 0x30, 0x3A, 0x30, 0x30, 0x3A, 0x30, 0x30]
  author : Bytes := []
  department : Bytes := []
  project : Bytes := []
  subject : Bytes := []
  stamp : BitVec 64 := 0
  utc : BitVec 16 := 0
  quality : BitVec 16 := 0
  timer : Bytes := []
deriving DecidableEq, Repr

/-- hd3block.cpp lines 167-178. -/
def Hd3Vals.write (v : Hd3Vals) : Bytes :=
  putNum (n := 2) v.nofDg ++ (writeStr v.date 10 ++ (writeStr v.time 8 ++ (writeStr v.author 32 ++ (writeStr v.department 32 ++
    (writeStr v.project 32 ++ (writeStr v.subject 32 ++ (putNum (n := 8) v.stamp ++ (putNum (n := 2) v.utc ++
    (putNum (n := 2) v.quality ++ writeStr v.timer 32)))))))))

/-- The cases of the loop (hd3block.cpp lines 103-141).  Simplified: the `default` case reads bytes that nobody uses, it is left
out. -/
def hd3Steps : List (Nat × (Hd3Vals → Get Hd3Vals)) :=
  [(2, fun v => do let x ← getNum 2; pure { v with nofDg := x }),
   (10, fun v => do let x ← getStr 10; pure { v with date := x }),
   (8, fun v => do let x ← getStr 8; pure { v with time := x }),
   (32, fun v => do let x ← getStr 32; pure { v with author := x }),
   (32, fun v => do let x ← getStr 32; pure { v with department := x }),
   (32, fun v => do let x ← getStr 32; pure { v with project := x }),
   (32, fun v => do let x ← getStr 32; pure { v with subject := x }),
   (8, fun v => do let x ← getNum 8; pure { v with stamp := x }),
   (2, fun v => do let x ← getNum 2; pure { v with utc := x }),
   (2, fun v => do let x ← getNum 2; pure { v with quality := x }),
   (32, fun v => do let x ← getStr 32; pure { v with timer := x })]

/-- hd3block.cpp lines 99-142: sixteen bytes of header and links are read before. -/
def Hd3Vals.read (size : Nat) : Get Hd3Vals := stepsWhile size hd3Steps 16 {}

/-! ## DG -/

/-- `nof_cg_blocks_` and `nof_record_id_` (dg3block.h). -/
structure Dg3Vals where
  nofCg : BitVec 16
  nofId : BitVec 16
deriving DecidableEq, Repr

/-- dg3block.cpp lines 101-104. -/
def Dg3Vals.write (v : Dg3Vals) : Bytes := putNum (n := 2) v.nofCg ++ (putNum (n := 2) v.nofId ++ putZeros 4)

/-- dg3block.cpp lines 59-60. -/
def Dg3Vals.read : Get Dg3Vals := do
  let nofCg ← getNum 2
  let nofId ← getNum 2
  pure ⟨nofCg, nofId⟩

/-! ## CG -/

/-- The members of `Cg3Block`. -/
structure Cg3Vals where
  recordId : BitVec 16
  nofCn : BitVec 16
  recSize : BitVec 16
  records : BitVec 32
deriving DecidableEq, Repr

/-- cg3block.cpp lines 141-147; without sample reduction blocks the last link is zero. -/
def Cg3Vals.write (v : Cg3Vals) : Bytes :=
  putNum (n := 2) v.recordId ++ (putNum (n := 2) v.nofCn ++ (putNum (n := 2) v.recSize ++ (putNum (n := 4) v.records ++ putZeros 4)))

/-- cg3block.cpp lines 99-107; 26 bytes are read before the test for the last link. -/
def Cg3Vals.read (size : Nat) : Get (Cg3Vals × List Nat) := do
  let recordId ← getNum 2
  let nofCn ← getNum 2
  let recSize ← getNum 2
  let records ← getNum 4
  if 26 + 4 < size then
    let l ← getNum 4
    pure (⟨recordId, nofCn, recSize, records⟩, [l.toNat])
  else pure (⟨recordId, nofCn, recSize, records⟩, [])

/-! ## CN -/

/-- The members of `Cn3Block` that stand in the block. -/
structure Cn3Vals where
  type : BitVec 16
  short : Bytes
  desc : Bytes
  start : BitVec 16
  bits : BitVec 16
  signal : BitVec 16
  rangeValid : Bool
  min : BitVec 64
  max : BitVec 64
  rate : BitVec 64
  byte : BitVec 16
deriving DecidableEq, Repr

/-- cn3block.cpp lines 285-294 and 297; the two links of lines 295-296 are between the sampling rate and the byte offset. -/
def Cn3Vals.write (v : Cn3Vals) : Bytes :=
  putNum (n := 2) v.type ++ (writeStr v.short 32 ++ (writeStr v.desc 128 ++ (putNum (n := 2) v.start ++ (putNum (n := 2) v.bits ++
    (putNum (n := 2) v.signal ++ (putBool v.rangeValid ++ (putNum (n := 8) v.min ++ (putNum (n := 8) v.max ++ (putNum (n := 8) v.rate ++
    putNum (n := 2) v.byte)))))))))

/-- The cases of the loop (cn3block.cpp lines 206-229).  Simplified: the `default` case reads bytes that nobody uses. -/
def cn3Steps : List (Nat × (Cn3Vals × List Nat → Get (Cn3Vals × List Nat))) :=
  [(4, fun p => do let l ← getNum 4; pure (p.1, p.2 ++ [l.toNat])),
   (4, fun p => do let l ← getNum 4; pure (p.1, p.2 ++ [l.toNat])),
   (2, fun p => do let x ← getNum 2; pure ({ p.1 with byte := x }, p.2))]

/-- cn3block.cpp lines 195-229: 218 bytes are read before the loop; `byte_offset_` is zero in a new channel. -/
def Cn3Vals.read (size : Nat) : Get (Cn3Vals × List Nat) := do
  let type ← getNum 2
  let short ← getStr 32
  let desc ← getStr 128
  let start ← getNum 2
  let bits ← getNum 2
  let signal ← getNum 2
  let rangeValid ← getBool
  let min ← getNum 8
  let max ← getNum 8
  let rate ← getNum 8
  stepsWhile size cn3Steps 218 (⟨type, short, desc, start, bits, signal, rangeValid, min, max, rate, 0⟩, [])

/-! ## CC -/

/-- The members of `Cc3Block` (cc3block.h) and those of `IChannelConversion` that it uses; parameters are doubles (`Parameter(index,
double)`, ichannelconversion.cpp lines 317-322). -/
structure Cc3Vals where
  rangeValid : Bool := false
  min : BitVec 64 := 0
  max : BitVec 64 := 0
  unit : Bytes := []
  type : BitVec 16 := 0xFFFF
  params : List (BitVec 64) := []
  formula : Bytes := []
  texts : List (BitVec 64 × Bytes) := []
deriving DecidableEq, Repr

/-- `Cc3Block::Read` and `Write` have the same code for these types: one value each. -/
def ccSingle3 (type : BitVec 16) : Bool := type == 0 || type == 6 || type == 7 || type == 8 || type == 9

/-- Tables: two values each. -/
def ccPair3 (type : BitVec 16) : Bool := type == 1 || type == 2

/-- `WriteNumber` for an element of `value_list_`, a `std::variant<uint64_t, double>` (ichannelconversion.h lines 294-298, cc3block.cpp
lines 313-315 and 323-325): sixteen bytes of memory go to the file, the value, then the index of the variant and the padding.  `pad`
are these other eight bytes. -/
def putParams3 : List (BitVec 64) → (pad : List (BitVec 64)) → Bytes
  | [], _ => []
  | x :: xs, pad => putNum (n := 8) x ++ (putNum (n := 8) (pad.headD 1) ++ putParams3 xs pad.tail)

/-- cc3block.cpp lines 339-342. -/
def putTexts3 : List (BitVec 64 × Bytes) → Bytes
  | [] => []
  | t :: ts => putNum (n := 8) t.1 ++ (writeStr t.2 32 ++ putTexts3 ts)

/-- The numbers of values and the values (cc3block.cpp lines 304-363). -/
def Cc3Vals.writeConv (pad : List (BitVec 64)) (v : Cc3Vals) : Bytes :=
  if ccSingle3 v.type then putNum (n := 2) (BitVec.ofNat 16 v.params.length) ++ putParams3 v.params pad
  else if ccPair3 v.type then putNum (n := 2) (BitVec.ofNat 16 (v.params.length / 2)) ++ putParams3 v.params pad
  else if v.type = 10 then putNum (n := 2) (BitVec.ofNat 16 v.formula.length) ++ writeStr v.formula v.formula.length
  else if v.type = 11 then putNum (n := 2) (BitVec.ofNat 16 v.texts.length) ++ putTexts3 v.texts
  else putNum (n := 2) 0

/-- cc3block.cpp lines 297-363. -/
def Cc3Vals.write (pad : List (BitVec 64)) (v : Cc3Vals) : Bytes :=
  putBool v.rangeValid ++ (putNum (n := 8) v.min ++ (putNum (n := 8) v.max ++ (writeStr v.unit 20 ++ (putNum (n := 2) v.type ++
    v.writeConv pad))))

/-- cc3block.cpp lines 238-243. -/
def getTexts3 : (count : Nat) → Get (List (BitVec 64 × Bytes))
  | 0 => pure []
  | k + 1 => do
    let x ← getNum 8
    let t ← getStr 32
    let ts ← getTexts3 k
    pure ((x, t) :: ts)

/-- cc3block.cpp lines 209-265. -/
def Cc3Vals.readConv (v : Cc3Vals) (n : Nat) : Get Cc3Vals :=
  if ccSingle3 v.type then do
    let ps ← getNums 8 n
    pure { v with params := ps }
  else if ccPair3 v.type then do
    let ps ← getNums 8 (2 * n)
    pure { v with params := ps }
  else if v.type = 10 then do
    let f ← getStr n
    pure { v with formula := f }
  else if v.type = 11 then do
    let ts ← getTexts3 n
    pure { v with texts := ts }
  else pure v

/-- cc3block.cpp lines 188-265: 44 bytes are read before the test for the number of values. -/
def Cc3Vals.read (size : Nat) : Get Cc3Vals := do
  let rangeValid ← getBool
  let min ← getNum 8
  let max ← getNum 8
  let unit ← getStr 20
  let type ← getNum 2
  if 44 < size then
    let n ← getNum 2
    Cc3Vals.readConv { rangeValid, min, max, unit, type } n.toNat
  else pure { rangeValid, min, max, unit, type }

/-! ## All classes -/

/-- The values of a block. -/
inductive Val3 where
  | hd (v : Hd3Vals)
  | dg (v : Dg3Vals)
  | cg (v : Cg3Vals)
  | cn (v : Cn3Vals)
  | cc (v : Cc3Vals)
  | /-- `Tx3Block::Text` -/ tx (text : Bytes)
deriving DecidableEq, Repr

def kHd3 : Nat := 0
def kDg3 : Nat := 1
def kCg3 : Nat := 2
def kCn3 : Nat := 3
def kCc3 : Nat := 4
def kTx3 : Nat := 5

/-- The bytes a class writes for its values (without links).  tx3block.cpp lines 34-39: the text and a zero. -/
def Val3.write (pad : List (BitVec 64)) : Val3 → Bytes
  | .hd v => v.write
  | .dg v => v.write
  | .cg v => v.write
  | .cn v => v.write
  | .cc v => v.write pad
  | .tx s => s ++ [0#8]

/-- What `Write` of the class does with the header and where it writes again: hd3block.cpp lines 158-182, dg3block.cpp lines 94-104,
cg3block.cpp lines 117-161, cn3block.cpp lines 262-298, cc3block.cpp lines 278-282, 294-296 and 364 (the bytes of a formula are not
counted, line 332), tx3block.cpp lines 30-32. -/
def Val3.info : Val3 → Info3
  | .hd _ => { kind := kHd3, ty := [0x48, 0x44], head := 3, nlinks := 3, cut := 0, first := (fun _ => 202), final := some (fun n => 16 + n), upd := [(16, 192)] }
  | .dg _ => { kind := kDg3, ty := [0x44, 0x47], head := 4, nlinks := 4, cut := 0, first := (fun _ => 28), final := none, upd := [(20, 8)] }
  | .cg _ => { kind := kCg3, ty := [0x43, 0x47], head := 3, nlinks := 3, cut := 0, first := (fun _ => 30), final := none, upd := [(22, 4)] }
  | .cn _ => { kind := kCn3, ty := [0x43, 0x4E], head := 5, nlinks := 7, cut := 194, first := (fun _ => 228), final := none, upd := [] }
  | .cc v => { kind := kCc3, ty := [0x43, 0x43], head := 0, nlinks := 0, cut := 0, first := (fun _ => 46), final := some (fun n => if v.type = 10 then 46 else 4 + n), upd := [] }
  | .tx _ => { kind := kTx3, ty := [0x54, 0x58], head := 0, nlinks := 0, cut := 0, first := (fun n => 4 + n), final := none, upd := [] }

/-- The links a class reads behind the header (`ReadLinks3` in the `Read` functions). -/
def heads3 (kind : Nat) : Nat :=
  if kind = kHd3 then 3 else if kind = kDg3 then 4 else if kind = kCg3 then 3 else if kind = kCn3 then 5 else 0

/-- The links of a class that lead to blocks of its own, in the order of the calls of `Write`: hd3block.cpp lines 183-218,
dg3block.cpp lines 111-125, cg3block.cpp lines 163-182, cn3block.cpp lines 268-281 and 300-320.  The links of `SampleQueue` to
the data (`kIndexData`) are not among them. -/
def schema3 : Schema := fun kind =>
  if kind = kHd3 then [⟨1, false, kTx3, .ifNoLink⟩, ⟨0, true, kDg3, .onlyLast⟩]
  else if kind = kDg3 then [⟨1, true, kCg3, .all⟩]
  else if kind = kCg3 then [⟨1, true, kCn3, .never⟩, ⟨2, false, kTx3, .ifNoLink⟩]
  else if kind = kCn3 then [⟨5, false, kTx3, .ifNoLink⟩, ⟨6, false, kTx3, .ifNoLink⟩, ⟨1, false, kCc3, .ifNoLink⟩, ⟨4, false, kTx3, .ifNoLink⟩]
  else []

/-- `Tx3Block::Read` and `Text` (tx3block.cpp lines 17-27): the size is a `uint64_t` expression, it wraps for blocks that tell less than
four bytes. -/
def getTx3 (size : Nat) : Get Bytes := do
  let s ← getStr ((2 ^ 64 + size - 4) % 2 ^ 64)
  pure (trim s)

/-- `Read` of the classes. -/
def getVal3 : Getter Val3 := fun kind size s =>
  if kind = kHd3 then (Hd3Vals.read size s).map fun r => (.hd r.1, [])
  else if kind = kDg3 then (Dg3Vals.read s).map fun r => (.dg r.1, [])
  else if kind = kCg3 then (Cg3Vals.read size s).map fun r => (.cg r.1.1, r.1.2)
  else if kind = kCn3 then (Cn3Vals.read size s).map fun r => (.cn r.1.1, r.1.2)
  else if kind = kCc3 then (Cc3Vals.read size s).map fun r => (.cc r.1, [])
  else (getTx3 size s).map fun r => (.tx r.1, [])

/-! ## Channel names -/

/-- `Cn3Block::Name(name)` (cn3block.cpp lines 48-57): the short name and the long name. -/
def setName3 (name : Bytes) : Bytes × Bytes := if 31 < name.length then (name.take 31, name) else (name, [])

/-- `Cn3Block::Name()` (cn3block.cpp lines 59-61). -/
def getName3 (short long : Bytes) : Bytes := if long = [] then short else long

end Mdf
