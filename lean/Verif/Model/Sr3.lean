import Verif.Model.Mdf3Meta
import Verif.Model.DataList

/-!
# Sample reductions of MDF 3 files

Models /repo/mdflib/src/sr3block.cpp and sr3block.h (`Sr3Block`), the link to them in `Cg3Block::Read` and `Cg3Block::ReadSrList`
(/repo/mdflib/src/cg3block.cpp), `MdfReader::ReadSrData` (mdfreader.cpp) for MDF 3, and the public functions
`ISampleReduction::GetChannelValue` and `GetEngValue` (/repo/include/mdf/isamplereduction.h, /repo/mdflib/src/isamplereduction.cpp), which
are the same for MDF 3 and MDF 4.

The file is a list of bytes.  Numbers are bits; what a channel makes of a record is a function of the bytes of the record.
-/

namespace Mdf

/-- `nof_reduced_samples_` and `time_interval_` (sr3block.h lines 40-41). -/
structure Sr3Vals where
  nof : BitVec 32
  interval : BitVec 64
deriving DecidableEq, Repr

/-- sr3block.cpp lines 59-60. -/
def Sr3Vals.write (v : Sr3Vals) : Bytes := putNum (n := 4) v.nof ++ putNum (n := 8) v.interval

/-- sr3block.cpp lines 44-45. -/
def Sr3Vals.read : Get Sr3Vals := do
  let nof ← getNum 4
  let interval ← getNum 8
  pure ⟨nof, interval⟩

/-- `Sr3Block::Write` (sr3block.cpp lines 49-60): type, size and links of the block, then the values. -/
def Sr3Vals.bytes (v : Sr3Vals) (next data : Nat) : Bytes :=
  writeStr [0x53, 0x52] 2 ++ leBytes 2 24 ++ links4 [next, data] ++ v.write

/-- A `Sr3Block`: `link_list_`, the values, `block_list_` of its base class `DataListBlock` and `data_list_`. -/
structure Sr3Obj where
  links : List Nat
  val : Sr3Vals
  blocks : List DTree
  data : Bytes

/-- `Sr3Block::Read` (sr3block.cpp lines 41-47) of a new object.  Nothing is put into `block_list_`. -/
def Sr3Obj.read (file : Bytes) (pos : Nat) : Option Sr3Obj :=
  (readHeader3 2 file pos).bind fun h => (Sr3Vals.read h.2).map fun v => ⟨h.1.2, v.1, [], []⟩

/-- `Cg3Block::ReadSrList` (cg3block.cpp lines 199-210) of a group that has none yet. -/
def readSrChain (file : Bytes) : (fuel : Nat) → (link : Nat) → FinRes (List Sr3Obj)
  | 0, link => if 0 < link then .hang else .ok []
  | fuel + 1, link =>
    if 0 < link then
      match Sr3Obj.read file link with
      | none => .throw
      | some o => (readSrChain file fuel (o.links.getD 0 0)).map (o :: ·)
    else .ok []

/-- `Cg3Block::Read` (cg3block.cpp lines 95-110; the comment left out) and `ReadSrList` of the channel group at `pos`; `Link(kIndexSr)`
of a block without that link is zero.  With the size of its records. -/
def readGroupSr (file : Bytes) (fuel pos : Nat) : FinRes (Nat × List Sr3Obj) :=
  match readHeader3 3 file pos with
  | none => .throw
  | some h =>
    match Cg3Vals.read h.1.1 h.2 with
    | none => .throw
    | some v => (readSrChain file fuel ((h.1.2 ++ v.1.2).getD 3 0)).map (v.1.1.recSize.toNat, ·)

/-- `Sr3Block::ReadData` (sr3block.cpp lines 80-95): `DataSize()` is that of the blocks in `block_list_`.  `none` is an exception. -/
def Sr3Obj.readData (file : Bytes) (o : Sr3Obj) : Option Sr3Obj :=
  if DTree.sizes o.blocks = 0 then some { o with data := [] }
  else (getBytes (DTree.sizes o.blocks) (file.drop (o.links.getD 1 0))).map fun r => { o with data := r.1 }

/-- One `if (const auto index = static_cast<int>(pos); static_cast<size_t>(index + block_size) <= data_list_.size()) std::copy_n(...)`
(sr3block.h lines 78-81).  `block_size` has 16 bits, so the sum is an `int`; `none` is undefined behaviour: the sum is too large or the
bytes are before the buffer. -/
def srCopy3 (data : Bytes) (pos n : Nat) (buffer : Bytes) : Option Bytes :=
  if 2 ^ 31 ≤ toInt32 pos + n then none
  else if ((toInt32 pos + n) % (2 ^ 64 : Int)).toNat ≤ data.length then
    if toInt32 pos < 0 then none
    else some (dlPut buffer 0 ((data.drop (toInt32 pos).toNat).take n))
  else some buffer

/-- `Sr3Block::GetChannelValueT` (sr3block.h lines 60-96) with the record size `n` of the group (`BlockSize`, sr3block.cpp lines 116-128);
`get` is `GetChannelValue` of the channel.  `none` is undefined behaviour, `some none` leaves the values as they were. -/
def Sr3Obj.value {β : Type} (o : Sr3Obj) (n : Nat) (get : Bytes → β) (sample : Nat) : Option (Option (β × β × β)) :=
  if o.data = [] ∨ n = 0 then some none
  else do
    let mean ← srCopy3 o.data (sample * 3 * n) n (List.replicate n 0)
    let min ← srCopy3 o.data (sample * 3 * n + n) n mean
    let max ← srCopy3 o.data (sample * 3 * n + 2 * n) n min
    some (some (get mean, get min, get max))

/-! ## The public functions -/

/-- `SrValue` (isamplereduction.h lines 42-50): value and validity of mean, minimum and maximum. -/
structure SrOut (α : Type) where
  mean : α × Bool
  min : α × Bool
  max : α × Bool
deriving DecidableEq, Repr

/-- `SrValue<T> temp;` then `GetChannelValueUint` (or `Int`, `Double`): values not set stay zero and invalid. -/
def SrOut.ofRaw {α : Type} (zero : α) : Option ((α × Bool) × (α × Bool) × (α × Bool)) → SrOut α
  | none => ⟨(zero, false), (zero, false), (zero, false)⟩
  | some (a, b, c) => ⟨a, b, c⟩

/-- The same for each of the three. -/
def SrOut.map {α β : Type} (f : α × Bool → β × Bool) (s : SrOut α) : SrOut β := ⟨f s.mean, f s.min, f s.max⟩

/-- The three functions that read, by the type they read in. -/
structure SrRaw where
  uint : SrOut (BitVec 64)
  int : SrOut (BitVec 64)
  float : SrOut (BitVec 64)

/-- `ISampleReduction::GetChannelValue` (isamplereduction.h lines 140-187; for texts isamplereduction.cpp lines 29-76) by the data type of the
channel; `ofUint`, `ofInt` and `ofFloat` are `static_cast<T>` or `std::to_string`.  Other data types give no values. -/
def srChannelValue {τ : Type} (zero : τ) (ofUint ofInt ofFloat : BitVec 64 → τ) (d : DataType) (r : SrRaw) : SrOut τ :=
  match d with
  | .unsignedLe | .unsignedBe => r.uint.map fun p => (ofUint p.1, p.2)
  | .signedLe | .signedBe => r.int.map fun p => (ofInt p.1, p.2)
  | .floatLe | .floatBe => r.float.map fun p => (ofFloat p.1, p.2)
  | _ => SrOut.ofRaw zero none

/-- `ISampleReduction::GetEngValue` (isamplereduction.h lines 196-273; for texts isamplereduction.cpp lines 78-154).  With a conversion
each value is converted, whether it is valid or not; `cUint`, `cInt` and `cFloat` are `Convert`: what stands in the result afterwards and
the answer. -/
def srEngValue {τ : Type} (zero : τ) (ofUint ofInt ofFloat : BitVec 64 → τ) (conv : Option ((BitVec 64 → τ × Bool) × (BitVec 64 → τ × Bool) ×
    (BitVec 64 → τ × Bool))) (d : DataType) (r : SrRaw) : SrOut τ :=
  match conv with
  | none => srChannelValue zero ofUint ofInt ofFloat d r
  | some (cUint, cInt, cFloat) =>
    match d with
    | .unsignedLe | .unsignedBe => r.uint.map fun p => ((cUint p.1).1, p.2 && (cUint p.1).2)
    | .signedLe | .signedBe => r.int.map fun p => ((cInt p.1).1, p.2 && (cInt p.1).2)
    | .floatLe | .floatBe => r.float.map fun p => ((cFloat p.1).1, p.2 && (cFloat p.1).2)
    | _ => SrOut.ofRaw zero none

/-- What the three functions of an MDF 3 reduction read: `gUint`, `gInt` and `gFloat` are `GetChannelValue` of the channel.  `none` is
undefined behaviour. -/
def Sr3Obj.raw (o : Sr3Obj) (n : Nat) (gUint gInt gFloat : Bytes → BitVec 64 × Bool) (sample : Nat) : Option SrRaw := do
  let u ← o.value n gUint sample
  let i ← o.value n gInt sample
  let f ← o.value n gFloat sample
  some ⟨SrOut.ofRaw 0 u, SrOut.ofRaw 0 i, SrOut.ofRaw 0 f⟩

end Mdf
