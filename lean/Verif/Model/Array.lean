import Verif.Model.Meta

/-!
# Channel arrays

Models `IChannelArray` (/repo/mdflib/src/ichannelarray.cpp, /repo/include/mdf/ichannelarray.h) and `Ca4Block`
(/repo/mdflib/src/ca4block.cpp): the definition of an array, writing it as a `CA` block and reading it.

Pointers to other objects are the file positions of these objects when the block is written (`Index()`), zero for the null pointer
and for an object that is not yet in the file.  Link 0, which leads to the next block of the composition, is set by the channel.
-/

namespace Mdf

/-- `CaTripleReference` (ichannelarray.h lines 60-69). -/
structure CaRef where
  dg : Nat
  cg : Nat
  cn : Nat
deriving DecidableEq, Repr

/-- All pointers are null. -/
def CaRef.none : CaRef := ⟨0, 0, 0⟩

/-- The members of `Ca4Block` (ca4block.h lines 72-88) and of `IChannelArray` (ichannelarray.h, the protected members). -/
structure CaDef where
  type : BitVec 8
  storage : BitVec 8
  /-- `dimensions_` -/
  dimensions : BitVec 16
  flags : BitVec 32
  /-- `byte_offset_base_` -/
  byteBase : BitVec 32
  /-- `invalid_bit_pos_base_` -/
  invalidBase : BitVec 32
  /-- `dim_size_list_` -/
  dims : List (BitVec 64)
  /-- `axis_value_list_`, the bits of the values -/
  axisValues : List (BitVec 64)
  /-- `cycle_count_list_` -/
  cycles : List (BitVec 64)
  /-- `data_links_` -/
  dataLinks : List Nat
  dynamicSizes : List CaRef
  inputs : List CaRef
  output : CaRef
  comparison : CaRef
  /-- `axis_conversion_list_` -/
  conversions : List Nat
  axes : List CaRef
deriving DecidableEq, Repr

/-- A new array (`Ca4Block::Ca4Block` and the default values of the members). -/
def CaDef.new : CaDef := ⟨0, 0, 0, 0, 0, 0, [], [], [], [], [], [], .none, .none, [], []⟩

/-! The flags of `CaFlag` (ichannelarray.h lines 46-56) and the values of `ArrayStorage` (lines 39-43). -/

def CaDef.hasDynamicSize (a : CaDef) : Bool := a.flags &&& 0x0001#32 ≠ 0#32
def CaDef.hasInput (a : CaDef) : Bool := a.flags &&& 0x0002#32 ≠ 0#32
def CaDef.hasOutput (a : CaDef) : Bool := a.flags &&& 0x0004#32 ≠ 0#32
def CaDef.hasComparison (a : CaDef) : Bool := a.flags &&& 0x0008#32 ≠ 0#32
def CaDef.hasAxis (a : CaDef) : Bool := a.flags &&& 0x0010#32 ≠ 0#32
def CaDef.hasFixedAxis (a : CaDef) : Bool := a.flags &&& 0x0020#32 ≠ 0#32
def CaDef.isCgTemplate (a : CaDef) : Bool := a.storage = 1#8
def CaDef.isDgTemplate (a : CaDef) : Bool := a.storage = 2#8

/-- `Ca4Block::SumOfArray` (ca4block.cpp lines 557-564). -/
def CaDef.sum (a : CaDef) : BitVec 64 := a.dims.foldl (fun s d => s + d) 0

/-- `Ca4Block::ProductOfArray` (ca4block.cpp lines 566-573). -/
def CaDef.product (a : CaDef) : BitVec 64 := a.dims.foldl (fun p d => p * if 0 < d then d else 1) 1

/-- `Ca4Block::Shape` (ca4block.cpp lines 579-582). -/
def CaDef.setShape (a : CaDef) (dims : List (BitVec 64)) : CaDef :=
  { a with dims := dims, dimensions := BitVec.ofNat 16 dims.length }

/-- `std::vector::resize`. -/
def resizeTo {α : Type} (l : List α) (n : Nat) (x : α) : List α := l.take n ++ List.replicate (n - l.length) x

/-- `Ca4Block::AxisValues` for writing (ca4block.cpp lines 597-604): what the list is when the caller gets it. -/
def CaDef.growAxis (a : CaDef) : CaDef :=
  if a.hasFixedAxis ∧ 0 < a.sum ∧ a.axisValues.length < a.sum.toNat then
    { a with axisValues := resizeTo a.axisValues a.sum.toNat 0 } else a

/-- `Ca4Block::CycleCounts` for writing (ca4block.cpp lines 610-625). -/
def CaDef.growCycles (a : CaDef) : CaDef :=
  if (a.isDgTemplate || a.isCgTemplate) ∧ a.cycles.length < a.product.toNat then
    { a with cycles := resizeTo a.cycles a.product.toNat 0 } else a

/-- `IChannelArray::DataLinks` for writing (ichannelarray.cpp lines 23-30). -/
def CaDef.growDataLinks (a : CaDef) : CaDef :=
  if a.isDgTemplate ∧ a.dataLinks.length < a.product.toNat then
    { a with dataLinks := resizeTo a.dataLinks a.product.toNat 0 } else a

/-- The lists of links and references in `IChannelArray::ResizeArrays` (ichannelarray.cpp lines 85-102). -/
def CaDef.fitRefs (a : CaDef) : CaDef :=
  { a with
    dataLinks := if a.isDgTemplate then resizeTo a.dataLinks a.product.toNat 0 else a.dataLinks
    dynamicSizes := if a.hasDynamicSize then resizeTo a.dynamicSizes a.dimensions.toNat .none else a.dynamicSizes
    inputs := if a.hasInput then resizeTo a.inputs a.dimensions.toNat .none else a.inputs
    axes := if a.hasAxis ∧ ¬ a.hasFixedAxis then resizeTo a.axes a.dimensions.toNat .none else a.axes }

/-- ichannelarray.cpp lines 103-106. -/
def CaDef.fitAxis (a : CaDef) : CaDef :=
  if a.hasFixedAxis then { a with axisValues := resizeTo a.axisValues a.sum.toNat 0 } else a

/-- ichannelarray.cpp lines 107-118. -/
def CaDef.fitCycles (a : CaDef) : CaDef :=
  if a.isDgTemplate || a.isCgTemplate then { a with cycles := resizeTo a.cycles a.product.toNat 0 } else a

/-- `IChannelArray::ResizeArrays` (ichannelarray.cpp lines 84-119).  The list of conversions is not resized. -/
def CaDef.resizeArrays (a : CaDef) : CaDef := a.fitRefs.growAxis.fitAxis.growCycles.fitCycles

/-- `Ca4Block::PrepareForWriting` (ca4block.cpp lines 700-710), called with the bits of a value of the channel. -/
def CaDef.prepare (a : CaDef) (bitCount : BitVec 32) : CaDef :=
  { a with byteBase := bitCount / 8 + (if 0 < bitCount % 8 then 1 else 0), invalidBase := 0 }

/-! ## Writing -/

/-- The number of links (ca4block.cpp lines 396-431). -/
def CaDef.nofLinks (a : CaDef) : Nat :=
  1 + (if a.isDgTemplate then a.dataLinks.length else 0) +
  (if a.hasDynamicSize then a.dimensions.toNat * 3 else 0) +
  (if a.hasInput then a.dimensions.toNat * 3 else 0) +
  (if a.hasOutput then 3 else 0) + (if a.hasComparison then 3 else 0) +
  (if a.hasAxis then a.dimensions.toNat else 0) +
  (if a.hasAxis ∧ ¬ a.hasFixedAxis then a.dimensions.toNat * 3 else 0)

/-- A run of calls of `UpdateLink` (mdfblock.cpp lines 731-755) for a block that is not in the file: `none` is the exception for a link
that does not exist. -/
def setLinks (links : List Nat) (index : Nat) : List Nat → Option (List Nat)
  | [] => some links
  | v :: vs => if index < links.length then setLinks (links.set index v) (index + 1) vs else none

/-- The links of a reference (`WriteReference`, ca4block.cpp lines 665-674). -/
def CaRef.links (r : CaRef) : List Nat := [r.dg, r.cg, r.cn]

/-- `WriteReferences` (ca4block.cpp lines 676-694): the links of `n` references, zeros where there is none. -/
def refLinks (refs : List CaRef) (n : Nat) : List Nat := (List.range n).flatMap fun i => (refs.getD i .none).links

/-- The links set in `Ca4Block::Write` from link 1 on, in that order (ca4block.cpp lines 447-486). -/
def CaDef.linkValues (a : CaDef) : List Nat :=
  (if a.isDgTemplate then (List.range a.product.toNat).map fun i => a.dataLinks.getD i 0 else []) ++
  (if a.hasDynamicSize then refLinks a.dynamicSizes a.dimensions.toNat else []) ++
  (if a.hasInput then refLinks a.inputs a.dimensions.toNat else []) ++
  (if a.hasOutput then a.output.links else []) ++
  (if a.hasComparison then a.comparison.links else []) ++
  (if a.hasAxis then (List.range a.dimensions.toNat).map fun i => a.conversions.getD i 0 else []) ++
  (if a.hasAxis ∧ ¬ a.hasFixedAxis then refLinks a.axes a.dimensions.toNat else [])

/-- The values of the block (ca4block.cpp lines 489-526). -/
def CaDef.body (a : CaDef) : Bytes :=
  putNum (n := 1) a.type ++ (putNum (n := 1) a.storage ++ (putNum (n := 2) a.dimensions ++ (putNum (n := 4) a.flags ++
    (putNum (n := 4) a.byteBase ++ (putNum (n := 4) a.invalidBase ++ (putNums (n := 8) (padTo a.dimensions.toNat a.dims) ++
    ((if a.hasFixedAxis then putNums (n := 8) (padTo a.sum.toNat a.axisValues) else []) ++
    (if a.isDgTemplate || a.isCgTemplate then putNums (n := 8) (padTo a.product.toNat a.cycles) else []))))))))

/-- `Ca4Block::Write` (ca4block.cpp lines 385-531) for an array that is not in the file: the links and the values; `none` is the
exception.  The length in the header is the number of bytes written (`UpdateBlockSize`). -/
def CaDef.write (a : CaDef) : Option (List Nat × Bytes) :=
  (setLinks (List.replicate a.nofLinks 0) 1 a.linkValues).map fun links => (links, a.body)

/-! ## Reading -/

/-- The loop over the cycle counters of `Read` (ca4block.cpp lines 300-305): `bytes` are the bytes read so far. -/
def getCycles (max : Nat) : (count bytes : Nat) → Get (List (BitVec 64))
  | 0, _ => pure []
  | k + 1, bytes =>
    if bytes + 8 ≤ max then do
      let x ← getNum 8
      let xs ← getCycles max k (bytes + 8)
      pure (x :: xs)
    else do
      let xs ← getCycles max k bytes
      pure (0 :: xs)

/-- `Link` where only a position greater than zero leads to an object. -/
def refAt (links : List Nat) (i : Nat) : Nat := if validLink (links.getD i 0) then links.getD i 0 else 0

/-- `Ca4Block::ReadReference` (ca4block.cpp lines 627-663). -/
def readRef (links : List Nat) (i : Nat) : CaRef := ⟨refAt links i, refAt links (i + 1), refAt links (i + 2)⟩

/-- A loop of `ReadReference`. -/
def readRefs (links : List Nat) (i n : Nat) : List CaRef := (List.range n).map fun k => readRef links (i + 3 * k)

/-- `Ca4Block::FindAllReferences` (ca4block.cpp lines 319-383) on an array that was just read.  The data links are the links
themselves. -/
def CaDef.findReferences (a : CaDef) (links : List Nat) : CaDef :=
  let n := a.dimensions.toNat
  let i0 := 1
  let i1 := i0 + if a.isDgTemplate then a.product.toNat else 0
  let i2 := i1 + if a.hasDynamicSize then 3 * n else 0
  let i3 := i2 + if a.hasInput then 3 * n else 0
  let i4 := i3 + if a.hasOutput then 3 else 0
  let i5 := i4 + if a.hasComparison then 3 else 0
  let i6 := i5 + if a.hasAxis then n else 0
  { a with
    dataLinks := if a.isDgTemplate then (List.range a.product.toNat).map fun k => links.getD (i0 + k) 0 else a.dataLinks
    dynamicSizes := if a.hasDynamicSize then readRefs links i1 n else a.dynamicSizes
    inputs := if a.hasInput then readRefs links i2 n else a.inputs
    output := if a.hasOutput then readRef links i3 else a.output
    comparison := if a.hasComparison then readRef links i4 else a.comparison
    conversions := if a.hasAxis then (List.range n).map fun k => refAt links (i5 + k) else a.conversions
    axes := if a.hasAxis ∧ ¬ a.hasFixedAxis then readRefs links i6 n else a.axes }

/-- The part of `Ca4Block::Read` after the header (ca4block.cpp lines 277-309): `len` and `links` are those of the header. -/
def CaDef.getValues (len : Nat) (nofLinks : Nat) : Get CaDef := do
  let type ← getNum 1
  let storage ← getNum 1
  let dimensions ← getNum 2
  let flags ← getNum 4
  let byteBase ← getNum 4
  let invalidBase ← getNum 4
  let dims ← getNums 8 dimensions.toNat
  let a : CaDef := { CaDef.new with type := type, storage := storage, dimensions := dimensions, flags := flags,
                                    byteBase := byteBase, invalidBase := invalidBase, dims := dims }
  let axis ← if a.hasFixedAxis then getNums 8 a.sum.toNat else pure []
  let bytes := 24 + 8 * nofLinks + 16 + 8 * dims.length + 8 * axis.length
  let cycles ← if a.isDgTemplate || a.isCgTemplate then getCycles len a.product.toNat bytes else pure []
  pure { a with axisValues := axis, cycles := cycles }

/-- `Ca4Block::Read` (ca4block.cpp lines 275-317) and the later call of `FindAllReferences` (mdf4file.cpp lines 273-306); `none` is the
exception. -/
def CaDef.read (data : Bytes) (pos : Nat) : Option CaDef :=
  (readHeader data pos).bind fun h =>
  (CaDef.getValues h.1.len h.1.links.length h.2).map fun r => r.1.findReferences h.1.links

/-! ## The elements of an array -/

/-- `IChannel::ArraySize` (ichannel.cpp lines 1105-1118) for the arrays of the composition of a channel. -/
def arraySizeOf (arrays : List CaDef) : BitVec 64 := arrays.foldl (fun n a => n * a.product) 1

end Mdf
