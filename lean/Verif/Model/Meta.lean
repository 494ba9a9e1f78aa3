import Verif.Model.Block

/-!
# The values of the blocks of an MDF 4 file

The bytes after the links of a block: what the `Write` functions of the block classes write there and what their `Read` functions
take from there, class by class, in the order of the statements.  A number is its bits: `double` members are `BitVec 64`, signed
members have the bits of their two's complement.
-/

namespace Mdf

/-- `WriteNumber` (mdfblock.h lines 403-422): the bytes of the number, low byte first. -/
def putNum {n : Nat} (x : BitVec (8 * n)) : Bytes := leBytes n x.toNat

/-- `WriteBytes` (mdfblock.cpp lines 225-228). -/
def putZeros (n : Nat) : Bytes := List.replicate n 0#8

/-- Taking something from the file at the current position: the value and the rest of the file, `none` is the exception. -/
abbrev Get (α : Type) := StateT Bytes Option α

/-- `ReadNumber` (mdfblock.h lines 378-402). -/
def getNum (n : Nat) : Get (BitVec (8 * n)) := fun s => (readNumber n s).map fun r => (BitVec.ofNat (8 * n) r.1, r.2)

/-- `ReadByte` (mdfblock.cpp lines 197-213), also `StepFilePosition` over reserved bytes (simplified: stepping over the end of the
file does not fail by itself, the next read does). -/
def getBytes (n : Nat) : Get Bytes := fun s => if s.length < n then none else some (s.take n, s.drop n)

/-- A loop of `ReadNumber`. -/
def getNums (n : Nat) : (count : Nat) → Get (List (BitVec (8 * n)))
  | 0 => pure []
  | k + 1 => do
    let x ← getNum n
    let xs ← getNums n k
    pure (x :: xs)

/-- The loop of `WriteNumber`. -/
def putNums {n : Nat} : List (BitVec (8 * n)) → Bytes
  | [] => []
  | x :: xs => putNum x ++ putNums xs

/-! ## Timestamps -/

/-- `Mdf4Timestamp` (mdf4timestamp.h lines 38-41). -/
structure Stamp where
  time : BitVec 64
  tz : BitVec 16
  dst : BitVec 16
  flags : BitVec 8
deriving DecidableEq, Repr

/-- `Mdf4Timestamp::Write` (mdf4timestamp.cpp lines 32-43). -/
def Stamp.write (v : Stamp) : Bytes :=
  putNum (n := 8) v.time ++ (putNum (n := 2) v.tz ++ (putNum (n := 2) v.dst ++ putNum (n := 1) v.flags))

/-- `Mdf4Timestamp::Read` (mdf4timestamp.cpp lines 23-30). -/
def Stamp.read : Get Stamp := do
  let time ← getNum 8
  let tz ← getNum 2
  let dst ← getNum 2
  let flags ← getNum 1
  pure ⟨time, tz, dst, flags⟩

/-! ## HD -/

/-- The values of `Hd4Block` (hd4block.h). -/
structure HdVals where
  stamp : Stamp
  timeClass : BitVec 8
  flags : BitVec 8
  angle : BitVec 64
  distance : BitVec 64
deriving DecidableEq, Repr

/-- hd4block.cpp lines 521-526. -/
def HdVals.write (v : HdVals) : Bytes :=
  v.stamp.write ++ (putNum (n := 1) v.timeClass ++ (putNum (n := 1) v.flags ++ (putZeros 1 ++ (putNum (n := 8) v.angle ++
    putNum (n := 8) v.distance))))

/-- hd4block.cpp lines 181-188. -/
def HdVals.read : Get HdVals := do
  let stamp ← Stamp.read
  let timeClass ← getNum 1
  let flags ← getNum 1
  let _ ← getBytes 1
  let angle ← getNum 8
  let distance ← getNum 8
  pure ⟨stamp, timeClass, flags, angle, distance⟩

/-! ## DG -/

/-- The value of `Dg4Block`: the size of the record identity. -/
structure DgVals where
  recIdSize : BitVec 8
deriving DecidableEq, Repr

/-- dg4block.cpp lines 129-130. -/
def DgVals.write (v : DgVals) : Bytes := putNum (n := 1) v.recIdSize ++ putZeros 7

/-- dg4block.cpp lines 102-104. -/
def DgVals.read : Get DgVals := do
  let recIdSize ← getNum 1
  let _ ← getBytes 7
  pure ⟨recIdSize⟩

/-! ## CG -/

/-- The values of `Cg4Block` (cg4block.h lines 116-122). -/
structure CgVals where
  recordId : BitVec 64
  nofSamples : BitVec 64
  flags : BitVec 16
  pathSeparator : BitVec 16
  nofDataBytes : BitVec 32
  nofInvalidBytes : BitVec 32
deriving DecidableEq, Repr

/-- cg4block.cpp lines 229-245. -/
def CgVals.write (v : CgVals) : Bytes :=
  putNum (n := 8) v.recordId ++ (putNum (n := 8) v.nofSamples ++ (putNum (n := 2) v.flags ++ (putNum (n := 2) v.pathSeparator ++
    (putZeros 4 ++ (putNum (n := 4) v.nofDataBytes ++ putNum (n := 4) v.nofInvalidBytes)))))

/-- cg4block.cpp lines 167-174. -/
def CgVals.read : Get CgVals := do
  let recordId ← getNum 8
  let nofSamples ← getNum 8
  let flags ← getNum 2
  let pathSeparator ← getNum 2
  let _ ← getBytes 4
  let nofDataBytes ← getNum 4
  let nofInvalidBytes ← getNum 4
  pure ⟨recordId, nofSamples, flags, pathSeparator, nofDataBytes, nofInvalidBytes⟩

/-! ## CN -/

/-- The values of `Cn4Block` (cn4block.h lines 156-172). -/
structure CnVals where
  type : BitVec 8
  sync : BitVec 8
  dataType : BitVec 8
  bitOffset : BitVec 8
  byteOffset : BitVec 32
  bitCount : BitVec 32
  flags : BitVec 32
  invalidPos : BitVec 32
  precision : BitVec 8
  nofAttachments : BitVec 16
  rangeMin : BitVec 64
  rangeMax : BitVec 64
  limitMin : BitVec 64
  limitMax : BitVec 64
  extMin : BitVec 64
  extMax : BitVec 64
deriving DecidableEq, Repr

/-- cn4block.cpp lines 542-559. -/
def CnVals.write (v : CnVals) : Bytes :=
  putNum (n := 1) v.type ++ (putNum (n := 1) v.sync ++ (putNum (n := 1) v.dataType ++ (putNum (n := 1) v.bitOffset ++
    (putNum (n := 4) v.byteOffset ++ (putNum (n := 4) v.bitCount ++ (putNum (n := 4) v.flags ++ (putNum (n := 4) v.invalidPos ++
    (putNum (n := 1) v.precision ++ (putZeros 1 ++ (putNum (n := 2) v.nofAttachments ++ (putNum (n := 8) v.rangeMin ++
    (putNum (n := 8) v.rangeMax ++ (putNum (n := 8) v.limitMin ++ (putNum (n := 8) v.limitMax ++ (putNum (n := 8) v.extMin ++
    putNum (n := 8) v.extMax)))))))))))))))

/-- cn4block.cpp lines 394-411. -/
def CnVals.read : Get CnVals := do
  let type ← getNum 1
  let sync ← getNum 1
  let dataType ← getNum 1
  let bitOffset ← getNum 1
  let byteOffset ← getNum 4
  let bitCount ← getNum 4
  let flags ← getNum 4
  let invalidPos ← getNum 4
  let precision ← getNum 1
  let _ ← getBytes 1
  let nofAttachments ← getNum 2
  let rangeMin ← getNum 8
  let rangeMax ← getNum 8
  let limitMin ← getNum 8
  let limitMax ← getNum 8
  let extMin ← getNum 8
  let extMax ← getNum 8
  pure ⟨type, sync, dataType, bitOffset, byteOffset, bitCount, flags, invalidPos, precision, nofAttachments, rangeMin, rangeMax,
    limitMin, limitMax, extMin, extMax⟩

/-! ## FH -/

/-- fh4block.cpp lines 54-55. -/
def fhWrite (v : Stamp) : Bytes := v.write ++ putZeros 3

/-- fh4block.cpp lines 37-38: the three reserved bytes are not read. -/
def fhRead : Get Stamp := Stamp.read

/-! ## SI -/

/-- The values of `Si4Block` (si4block.h). -/
structure SiVals where
  type : BitVec 8
  bus : BitVec 8
  flags : BitVec 8
deriving DecidableEq, Repr

/-- si4block.cpp lines 123-126. -/
def SiVals.write (v : SiVals) : Bytes :=
  putNum (n := 1) v.type ++ (putNum (n := 1) v.bus ++ (putNum (n := 1) v.flags ++ putZeros 5))

/-- si4block.cpp lines 98-102. -/
def SiVals.read : Get SiVals := do
  let type ← getNum 1
  let bus ← getNum 1
  let flags ← getNum 1
  let _ ← getBytes 5
  pure ⟨type, bus, flags⟩

/-! ## EV -/

/-- The values of `Ev4Block` (ev4block.h). -/
structure EvVals where
  type : BitVec 8
  sync : BitVec 8
  range : BitVec 8
  cause : BitVec 8
  flags : BitVec 8
  scopes : BitVec 32
  attachments : BitVec 16
  creator : BitVec 16
  syncValue : BitVec 64
  syncFactor : BitVec 64
deriving DecidableEq, Repr

/-- ev4block.cpp lines 210-220. -/
def EvVals.write (v : EvVals) : Bytes :=
  putNum (n := 1) v.type ++ (putNum (n := 1) v.sync ++ (putNum (n := 1) v.range ++ (putNum (n := 1) v.cause ++
    (putNum (n := 1) v.flags ++ (putZeros 3 ++ (putNum (n := 4) v.scopes ++ (putNum (n := 2) v.attachments ++
    (putNum (n := 2) v.creator ++ (putNum (n := 8) v.syncValue ++ putNum (n := 8) v.syncFactor)))))))))

/-- ev4block.cpp lines 147-158. -/
def EvVals.read : Get EvVals := do
  let type ← getNum 1
  let sync ← getNum 1
  let range ← getNum 1
  let cause ← getNum 1
  let flags ← getNum 1
  let _ ← getBytes 3
  let scopes ← getNum 4
  let attachments ← getNum 2
  let creator ← getNum 2
  let syncValue ← getNum 8
  let syncFactor ← getNum 8
  pure ⟨type, sync, range, cause, flags, scopes, attachments, creator, syncValue, syncFactor⟩

/-! ## CH -/

/-- The values of `Ch4Block` (ch4block.h). -/
structure ChVals where
  nofElements : BitVec 32
  type : BitVec 8
deriving DecidableEq, Repr

/-- ch4block.cpp lines 95-97. -/
def ChVals.write (v : ChVals) : Bytes := putNum (n := 4) v.nofElements ++ (putNum (n := 1) v.type ++ putZeros 3)

/-- ch4block.cpp lines 55-59. -/
def ChVals.read : Get ChVals := do
  let nofElements ← getNum 4
  let type ← getNum 1
  let _ ← getBytes 3
  pure ⟨nofElements, type⟩

/-! ## AT -/

/-- The values of `At4Block` (at4block.h); `data` is the data of an embedded attachment as it is in the file. -/
structure AtVals where
  flags : BitVec 16
  creator : BitVec 16
  /-- `md5_`: a checksum or empty -/
  md5 : Bytes
  originalSize : BitVec 64
  data : Bytes
deriving DecidableEq, Repr

/-- at4block.cpp lines 212-225; `nof_bytes_` is the size of the data. -/
def AtVals.write (v : AtVals) : Bytes :=
  putNum (n := 2) v.flags ++ (putNum (n := 2) v.creator ++ (putZeros 4 ++ ((if v.md5.length = 16 then v.md5 else putZeros 16) ++
    (putNum (n := 8) v.originalSize ++ (putNum (n := 8) (BitVec.ofNat 64 v.data.length) ++ v.data)))))

/-- at4block.cpp lines 148-154, then the data as `ReadData` takes it (lines 235-295, not compressed). -/
def AtVals.read : Get AtVals := do
  let flags ← getNum 2
  let creator ← getNum 2
  let _ ← getBytes 4
  let md5 ← getBytes 16
  let originalSize ← getNum 8
  let nofBytes ← getNum 8
  let data ← getBytes nofBytes.toNat
  pure ⟨flags, creator, md5, originalSize, data⟩

/-! ## CC -/

/-- A parameter of a conversion: `std::variant<uint64_t, double>`. -/
inductive Param where
  | /-- `uint64_t` -/ uint (x : BitVec 64)
  | /-- `double` -/ dbl (x : BitVec 64)
deriving DecidableEq, Repr

def Param.bits : Param → BitVec 64
  | .uint x => x
  | .dbl x => x

/-- The values of `Cc4Block` (cc4block.h lines 91-98) and the parameters of `IChannelConversion`. -/
structure CcVals where
  type : BitVec 8
  precision : BitVec 8
  flags : BitVec 16
  nofRefs : BitVec 16
  rangeMin : BitVec 64
  rangeMax : BitVec 64
  params : List Param
deriving DecidableEq, Repr

/-- The number of `ConversionType::BitfieldToText` (ichannelconversion.h). -/
def ccBitfield : BitVec 8 := 11#8

/-- cc4block.cpp lines 287 and 304-320: the number of parameters is cast to 16 bits, and so many are written. -/
def CcVals.write (v : CcVals) : Bytes :=
  putNum (n := 1) v.type ++ (putNum (n := 1) v.precision ++ (putNum (n := 2) v.flags ++ (putNum (n := 2) v.nofRefs ++
    (putNum (n := 2) (BitVec.ofNat 16 v.params.length) ++ (putNum (n := 8) v.rangeMin ++ (putNum (n := 8) v.rangeMax ++
    putNums (n := 8) ((v.params.take (v.params.length % 2 ^ 16)).map Param.bits)))))))

/-- cc4block.cpp lines 213-233. -/
def CcVals.read : Get CcVals := do
  let type ← getNum 1
  let precision ← getNum 1
  let flags ← getNum 2
  let nofRefs ← getNum 2
  let nofValues ← getNum 2
  let rangeMin ← getNum 8
  let rangeMax ← getNum 8
  let values ← getNums 8 nofValues.toNat
  pure ⟨type, precision, flags, nofRefs, rangeMin, rangeMax, values.map (if type = ccBitfield then Param.uint else Param.dbl)⟩

/-! ## HL and DL -/

/-- The values of `Hl4Block`. -/
structure HlVals where
  flags : BitVec 16
  zip : BitVec 8
deriving DecidableEq, Repr

/-- hl4block.cpp lines 70-72. -/
def HlVals.write (v : HlVals) : Bytes := putNum (n := 2) v.flags ++ (putNum (n := 1) v.zip ++ putZeros 5)

/-- hl4block.cpp lines 47-50. -/
def HlVals.read : Get HlVals := do
  let flags ← getNum 2
  let zip ← getNum 1
  let _ ← getBytes 5
  pure ⟨flags, zip⟩

/-- The values of `Dl4Block` with `blocks` data blocks.  `getD` is `Offset(index)` (lines 150-152) and so on: zero if not set. -/
structure DlVals where
  flags : BitVec 8
  equalLength : BitVec 64
  offsets : List (BitVec 64)
  times : List (BitVec 64)
  angles : List (BitVec 64)
  distances : List (BitVec 64)
deriving DecidableEq, Repr

/-- The values of a list for `n` blocks. -/
def padTo (n : Nat) (l : List (BitVec 64)) : List (BitVec 64) := (List.range n).map fun i => l.getD i 0

/-- dl4block.cpp lines 98-125. -/
def DlVals.write (v : DlVals) (blocks : Nat) : Bytes :=
  putNum (n := 1) v.flags ++ (putZeros 3 ++ (putNum (n := 4) (BitVec.ofNat 32 blocks) ++
    ((if v.flags &&& 1#8 ≠ 0#8 then putNum (n := 8) v.equalLength else putNums (n := 8) (padTo blocks v.offsets)) ++
    ((if v.flags &&& 2#8 ≠ 0#8 then putNums (n := 8) (padTo blocks v.times) else []) ++
    ((if v.flags &&& 4#8 ≠ 0#8 then putNums (n := 8) (padTo blocks v.angles) else []) ++
    (if v.flags &&& 8#8 ≠ 0#8 then putNums (n := 8) (padTo blocks v.distances) else []))))))

/-- dl4block.cpp lines 46-62: the time, angle and distance values are not read. -/
def DlVals.read : Get (DlVals × Nat) := do
  let flags ← getNum 1
  let _ ← getBytes 3
  let blocks ← getNum 4
  if flags &&& 1#8 ≠ 0#8 then do
    let len ← getNum 8
    pure (⟨flags, len, [], [], [], []⟩, blocks.toNat)
  else do
    let offsets ← getNums 8 blocks.toNat
    pure (⟨flags, 0, offsets, [], [], []⟩, blocks.toNat)

end Mdf
