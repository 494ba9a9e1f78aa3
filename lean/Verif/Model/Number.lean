import Verif.Model.NumText

/-!
# Numbers in comments

`MdNumber`, `/repo/mdflib/src/mdnumber.cpp`: the number is kept as text, with attributes.

Simplified: if reading ends with an exception (of the attribute `ci`), the attributes read before are not kept here.
-/

namespace Mdf

/-- "byte_count" -/
def kByteCount : Bytes := [0x62#8, 0x79#8, 0x74#8, 0x65#8, 0x5F#8, 0x63#8, 0x6F#8, 0x75#8, 0x6E#8, 0x74#8]
/-- "bit_mask" -/
def kBitMask : Bytes := [0x62#8, 0x69#8, 0x74#8, 0x5F#8, 0x6D#8, 0x61#8, 0x73#8, 0x6B#8]
/-- "byte_order" -/
def kByteOrder : Bytes := [0x62#8, 0x79#8, 0x74#8, 0x65#8, 0x5F#8, 0x6F#8, 0x72#8, 0x64#8, 0x65#8, 0x72#8]
/-- "min" -/
def kMin : Bytes := [0x6D#8, 0x69#8, 0x6E#8]
/-- "max" -/
def kMax : Bytes := [0x6D#8, 0x61#8, 0x78#8]
/-- "average" -/
def kAverage : Bytes := [0x61#8, 0x76#8, 0x65#8, 0x72#8, 0x61#8, 0x67#8, 0x65#8]
/-- "triggered" -/
def kTriggered : Bytes := [0x74#8, 0x72#8, 0x69#8, 0x67#8, 0x67#8, 0x65#8, 0x72#8, 0x65#8, 0x64#8]
/-- "BE" -/
def wBE : Bytes := [0x42#8, 0x45#8]

/-- `MdNumber`.  `/repo/include/mdf/mdnumber.h` lines 77-88. -/
structure MdNum where
  std : MdStd := {}
  /-- `number_` -/
  number : Bytes := []
  /-- `triggered_` -/
  triggered : Bool := false
  /-- `data_type_` -/
  type : MdType := .float
  /-- `byte_count_`, a `uint64_t` -/
  byteCount : Option Nat := none
  /-- `bit_mask_`, a `uint64_t` -/
  bitMask : Option Nat := none
  /-- `byte_order_ == BigEndian` -/
  bigEndian : Bool := false
  /-- `min_` -/
  min : Option Rat := none
  /-- `max_` -/
  max : Option Rat := none
  /-- `average_` -/
  average : Option Rat := none
  /-- `unit_` -/
  unit : Bytes := []
  /-- `unit_ref_` -/
  unitRef : Bytes := []
deriving DecidableEq, Repr

/-! ## The value -/

/-- `MdNumber(double)`.  mdnumber.cpp lines 14-18. -/
def MdNum.ofDouble (q : Rat) : MdNum := { number := fixedText q, type := .float }

/-- `MdNumber(uint64_t, MdDataType)`.  mdnumber.cpp lines 20-29. -/
def MdNum.ofU64 (v : Nat) (t : MdType) : MdNum := { number := if t = .hex then hexText v else decText v, type := t }

/-- `Number<uint64_t>(value)`.  mdnumber.cpp lines 115-133. -/
def MdNum.setU64 (n : MdNum) (v : Nat) : MdNum := { n with number := if n.type = .hex then hexText v else decText v }

/-- `Number<double>(value)`.  mdnumber.h lines 91-99. -/
def MdNum.setDouble (n : MdNum) (q : Rat) : MdNum := { n with number := fixedText q }

/-- `Number<uint64_t>()`.  mdnumber.cpp lines 135-149. -/
def MdNum.u64 (n : MdNum) : Nat := (hexOrDec n.number).getD 0

/-- `Number<double>()`, `operator>>`.  mdnumber.h lines 104-110. -/
def MdNum.dbl (n : MdNum) : Rat := (stodText n.number).getD 0

/-- `Number<uint32_t>()` of a number that is not negative: `operator>>` reads the decimal digits at the start, and gives the largest number
if there are too many.  mdnumber.h lines 104-110. -/
def MdNum.u32 (n : MdNum) : Nat := Nat.min (decNumber (lTrim n.number)) (2 ^ 32 - 1)

/-- `ByteCount()`.  mdnumber.cpp lines 55-57. -/
def MdNum.bytes (n : MdNum) : Nat := n.byteCount.getD 8

/-- `BitMask()`.  mdnumber.cpp lines 63-65. -/
def MdNum.mask (n : MdNum) : Nat := n.bitMask.getD (2 ^ 64 - 1)

/-! ## Writing and reading -/

/-- The text for the byte count: none for the default.  mdnumber.cpp lines 159-161. -/
def countText : Option Nat → Bytes
  | some c => if c = 8 then [] else decText c
  | none => []

/-- The attributes that `MdNumber::ToXml` writes itself.  mdnumber.cpp lines 159-187. -/
def MdNum.attrList (n : MdNum) : List (Bytes × Bytes) :=
  [(kByteCount, countText n.byteCount),
   (kBitMask, (n.bitMask.map hexText).getD []), (kByteOrder, if n.bigEndian then wBE else []), (kMin, (n.min.map generalText).getD []),
   (kMax, (n.max.map generalText).getD []), (kAverage, (n.average.map generalText).getD []), (kUnit, n.unit), (kUnitRef, n.unitRef),
   (kTriggered, if n.triggered then wTrue else [])]

/-- `MdNumber::ToXml`: the node that is added, if any.  mdnumber.cpp lines 151-190. -/
def MdNum.nodes (n : MdNum) (tag : Bytes) : List XmlTree :=
  if n.number = [] then [] else [.mk tag (setAll (n.std.write []) n.attrList) n.number []]

/-- One attribute in `MdNumber::FromXml`; `all` are the attributes of the node.  mdnumber.cpp lines 194-253. -/
def MdNum.readAttr (all : List (Bytes × Bytes)) (n : MdNum) (a : Bytes × Bytes) : Option MdNum :=
  if a.1 = kCi ∧ a.2 ≠ [] then (stollText a.2).map fun v => { n with std := { n.std with ci := (v % 2 ^ 64).toNat } }
  else if a.1 = kLang then some { n with std := { n.std with lang := a.2 } }
  else if a.1 = kByteCount then some { n with byteCount := stoullText a.2 }
  else if a.1 = kBitMask then some (if a.2 = [] then n else { n with bitMask := hexOrDec a.2 })
  else if a.1 = kByteOrder then some (if a.2 = wBE then { n with bigEndian := true } else n)
  else if a.1 = kMin then some { n with min := stodText a.2 }
  else if a.1 = kMax then some { n with max := stodText a.2 }
  else if a.1 = kAverage then some { n with average := stodText a.2 }
  else if a.1 = kUnit then some { n with unit := a.2 }
  else if a.1 = kUnitRef then some { n with unitRef := a.2 }
  else if a.1 = kTriggered then some { n with triggered := attrBool all kTriggered }
  else some { n with std := { n.std with custom := addCustom a.1 a.2 n.std.custom } }

/-- `MdNumber::FromXml`; `none` is an exception.  mdnumber.cpp lines 192-257. -/
def MdNum.read (n : MdNum) (t : XmlTree) : Option MdNum :=
  (t.attrs.foldlM (MdNum.readAttr t.attrs) n).map fun n => { n with number := trim t.value }

end Mdf
