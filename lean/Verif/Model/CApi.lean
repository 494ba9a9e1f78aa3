import Verif.Model.Bits

/-!
# The C interface

Models /repo/mdflibrary/src/MdfExport.cpp: how texts, lists and bytes get from the library to memory of the caller and back.  All
functions of the file that do so have one of the shapes below.

Memory of the caller that a pointer points to is the list of its bytes (or entries); a null pointer is `none`.  A write or a read outside is
undefined: the result is `none`.  The pointers to objects of the library are taken to be valid.  `memcpy` of 0 bytes does nothing, also from
the null pointer of an empty vector.  The texts the library returns may hold zero bytes (a `std::string` read from an XML text or a record).
-/

namespace Mdf

/-- A `std::string` as a C string: up to the first zero byte. -/
def cText : Bytes → Bytes
  | [] => []
  | b :: r => if b = 0 then [] else b :: cText r

/-- `strcpy(dst, text.c_str())`. -/
def strCpy (dst text : Bytes) : Option Bytes :=
  if (cText text).length + 1 ≤ dst.length then some (cText text ++ 0 :: dst.drop ((cText text).length + 1)) else none

/-- `memcpy(dst, src, n)`. -/
def memCpy (dst src : Bytes) (n : Nat) : Option Bytes :=
  if n ≤ dst.length ∧ n ≤ src.length then some (src.take n ++ dst.drop n) else none

/-- The memory behind a pointer after the call and what the function returns. -/
structure CResult (α β : Type) where
  mem : Option α
  ret : β
deriving DecidableEq, Repr

/-- The getters of texts, as `MdfFileGetName`: `if (name) strcpy(name, file->Name().c_str()); return file->Name().size();`.  MdfExport.cpp lines
145-148, 150-153, 157-160, 166-169, 209-212, 216-219, 223-226, 230-233, 237-240, 244-247, 251-254, 339-342, 383-386, 388-391, 439-442, 444-447,
451-454, 459-462, 619-622, 632-635, 637-640, 644-647, 673-676, 732-735, 736-739, 806-809, 813-816, 820-823, 869-872, 876-879, 902-905, 909-912,
916-919, 923-926, 930-933, 944-947, 949-952, 956-959, 1020-1023, 1025-1028, 1032-1035, 1037-1040, 1042-1045, 1051-1054, 1062-1066, 1089-1093,
1124-1128. -/
def cGetText (dst : Option Bytes) (text : Bytes) : Option (CResult Bytes Nat) :=
  match dst with
  | none => some ⟨none, text.length⟩
  | some m => (strCpy m text).map fun m' => ⟨some m', text.length⟩

/-- `MdfChannelConversionGetReference`: the formula is copied, the length of the reference returned.  MdfExport.cpp lines 660-663. -/
def cGetReference (dst : Option Bytes) (formula reference : Bytes) : Option (CResult Bytes Nat) :=
  match dst with
  | none => some ⟨none, reference.length⟩
  | some m => (strCpy m formula).map fun m' => ⟨some m', reference.length⟩

/-- `MdfAttachmentGetMd5`.  MdfExport.cpp lines 865-868. -/
def cGetMd5 (dst : Option Bytes) (md5 : Option Bytes) : Option (CResult Bytes Bool) :=
  match dst with
  | none => some ⟨none, md5.isSome⟩
  | some m => (strCpy m (md5.getD [])).map fun m' => ⟨some m', md5.isSome⟩

/-- What the functions for the text or the bytes of a sample give back: the memory, the variable `size` and whether the value is valid. -/
structure CValue where
  mem : Option Bytes
  size : Nat
  valid : Bool
deriving DecidableEq, Repr

/-- `MdfChannelObserverGetChannelValueAsString` and `GetEngValueAsString`.  MdfExport.cpp lines 756-763, 782-789. -/
def cGetValueText (dst : Option Bytes) (size : Nat) (valid : Bool) (str : Bytes) : Option CValue :=
  match dst with
  | none => some ⟨none, str.length, valid⟩
  | some m =>
    if size ≥ str.length + 1 then (strCpy m str).map fun m' => ⟨some m', str.length, valid⟩
    else some ⟨some m, str.length, valid⟩

/-- `MdfChannelObserverGetChannelValueAsArray`: `size` bytes are copied, the size of the memory and not that of the value.  `GetEngValueAsArray`
calls it.  MdfExport.cpp lines 764-771, 790-797. -/
def cGetValueBytes (dst : Option Bytes) (size : Nat) (valid : Bool) (vec : Bytes) : Option CValue :=
  match dst with
  | none => some ⟨none, vec.length, valid⟩
  | some m =>
    if size ≥ vec.length then (memCpy m vec size).map fun m' => ⟨some m', vec.length, valid⟩
    else some ⟨some m, vec.length, valid⟩

/-- `CanMessageGetDataBytes` and `LinMessageGetDataBytes`.  MdfExport.cpp lines 1158-1162, 1222-1226. -/
def cGetBytes (dst : Option Bytes) (vec : Bytes) : Option (CResult Bytes Nat) :=
  match dst with
  | none => some ⟨none, vec.length⟩
  | some m => (memCpy m vec vec.length).map fun m' => ⟨some m', vec.length⟩

/-- The loop `for (size_t i = 0; i < list.size(); ++i) dst[i] = list[i];` from position `i` on. -/
def cCopyList {α : Type} (dst : List α) (i : Nat) : List α → Option (List α)
  | [] => some dst
  | a :: r => if i < dst.length then cCopyList (dst.set i a) (i + 1) r else none

/-- The getters of lists, as `MdfHeaderGetDataGroups`.  MdfExport.cpp lines 179-187, 188-195, 287-293, 294-300, 301-306, 307-313, 355-362, 405-410,
525-530, 583-588, 606-611, 612-617, 718-726, 995-1001, 1104-1110, 1111-1117. -/
def cGetList {α : Type} (dst : Option (List α)) (list : List α) : Option (CResult (List α) Nat) :=
  match dst with
  | none => some ⟨none, list.length⟩
  | some m => (cCopyList m 0 list).map fun m' => ⟨some m', list.length⟩

/-- A `const char*` argument that becomes a `std::string`: the bytes up to the first zero byte, which must be in the memory.  MdfExport.cpp
lines 149, 154, 170, 213, 387, 443, 558-561, 1067-1069 and the other setters of texts. -/
def cSetText (src : Bytes) : Option Bytes := if 0 ∈ src then some (cText src) else none

/-- `std::vector<uint8_t>(value, value + size)`.  MdfExport.cpp lines 562-565, 1163-1166, 1227-1233. -/
def cSetBytes (src : Bytes) (size : Nat) : Option Bytes := if size ≤ src.length then some (src.take size) else none

/-- `MdfChannelArraySetShape` and `MdfMetaDataSetCommonProperties`: a loop over `count` entries.  MdfExport.cpp lines 589-593, 1118-1123. -/
def cSetList {α : Type} (src : List α) (count : Nat) : Option (List α) := if count ≤ src.length then some (src.take count) else none

/-- `MdfChannelGetRangeMin` and the like: `Range()->first`, undefined for an empty `std::optional`.  MdfExport.cpp lines 481, 482, 487, 488, 495-498,
654, 655. -/
def cGetRange {α : Type} (range : Option (α × α)) : Option (α × α) := range

/-- `MdfHeaderGetStartAngle` and `GetStartDistance`: `value_or(0.0)`.  MdfExport.cpp lines 269-271, 278-280. -/
def cGetStart {α : Type} (zero : α) (v : Option α) : α := v.getD zero

end Mdf
