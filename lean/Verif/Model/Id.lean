import Verif.Model.Block

/-!
# The ID block

The first 64 bytes of an MDF file.  Models `IdBlock` (/repo/mdflib/src/idblock.cpp), `IsMdfFile` and the choice of the file class
in the constructor of `MdfReader` (/repo/mdflib/src/mdfreader.cpp).  A file is the list of its bytes.
-/

namespace Mdf

/-- "MDF     " -/
def idMdf : Bytes := [0x4D#8, 0x44#8, 0x46#8, 0x20#8, 0x20#8, 0x20#8, 0x20#8, 0x20#8]

/-- "UnFinMF " -/
def idUnFin : Bytes := [0x55#8, 0x6E#8, 0x46#8, 0x69#8, 0x6E#8, 0x4D#8, 0x46#8, 0x20#8]

/-- "MdfWrite" -/
def idProgram : Bytes := [0x4D#8, 0x64#8, 0x66#8, 0x57#8, 0x72#8, 0x69#8, 0x74#8, 0x65#8]

/-- The members of `IdBlock`.  idblock.h lines 36-47 and mdfblock.h lines 172-180. -/
structure IdBlk where
  fileId : Bytes
  format : Bytes
  program : Bytes
  byteOrder : BitVec 16
  floatFormat : BitVec 16
  version : BitVec 16
  codePage : BitVec 16
  stdFlags : BitVec 16
  customFlags : BitVec 16
  /-- `FilePosition() == 0`: the block is read from a file or written to it -/
  inFile : Bool
deriving DecidableEq, Repr

/-- A new ID block of an MDF 4 file.  idblock.h lines 36-47, idblock.cpp lines 18-25. -/
def newId4 : IdBlk :=
  { fileId := idMdf, format := [0x34#8, 0x2E#8, 0x32#8, 0x30#8], program := idProgram, byteOrder := 0, floatFormat := 0,
    version := 420#16, codePage := 0, stdFlags := 0, customFlags := 0, inFile := false }

/-- A new ID block of an MDF 3 file: `SetDefaultMdf3Values`.  idblock.cpp lines 138-149. -/
def newId3 : IdBlk :=
  { fileId := idMdf, format := [0x33#8, 0x2E#8, 0x33#8, 0x30#8], program := idProgram, byteOrder := 0, floatFormat := 0,
    version := 330#16, codePage := 65001#16, stdFlags := 0, customFlags := 0, inFile := false }

/-- `WriteNumber` of 16 bits; the byte order is the one of the block.  mdfblock.h lines 403-423, mdfblock.cpp line 371. -/
def idNum (order v : BitVec 16) : Bytes := if order ≠ 0 then beBytes 2 v.toNat else leBytes 2 v.toNat

/-- `ReadNumber` of 16 bits; `none` is the exception.  mdfblock.h lines 377-401. -/
def idReadNum (order : BitVec 16) (file : Bytes) : Option (BitVec 16 × Bytes) :=
  if file.length < 2 then none
  else some (BitVec.ofNat 16 (if order ≠ 0 then beNat (file.take 2) else leNat (file.take 2)), file.drop 2)

/-- `IdBlock::Read` on a new block.  A missing number is an exception.  The reserved bytes are skipped; that they are there is
checked by the numbers behind them.  idblock.cpp lines 75-93. -/
def readIdBlock (file : Bytes) : Option IdBlk :=
  let id := readStr 8 file
  let format := readStr 8 id.2
  let program := readStr 8 format.2
  (idReadNum 0 program.2).bind fun order =>
  (idReadNum order.1 order.2).bind fun fp =>
  (idReadNum order.1 fp.2).bind fun version =>
  (idReadNum order.1 version.2).bind fun page =>
  (idReadNum order.1 (page.2.drop 28)).bind fun std =>
  (idReadNum order.1 std.2).bind fun custom =>
  some { fileId := id.1, format := format.1, program := program.1, byteOrder := order.1, floatFormat := fp.1,
         version := version.1, codePage := page.1, stdFlags := std.1, customFlags := custom.1, inFile := true }

/-- The bytes `IdBlock::Write` writes.  idblock.cpp lines 103-118. -/
def IdBlk.bytes (b : IdBlk) : Bytes :=
  writeStr b.fileId 8 ++ writeStr b.format 8 ++ writeStr b.program 8 ++ idNum b.byteOrder b.byteOrder ++
  idNum b.byteOrder b.floatFormat ++ idNum b.byteOrder b.version ++ idNum b.byteOrder b.codePage ++
  List.replicate 28 0#8 ++ idNum b.byteOrder b.stdFlags ++ idNum b.byteOrder b.customFlags

/-- `IdBlock::Write`: nothing is done if the block is in the file already.  idblock.cpp lines 95-122. -/
def IdBlk.write (b : IdBlk) (file : Bytes) : IdBlk × Bytes :=
  if b.inFile then (b, file) else ({ b with inFile := true }, putAt file 0 b.bytes)

/-- The decimal digits of a number below 100, without leading zero. -/
def twoDigits (n : Nat) : Bytes :=
  if n < 10 then [BitVec.ofNat 8 (48 + n)] else [BitVec.ofNat 8 (48 + n / 10), BitVec.ofNat 8 (48 + n % 10)]

/-- `IdBlock::MinorVersion`.  `none` is the exception of `std::stoi` if the format does not start with a digit.
idblock.cpp lines 151-173. -/
def IdBlk.minorVersion (b : IdBlk) (minor : Int) : Option IdBlk :=
  let major? : Option Nat :=
    match b.format with
    | [] => some 4
    | c :: _ => if 0x30#8 ≤ c ∧ c ≤ 0x39#8 then some (c.toNat - 48) else none
  major?.map fun major =>
    let m : Nat := if minor ≤ 0 then 0 else if minor < 10 then minor.toNat * 10 else if 100 ≤ minor then minor.toNat % 100 else minor.toNat
    { b with format := BitVec.ofNat 8 (48 + major) :: 0x2E#8 :: (if m = 0 then [0x30#8, 0x30#8] else twoDigits m)
             version := BitVec.ofNat 16 (100 * major + m) }

/-- `IdBlock::IsFinalized`, the function that changes the mark; also in the file if the block is there.
idblock.cpp lines 175-195. -/
def IdBlk.mark (b : IdBlk) (file : Bytes) (finalized : Bool) (std custom : BitVec 16) : IdBlk × Bytes :=
  let b : IdBlk := if finalized then { b with fileId := idMdf, stdFlags := 0, customFlags := 0 }
    else { b with fileId := idUnFin, stdFlags := std, customFlags := custom }
  (b, if b.inFile then
        putAt (putAt file 0 (writeStr b.fileId 8)) 60 (idNum b.byteOrder b.stdFlags ++ idNum b.byteOrder b.customFlags)
      else file)

/-- `IdBlock::IsFinalized`, the function that tells the mark: finalized, standard flags, custom flags.
idblock.cpp lines 197-202. -/
def IdBlk.finalized (b : IdBlk) : Bool × BitVec 16 × BitVec 16 :=
  (!(!b.fileId.isEmpty && b.fileId.head? == some 0x55#8), b.stdFlags, b.customFlags)

/-- `tolower` of the C locale. -/
def lowerByte (c : Byte) : Byte := if 0x41#8 ≤ c ∧ c ≤ 0x5A#8 then c + 0x20#8 else c

/-- `Platform::strnicmp (s, t, n) == 0` for texts without zeros, where `n` is the length of `t`.  platform.cpp lines 23-29. -/
def sameStart (s t : Bytes) : Bool := (s.take t.length).map lowerByte == t.map lowerByte

/-- `FileId` is the id of an MDF file.  mdfreader.cpp lines 76-79 and 307-308. -/
def IdBlk.isMdf (b : IdBlk) : Bool :=
  sameStart (trim b.fileId) [0x4D#8, 0x44#8, 0x46#8] ||
  sameStart (trim b.fileId) [0x55#8, 0x6E#8, 0x46#8, 0x69#8, 0x6E#8, 0x4D#8, 0x46#8]

/-- `IsMdfFile` for a stream.  mdfreader.cpp lines 62-82. -/
def isMdfFile (file : Bytes) : Bool :=
  match readIdBlock file with
  | none => false
  | some b => b.isMdf

/-- The class that reads a file. -/
inductive FileClass where
  | mdf3 | mdf4
deriving DecidableEq, Repr

/-- The class the constructor of `MdfReader` chooses; `none` if the file is no MDF file or reading the ID block throws.
mdfreader.cpp lines 303-326. -/
def openAs (file : Bytes) : Option FileClass :=
  (readIdBlock file).bind fun b => if b.isMdf then some (if 400 ≤ b.version.toNat then .mdf4 else .mdf3) else none

/-- What a program does with the ID block of a file. -/
inductive IdOp where
  /-- `IsFinalized (finalized, file, std, custom)` -/
  | mark (finalized : Bool) (std custom : BitVec 16)
  /-- `Write` -/
  | write
  /-- `MinorVersion` -/
  | minor (m : Int)
  /-- `ProgramId` (idblock.h lines 19-21) -/
  | program (text : Bytes)
  /-- the other blocks of the file are written or changed; they are behind the ID block -/
  | body (pos : Nat) (bytes : Bytes)
  /-- the file is closed and read by a new program -/
  | reopen
deriving DecidableEq, Repr

/-- One operation on the block and the file; `none` is an exception. -/
def idStep (s : IdBlk × Bytes) : IdOp → Option (IdBlk × Bytes)
  | .mark f std custom => some (s.1.mark s.2 f std custom)
  | .write => some (s.1.write s.2)
  | .minor m => (s.1.minorVersion m).map fun b => (b, s.2)
  | .program text => some ({ s.1 with program := text }, s.2)
  | .body pos bytes => some (s.1, putAt s.2 (64 + pos) bytes)
  | .reopen => (readIdBlock s.2).map fun b => (b, s.2)

/-- A history of operations. -/
def idRun : List IdOp → IdBlk × Bytes → Option (IdBlk × Bytes)
  | [], s => some s
  | op :: ops, s => (idStep s op).bind (idRun ops)

end Mdf
