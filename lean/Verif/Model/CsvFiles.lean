import Verif.Model.Csv
import Verif.Model.Text

/-!
The files made by the program `mdf2csv`.

Models `CreateFileList::ConvertMdfFile` and `CreateFileList::StripName` of /repo/mdf2csv/src/createfilelist.cpp and the loop of
/repo/mdf2csv/src/main.cpp.  What goes into a file is the subject of `Verif.Model.Csv`; here the text of a group is given, or `none` if it
has no observers or its data cannot be read.  Simplifications: opening and reading a measurement file and opening a new CSV file succeed,
there are no null pointers in the lists.
-/

namespace Mdf

/-- A channel group: name, the VLSD flag, the number of samples and its CSV text. -/
structure CsvGroup where
  name : Bytes
  vlsd : Bool
  nof : Nat
  text : Option Bytes
deriving DecidableEq

/-- A measurement file: its directory, its name without extension and its data groups. -/
structure CsvInput where
  dir : Bytes
  stem : Bytes
  groups : List (List CsvGroup)
deriving DecidableEq

/-- The CSV files: directory and name without extension, with their contents. -/
abbrev CsvDisk := Bytes × Bytes → Option Bytes

/-- `std::ispunct` for the characters of ASCII. -/
def isPunct (c : Byte) : Bool :=
  (0x21#8 ≤ c && c ≤ 0x2F#8) || (0x3A#8 ≤ c && c ≤ 0x40#8) || (0x5B#8 ≤ c && c ≤ 0x60#8) || (0x7B#8 ≤ c && c ≤ 0x7E#8)

/-- The characters `StripName` keeps.  createfilelist.cpp lines 217-226. -/
def stripKeep (c : Byte) : Bool := c == 0x5F#8 || c == 0x2D#8 || (!isSpace c && !isPunct c)

/-- `StripName` (createfilelist.cpp lines 214-230).  `none` is undefined behaviour: `std::isspace` with a negative `char`. -/
def stripName (t : Bytes) : Option Bytes := if t.any (fun c => 0x80#8 ≤ c) then none else some (t.filter stripKeep)

/-- "_DG_" -/
def wDG : Bytes := [0x5F#8, 0x44#8, 0x47#8, 0x5F#8]
/-- "_CG_" -/
def wCG : Bytes := [0x5F#8, 0x43#8, 0x47#8, 0x5F#8]

/-- The part of the name for the data group.  createfilelist.cpp lines 136-138. -/
def dgPart (nofDg dgNo : Nat) : Bytes := if nofDg > 1 then wDG ++ decText dgNo else []

/-- The part of the name for the channel group.  createfilelist.cpp lines 139-144. -/
def cgPart (nofCg cgNo : Nat) (name : Bytes) : Bytes :=
  if nofCg > 1 ∧ name = [] then wCG ++ decText cgNo else if nofCg > 1 then 0x5F#8 :: name else []

/-- The groups that are converted: `cg_list`.  createfilelist.cpp lines 116-129. -/
def csvGroups (l : List CsvGroup) : List CsvGroup := l.filter fun g => !g.vlsd && g.nof != 0

/-- One group: an existing file is only written if this is forced; a group without observers or data gives no file.  createfilelist.cpp
lines 146-208. -/
def csvOne (force : Bool) (disk : CsvDisk) (key : Bytes × Bytes) (text : Option Bytes) : CsvDisk :=
  if (disk key).isSome ∧ ¬ force then disk
  else match text with
    | none => disk
    | some t => fun k => if k = key then some t else disk k

/-- The loop over the groups of a data group.  createfilelist.cpp lines 131-209. -/
def csvGroupLoop (force : Bool) (out stem : Bytes) (nofDg dgNo nofCg : Nat) : (cgNo : Nat) → List CsvGroup → CsvDisk → Option CsvDisk
  | _, [], disk => some disk
  | cgNo, g :: gs, disk =>
    match stripName (stem ++ (dgPart nofDg dgNo ++ cgPart nofCg cgNo g.name)) with
    | none => none
    | some name => csvGroupLoop force out stem nofDg dgNo nofCg (cgNo + 1) gs (csvOne force disk (out, name) g.text)

/-- The loop over the data groups.  createfilelist.cpp lines 110-210. -/
def csvDataLoop (force : Bool) (out stem : Bytes) (nofDg : Nat) : (dgNo : Nat) → List (List CsvGroup) → CsvDisk → Option CsvDisk
  | _, [], disk => some disk
  | dgNo, dg :: dgs, disk =>
    match csvGroupLoop force out stem nofDg dgNo (csvGroups dg).length 1 (csvGroups dg) disk with
    | none => none
    | some d => csvDataLoop force out stem nofDg (dgNo + 1) dgs d

/-- `ConvertMdfFile` (createfilelist.cpp lines 69-212): `output_path_` is set by the first file if the user has set none, and kept. -/
def csvInput (force : Bool) (s : Bytes × CsvDisk) (f : CsvInput) : Option (Bytes × CsvDisk) :=
  let out := if s.1 = [] then f.dir else s.1
  (csvDataLoop force out f.stem f.groups.length 1 f.groups s.2).map fun d => (out, d)

/-- The loop of main.cpp lines 45-48. -/
def csvRun (force : Bool) : List CsvInput → Bytes × CsvDisk → Option (Bytes × CsvDisk)
  | [], s => some s
  | f :: fs, s => match csvInput force s f with | none => none | some s' => csvRun force fs s'

end Mdf
