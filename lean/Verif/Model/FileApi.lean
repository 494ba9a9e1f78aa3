import Verif.Model.Id
import Verif.Model.Comment

/-!
# Version and name of a file; log messages

Models `MdfFile` (/repo/mdflib/src/mdffile.cpp), `MdfLogStream` (/repo/mdflib/src/mdflogstream.cpp) and `MdfBusTypeToString`
(/repo/mdflib/src/mdfenumerates.cpp).

Simplifications: paths are those of POSIX.  The version text has 8 bytes at most, so that `std::stoi` does not run out of `int` and is
`std::stoll`.  A log function is a number, it does not throw and does not call the library; what it gets is recorded.  The time that
`LogToConsole` prints is left out.
-/

namespace Mdf

/-! ## Version -/

/-- `Version()`: `IdBlock::VersionString` (idblock.cpp lines 128-132, mdf4file.cpp lines 125-127, mdf3file.cpp lines 124-126). -/
def IdBlk.versionString (b : IdBlk) : Bytes := trim b.format

/-- `std::string::substr (n)`; `none` is the exception. -/
def substrFrom (s : Bytes) (n : Nat) : Option Bytes := if s.length < n then none else some (s.drop n)

/-- `MdfFile::MainVersion()` (mdffile.cpp lines 24-34): an exception gives 0. -/
def IdBlk.mainVersion (b : IdBlk) : Int := (stollText (b.versionString.take 1)).getD 0

/-- `MdfFile::MinorVersion()` (mdffile.cpp lines 36-48): an exception gives 0. -/
def IdBlk.minorOfText (b : IdBlk) : Int := ((substrFrom b.versionString 2).bind stollText).getD 0

/-! ## Name -/

/-- `fs::path::filename`: what is behind the last '/'. -/
def pathFile (s : Bytes) : Bytes := (s.reverse.takeWhile (· ≠ 0x2F#8)).reverse

/-- `fs::path::stem`: the name of the file without what follows the last point, unless this point is the first character or the name
is "..". -/
def pathStem (s : Bytes) : Bytes :=
  let f := pathFile s
  let front := (f.reverse.dropWhile (· ≠ 0x2E#8)).drop 1
  if f = [0x2E#8, 0x2E#8] ∨ front = [] then f else front.reverse

/-- `name_` and `filename_`.  mdffile.h lines 234-235. -/
structure FileNames where
  name : Bytes := []
  filename : Bytes := []
deriving DecidableEq, Repr

/-- `MdfFile::FileName (filename)`.  mdffile.cpp lines 52-63. -/
def FileNames.setFile (n : FileNames) (filename : Bytes) : FileNames :=
  { name := if n.name = [] then pathStem filename else n.name, filename := filename }

/-- `MdfFile::Name (name)`.  mdffile.h line 197. -/
def FileNames.setName (n : FileNames) (name : Bytes) : FileNames := { n with name := name }

/-- What is called. -/
inductive NameCall where
  | file (s : Bytes)
  | name (s : Bytes)
deriving DecidableEq, Repr

/-- One call. -/
def FileNames.call (n : FileNames) : NameCall → FileNames
  | .file s => n.setFile s
  | .name s => n.setName s

/-! ## Log messages -/

/-- A log message: file and function of its `MdfLocation`, severity and text. -/
structure LogMsg where
  file : Bytes
  func : Bytes
  severity : Nat
  text : Bytes
deriving DecidableEq, Repr

/-- What a log function gets: those of the first kind get the message, those of the second severity, one text for the place, and text. -/
inductive LogGot where
  | first (id : Nat) (m : LogMsg)
  | second (id : Nat) (severity : Nat) (place text : Bytes)
deriving DecidableEq, Repr

/-- The lists of log functions; `none` is an empty `std::function`.  mdflogstream.cpp lines 17-18. -/
structure LogFuncs where
  first : List (Option Nat) := []
  second : List (Option Nat) := []
deriving DecidableEq, Repr

/-- `MdfLogStream::LogString`: what is called, in order.  mdflogstream.cpp lines 37-52. -/
def LogFuncs.log (s : LogFuncs) (m : LogMsg) : List LogGot :=
  s.first.filterMap (fun f => f.map fun id => .first id m) ++
  s.second.filterMap (fun f => f.map fun id => .second id m.severity (m.file ++ 0x3A#8 :: m.func) m.text)

/-- What is called. -/
inductive LogCall where
  | add1 (f : Option Nat)
  | add2 (f : Option Nat)
  | reset
  | log (m : LogMsg)
deriving DecidableEq, Repr

/-- `SetLogFunction1` (mdflogstream.cpp lines 54-56), `SetLogFunction2` (lines 58-60), `ResetLogFunction` (lines 62-65) and a log message
(lines 33-35). -/
def LogFuncs.call (s : LogFuncs) : LogCall → LogFuncs × List LogGot
  | .add1 f => ({ s with first := s.first ++ [f] }, [])
  | .add2 f => ({ s with second := s.second ++ [f] }, [])
  | .reset => ({}, [])
  | .log m => (s, s.log m)

/-- Some calls; all that the log functions get. -/
def logRun : List LogCall → LogFuncs → List LogGot
  | [], _ => []
  | c :: cs, s => (s.call c).2 ++ logRun cs (s.call c).1

/-- `MdfLogStream::LogToConsole`: whether a line is written.  mdflogstream.cpp lines 67-72. -/
def logShown (level severity : Nat) : Bool := !(severity < level)

/-! ## Bus types -/

/-- One part of `MdfBusTypeToString` (mdfenumerates.cpp lines 15-20): the name behind a comma, if there is text already. -/
def busPart (type mask : BitVec 16) (name text : Bytes) : Bytes :=
  if type &&& mask ≠ 0 then text ++ (if text = [] then name else 0x2C#8 :: name) else text

/-- `MdfBusTypeToString`.  mdfenumerates.cpp lines 12-50; the masks are those of mdfenumerates.h. -/
def busText (type : BitVec 16) : Bytes :=
  busPart type 0x10#16 [0x45#8, 0x74#8, 0x68#8, 0x65#8, 0x72#8, 0x6E#8, 0x65#8, 0x74#8]
    (busPart type 0x08#16 [0x4D#8, 0x4F#8, 0x53#8, 0x54#8]
      (busPart type 0x04#16 [0x46#8, 0x6C#8, 0x65#8, 0x78#8, 0x52#8, 0x61#8, 0x79#8]
        (busPart type 0x02#16 [0x4C#8, 0x49#8, 0x4E#8] (busPart type 0x01#16 [0x43#8, 0x41#8, 0x4E#8] []))))

end Mdf
