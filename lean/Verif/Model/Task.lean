import Verif.Model.Bits

/-!
Model of what the tasks (sorting, validating) do to files: /repo/mdflib/src/mdftask.cpp, sortingtask.cpp, validatingtask.cpp.

A file system gives contents to files; a path leads to a file, and several paths may lead to the same one (relative paths, other cases of
letters, directories that are links).  Links in the last part of a path are not covered.  Every step may fail; the states passed are kept,
so that one can say what an interruption leaves behind.
-/

namespace Mdf

/-- The elements of a path; `std::filesystem::path` compares by elements. -/
abbrev Path := List String

/-- The contents of the files. -/
structure Fs where
  file : Nat → Option Bytes

def Fs.put (fs : Fs) (n : Nat) (b : Option Bytes) : Fs := ⟨fun m => if m = n then b else fs.file m⟩

/-- How a copy fails: before the target is opened, or after some bytes. -/
inductive CopyFault where
  | none
  | early
  | cut (n : Nat)
deriving DecidableEq, Repr

/-- The machine the task runs on: where paths lead, `temp_directory_path()`, and what goes wrong. -/
structure Host where
  resolve : Path → Nat
  tmpDir : Path
  /-- `create_directories` throws -/ failDirs : Bool
  /-- `remove` of the temporary file throws, at the start -/ failRemove : Bool
  /-- copying the source to the temporary file -/ failCopyIn : CopyFault
  /-- `ReadConfig` throws although the file exists -/ failRead : Bool
  /-- `CreateWriter` throws -/ failWriter : Bool
  /-- copying the temporary file to the destination -/ failCopyOut : CopyFault
  /-- `remove` at the end of `Run` -/ failDelete : Bool
  /-- `remove` in the destructor -/ failExit : Bool

/-- The settings of the task. -/
structure TaskSet where
  source : Path
  dest : Path
  overwrite : Bool

/-- A part of a task: the states passed, and whether it went well (false is an exception). -/
abbrev TaskStep := Fs → List Fs × Bool

/-- The state after some states have been passed. -/
def lastFs (fs : Fs) (l : List Fs) : Fs := l.getLast?.getD fs

/-- Parts one after the other, until one throws. -/
def runSteps : List TaskStep → TaskStep
  | [], _ => ([], true)
  | s :: ss, fs =>
    if (s fs).2 then ((s fs).1 ++ (runSteps ss (lastFs fs (s fs).1)).1, (runSteps ss (lastFs fs (s fs).1)).2) else ((s fs).1, false)

/-- A check that throws. -/
def checkStep (p : Fs → Bool) : TaskStep := fun fs => ([], p fs)

/-- `temp_directory_path()` with the name of a file (mdftask.cpp lines 114-115, 139-140). -/
def Host.temp (h : Host) (p : Path) : Path := h.tmpDir ++ [p.getLast?.getD ""]

def Host.exists (h : Host) (fs : Fs) (p : Path) : Bool := (fs.file (h.resolve p)).isSome

/-- `std::filesystem::remove`: nothing happens if there is no file. -/
def Host.remove (h : Host) (p : Path) (fail : Bool) : TaskStep := fun fs =>
  if fail then ([], false) else ([fs.put (h.resolve p) none], true)

/-- `std::filesystem::copy_file`: an error if there is nothing to copy, if both are the same file, or if the target exists and may not be
overwritten.  The target grows byte by byte. -/
def Host.copyFile (h : Host) (src dst : Path) (over : Bool) (fault : CopyFault) : TaskStep := fun fs =>
  match fs.file (h.resolve src) with
  | none => ([], false)
  | some b =>
    if h.resolve src = h.resolve dst then ([], false)
    else if h.exists fs dst ∧ !over then ([], false)
    else
      match fault with
      | .early => ([], false)
      | .cut n => ((List.range (min n b.length + 1)).map fun k => fs.put (h.resolve dst) (some (b.take k)), false)
      | .none => ((List.range (b.length + 1)).map fun k => fs.put (h.resolve dst) (some (b.take k)), true)

/-- `MdfTask::CheckSourceFile` (mdftask.cpp lines 42-60). -/
def Host.checkSource (h : Host) (t : TaskSet) : TaskStep := checkStep fun fs => t.source != [] && h.exists fs t.source

/-- `MdfTask::CheckDestinationFile` (mdftask.cpp lines 62-91).  Directories are not modelled. -/
def Host.checkDestination (h : Host) (t : TaskSet) : TaskStep :=
  checkStep fun fs => t.dest != [] && !h.failDirs && !(h.exists fs t.dest && !t.overwrite) && t.source != t.dest

/-- `MdfTask::CreateSourceTempFile` (mdftask.cpp lines 111-134). -/
def Host.createSourceTemp (h : Host) (t : TaskSet) : TaskStep :=
  runSteps [checkStep fun _ => h.temp t.source != t.source, h.remove (h.temp t.source) h.failRemove,
    h.copyFile t.source (h.temp t.source) false h.failCopyIn]

/-- `MdfTask::CreateDestinationTempFile` (mdftask.cpp lines 136-160): only the name is made and the file removed. -/
def Host.createDestinationTemp (h : Host) (t : TaskSet) : TaskStep :=
  runSteps [checkStep fun _ => h.temp t.dest != t.dest, h.remove (h.temp t.dest) h.failRemove]

/-- `MdfTask::CheckSourceAndDestinationDiff` (mdftask.cpp lines 93-109). -/
def checkDiff (t : TaskSet) : TaskStep := checkStep fun _ => t.source != [] && t.dest != [] && t.source != t.dest

/-- `MdfTask::ReadConfig` (mdftask.cpp lines 423-443). -/
def Host.readConfig (h : Host) (t : TaskSet) : TaskStep := checkStep fun fs => h.exists fs t.source && !h.failRead

/-- `MdfTask::CreateWriter` (mdftask.cpp lines 162-185): the file is not opened. -/
def Host.createWriter (h : Host) : TaskStep := checkStep fun _ => !h.failWriter

/-- Writing the temporary file: the contents it has meanwhile, and the last ones (`none` is an exception). -/
def Host.writeTemp (h : Host) (temp : Path) (w : List Bytes × Option Bytes) : TaskStep := fun fs =>
  (w.1.map (fun b => fs.put (h.resolve temp) (some b)) ++ (w.2.map fun b => fs.put (h.resolve temp) (some b)).toList, w.2.isSome)

/-- `SortingTask::SortFile` (sortingtask.cpp lines 52-152): what it makes of the source file is `sort` (its contents are C57). -/
def Host.sortFile (h : Host) (t : TaskSet) (sort : Bytes → List Bytes × Option Bytes) : TaskStep := fun fs =>
  match fs.file (h.resolve t.source) with
  | none => ([], false)
  | some b => h.writeTemp (h.temp t.dest) (sort b) fs

/-- Where the temporary file is copied to: the source if there is no destination (mdftask.cpp lines 204-209). -/
def TaskSet.target (t : TaskSet) : Path := if t.dest = [] then t.source else t.dest

/-- `MdfTask::CopyTempFile` (mdftask.cpp lines 201-225). -/
def Host.copyTemp (h : Host) (t : TaskSet) (temp : Path) : TaskStep := fun fs =>
  if h.exists fs t.target then if t.overwrite then h.copyFile temp t.target true h.failCopyOut fs else ([], true)
  else h.copyFile temp t.target false h.failCopyOut fs

/-- What a task leaves: the states passed (the destructor included), `Result` and `Error`. -/
structure TaskEnd where
  states : List Fs
  result : Bool
  error : Bool

/-- The destructor (mdftask.cpp lines 24-33): the temporary file is removed if it has been created and not deleted. -/
def Host.exit (h : Host) (temp : Path) (live : Bool) : TaskStep := fun fs => if live ∧ !h.failExit then h.remove temp false fs else ([], true)

/-- A task: the part before there is a temporary file, the parts while there is one, and its end. -/
def Host.task (h : Host) (temp : Path) (before main : List TaskStep) (result : Fs → Bool) (fs : Fs) : TaskEnd :=
  let a := runSteps before fs
  let fa := lastFs fs a.1
  if a.2 then
    let m := runSteps (main ++ [h.remove temp h.failDelete]) fa
    let e := h.exit temp (!m.2) (lastFs fa m.1)
    ⟨fs :: a.1 ++ m.1 ++ e.1, m.2 && result fa, !m.2⟩
  else ⟨fs :: a.1, false, true⟩

/-- `SortingTask::Run` (sortingtask.cpp lines 28-50) and the end of the task. -/
def Host.sorting (h : Host) (t : TaskSet) (sort : Bytes → List Bytes × Option Bytes) (fs : Fs) : TaskEnd :=
  h.task (h.temp t.dest) [h.checkSource t, h.checkDestination t, h.createDestinationTemp t]
    [checkDiff t, h.readConfig t, h.createWriter, h.sortFile t sort, h.copyTemp t (h.temp t.dest)] (fun _ => true) fs

/-- What validating makes of the contents of a file: `none` is an exception, else whether all values are valid and it is an MDF 4 file
(`MdfTask::ValidateAllValues`, mdftask.cpp lines 305-376), and the file with the result added (`AddValidationResult`, 378-421). -/
structure Validator where
  check : Bytes → Option (Bool × Bool)
  add : Bytes → List Bytes × Option Bytes

def Validator.valid (v : Validator) (fs : Fs) (n : Nat) : Bool := ((fs.file n).bind v.check).any (·.1)

/-- The middle of `ValidatingTask::Run` (validatingtask.cpp lines 21-25). -/
def Host.validate (h : Host) (t : TaskSet) (v : Validator) : TaskStep := fun fs =>
  match fs.file (h.resolve (h.temp t.source)) with
  | none => ([], false)
  | some b =>
    match v.check b with
    | none => ([], false)
    | some (valid, mdf4) =>
      if valid ∧ mdf4 then runSteps [h.writeTemp (h.temp t.source) (v.add b), h.copyTemp t (h.temp t.source)] fs else ([], true)

/-- `ValidatingTask::Run` (validatingtask.cpp lines 17-35) and the end of the task. -/
def Host.validating (h : Host) (t : TaskSet) (v : Validator) (fs : Fs) : TaskEnd :=
  h.task (h.temp t.source) [h.checkSource t, h.createSourceTemp t] [h.validate t v]
    (fun fs => v.valid fs (h.resolve (h.temp t.source))) fs

end Mdf
