import Verif.Model.Bits

/-!
# The file of a writer

Models which file `MdfWriter::Init`, `InitMeasurement`, `FinalizeMeasurement` and the saving of samples open, and how
(/repo/mdflib/src/mdfwriter.cpp, `OpenMdfFile` in /repo/mdflib/src/mdfblock.cpp lines 316-355).

What is written is not modelled here: every writing is a function from the bytes of a file to its bytes after it, which is given with the call.  What
the file system does is given with the call, too.
-/

namespace Mdf

/-- The states of `WriteState` that decide how a file is opened: `Create`, or one of the others. -/
inductive IwState | create | other
deriving DecidableEq, Repr

/-- `file_`: nothing, a `std::filebuf` that is closed or has a file open, or another stream of the caller. -/
inductive IwBuf
  | none
  | file (openOn : Option Nat)
  | memory
deriving DecidableEq, Repr

/-- How a file is opened: `in`, `in | out`, or `out | trunc`. -/
inductive IwMode | read | update | trunc
deriving DecidableEq, Repr

/-- The writer and the files; the names of files are numbers, and the empty name is `none`.  include/mdf/mdfwriter.h lines 405-415. -/
structure IwSt where
  disk : Nat → Option Bytes
  stream : Bytes := []             -- what the stream of the caller holds
  name : Option Nat := Option.none -- `filename_`
  buf : IwBuf := .none             -- `file_`
  state : IwState := .create       -- `write_state_`
  made : Bool := false             -- `mdf_file_`

/-- The content of one file is replaced. -/
def IwSt.put (s : IwSt) (n : Nat) (b : Bytes) : IwSt := { s with disk := fun k => if k = n then some b else s.disk k }

/-- `MdfWriter::Open` and `OpenMdfFile`: a file buffer is closed and opened on `filename_`, whatever it was open on; other streams and a writer
without a name are left alone.  `ok` says whether one of the tries succeeds.  mdfwriter.cpp lines 119-127; mdfblock.cpp lines 316-355. -/
def IwSt.open (s : IwSt) (mode : IwMode) (ok : Bool) : IwSt :=
  match s.buf, s.name with
  | .file _, some n =>
    if ok && (mode == .trunc || (s.disk n).isSome) then
      { (if mode = .trunc then s.put n [] else s) with buf := .file (some n) }
    else { s with buf := .file Option.none }
  | _, _ => s

/-- `MdfWriter::IsOpen`.  mdfwriter.cpp lines 129-143. -/
def IwSt.isOpen (s : IwSt) : Bool :=
  match s.buf with
  | .none => false
  | .memory => true
  | .file o => o.isSome

/-- `MdfWriter::Close`.  mdfwriter.cpp lines 145-169. -/
def IwSt.close (s : IwSt) : IwSt :=
  match s.buf, s.name with
  | .file _, some _ => { s with buf := .file Option.none }
  | _, _ => s

/-- Writing through `*file_`. -/
def IwSt.write (s : IwSt) (w : Bytes → Bytes) : IwSt :=
  match s.buf with
  | .none => s
  | .memory => { s with stream := w s.stream }
  | .file Option.none => s
  | .file (some n) => match s.disk n with
    | Option.none => s
    | some b => s.put n (w b)

/-- What happens while an existing file is read: it cannot be looked for or opened, reading throws an exception, or it is read. -/
inductive IwRead | noStat | noOpen | throws | reads
deriving DecidableEq, Repr

/-- `MdfWriter::Init` with a name (not empty).  mdfwriter.cpp lines 175-221. -/
def IwSt.initName (s : IwSt) (n : Nat) (r : IwRead) : IwSt × Bool :=
  let s := { s with made := true, name := some n, buf := .file Option.none }
  match r with
  | .noStat => ({ s with state := .create }, false)
  | r =>
    if (s.disk n).isSome then
      let s := s.open .read (r != .noOpen)
      if s.isOpen then
        if r = .throws then ({ s.close with state := .other }, false) else ({ s.close with state := .other }, true)
      else ({ s with state := .create }, false)
    else ({ s with state := .create }, true)

/-- `MdfWriter::Init` with a stream of the caller: `filename_` is not changed.  mdfwriter.cpp lines 228-240. -/
def IwSt.initStream (s : IwSt) (buf : IwBuf) (content : Bytes) : IwSt × Bool :=
  ({ s with made := true, buf := buf, stream := content, state := .create }, true)

/-- `MdfWriter::InitMeasurement`; `prep` is the result of `PrepareForWriting`.  mdfwriter.cpp lines 242-277. -/
def IwSt.initMeasurement (s : IwSt) (prep ok : Bool) (w : Bytes → Bytes) : IwSt × Bool :=
  if !s.made then (s, false)
  else if !prep then (s, false)
  else
    let s := s.open (if s.state = .create then .trunc else .update) ok
    if !s.isOpen then (s, false)
    else ({ (s.write w).close with state := .other }, true)

/-- `MdfWriter::FinalizeMeasurement`.  mdfwriter.cpp lines 332-352. -/
def IwSt.finalize (s : IwSt) (ok : Bool) (w : Bytes → Bytes) : IwSt × Bool :=
  if !s.made then (s, false)
  else
    let s := s.open .update ok
    if !s.isOpen then (s, false)
    else ({ (s.write w).close with state := .other }, true)

/-- The calls.  `start` is any call that only sets another state; `save` is the thread storing samples (samplequeue.cpp lines 64-90), which opens the
file as `FinalizeMeasurement` does, but keeps the state.  `create` is another program that makes a file that is not there. -/
inductive IwCall
  | initName (n : Nat) (r : IwRead)
  | initStream (buf : IwBuf) (content : Bytes)
  | initMeasurement (prep ok : Bool) (w : Bytes → Bytes)
  | start
  | save (ok : Bool) (w : Bytes → Bytes)
  | finalize (ok : Bool) (w : Bytes → Bytes)
  | create (n : Nat) (b : Bytes)

/-- The state after a call. -/
def IwSt.call (s : IwSt) : IwCall → IwSt
  | .initName n r => (s.initName n r).1
  | .initStream b c => (s.initStream b c).1
  | .initMeasurement p o w => (s.initMeasurement p o w).1
  | .start => { s with state := .other }
  | .save ok w =>
    let t := s.open .update ok
    if t.isOpen then (t.write w).close else t
  | .finalize ok w => (s.finalize ok w).1
  | .create n b => if (s.disk n).isSome then s else s.put n b

/-- All calls, in order. -/
def IwSt.run (s : IwSt) (cs : List IwCall) : IwSt := cs.foldl IwSt.call s

end Mdf
