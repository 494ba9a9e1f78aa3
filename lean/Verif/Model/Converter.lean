import Verif.Model.InitFile

/-!
# The file of a converter

Models `MdfConverter` (/repo/mdflib/src/mdfconverter.cpp), which keeps its file open from `InitMeasurement` to `FinalizeMeasurement`, and
what `ConverterSampleQueue` needs of the file (/repo/mdflib/src/convertersamplequeue.cpp lines 44-48, 164-168), over the files of
`InitFile`.

Simplified: what is written is in the file at once; the program has it in the buffer of the stream until that is full or closed.
-/

namespace Mdf

/-- `if (IsOpen()) Close();` (mdfconverter.cpp lines 28-30, 36-38). -/
def IwSt.closeOpen (s : IwSt) : IwSt := if s.isOpen then s.close else s

/-- `MdfConverter::InitMeasurement` (mdfconverter.cpp lines 33-75); `prep` is the result of `PrepareForWriting`, `ok` tells whether the file
can be opened, `wok` is the result of `Write`. -/
def IwSt.convInit (s : IwSt) (prep ok wok : Bool) (w : Bytes → Bytes) : IwSt × Bool :=
  let s := s.closeOpen
  if !s.made then (s, false)
  else if !prep then (s, false)
  else
    let s := s.open (if s.state = .create then .trunc else .update) ok
    if !s.isOpen then (s, false)
    else ({ s.write w with state := .other }, wok)

/-- `ConverterSampleQueue::SaveQueue`: the file should be open, without it nothing is saved (convertersamplequeue.cpp lines 44-48). -/
def IwSt.convSave (s : IwSt) (w : Bytes → Bytes) : IwSt := if s.isOpen then s.write w else s

/-- `MdfConverter::FinalizeMeasurement` (mdfconverter.cpp lines 77-98); `wok` is the result of both writings. -/
def IwSt.convFinalize (s : IwSt) (wok : Bool) (w : Bytes → Bytes) : IwSt × Bool :=
  if !s.made then (s, false)
  else if !s.isOpen then (s, false)
  else ({ (s.write w).close with state := .other }, wok)

/-- The calls to a converter. -/
inductive CvCall
  | initName (n : Nat) (r : IwRead)
  | initMeasurement (prep ok wok : Bool) (w : Bytes → Bytes)
  | start
  | save (w : Bytes → Bytes)
  | finalize (wok : Bool) (w : Bytes → Bytes)
  | /-- `~MdfConverter` (mdfconverter.cpp lines 26-31) -/ destroy

/-- The state after a call. -/
def IwSt.convCall (s : IwSt) : CvCall → IwSt
  | .initName n r => (s.initName n r).1
  | .initMeasurement p o wok w => (s.convInit p o wok w).1
  | .start => { s with state := .other }
  | .save w => s.convSave w
  | .finalize wok w => (s.convFinalize wok w).1
  | .destroy => s.closeOpen

/-- All calls, in order. -/
def IwSt.convRun (s : IwSt) (cs : List CvCall) : IwSt := cs.foldl IwSt.convCall s

end Mdf
