import Verif.Model.Vlsd

/-!
Finalizing an unfinalized MDF 4 file.

Models /repo/mdflib/src/mdf4file.cpp `FinalizeFile`, /repo/mdflib/src/hd4block.cpp lines 549-565 (only the last data group is
finalized), /repo/mdflib/src/dg4block.cpp `FinalizeDtBlocks`, `FinalizeCgAndVlsdBlocks`, /repo/mdflib/src/dt4block.cpp
`UpdateDataSize` and /repo/mdflib/src/cg4block.cpp `UpdateCycleCounter`, `UpdateVlsdSize`.

The file is the list of bytes from the data position of the last DT block to the end of the file.  Steps beyond the end of the
file are allowed, as for a file buffer.
-/

namespace Mdf

/-- `Dt4Block::DataSize` after `UpdateDataSize` (dt4block.cpp lines 33-44): the block reaches to the end of the file, unless it
is at the end.  `size` is the stored size. -/
def updateDataSize (size : Nat) (file : Bytes) : Nat := if file.length > 0 then file.length else size

/-- The `counter_list` map (dg4block.cpp lines 733-742): `emplace` keeps the first of several groups with the same record id. -/
def counterList : (acc : List RGroup) → List RGroup → List RGroup
  | acc, [] => acc
  | acc, g :: gs => counterList (if acc.any (·.id = g.id) then acc else acc ++ [g]) gs

/-- The group of a record id (dg4block.cpp lines 753-754). -/
def counterFind (l : List RGroup) (id : Nat) : Option RGroup :=
  if l.length = 1 then l.head? else l.find? (·.id = id)

/-- `CgCounter`, by record id. -/
structure Counter where
  samples : Nat
  bytes : Nat
deriving DecidableEq, Repr

/-- `MdfBlock::ReadNumber` (mdfblock.h lines 378-402) for a little endian file; `none` is the exception. -/
def readNumber (n : Nat) (file : Bytes) : Option (Nat × Bytes) :=
  if file.length < n then none else some (leNat (file.take n), file.drop n)

/-- `Dg4Block::ReadRecordId` (dg4block.cpp lines 548-584): id, bytes read, rest. -/
def finRecordId (idSize : Nat) (file : Bytes) : Option (Nat × Nat × Bytes) :=
  if idSize = 1 ∨ idSize = 2 ∨ idSize = 4 ∨ idSize = 8 then (readNumber idSize file).map fun r => (r.1, idSize, r.2)
  else some (0, 0, file)

/-- The bytes of a record (dg4block.cpp lines 766-780): `count_bytes` and the rest of the file. -/
def finSkip (g : RGroup) (file : Bytes) : Option (Nat × Bytes) :=
  if g.vlsd then (readNumber 4 file).map fun r => (4 + r.1, r.2.drop r.1)
  else some (g.size, file.drop g.size)

/-- The outcome of the counting loop. -/
inductive FinRes (α : Type) where
  | /-- an exception leaves the function, nothing is updated -/ throw
  | /-- the loop does not end -/ hang
  | ok (a : α)
deriving DecidableEq, Repr

def FinRes.map {α β : Type} (f : α → β) : FinRes α → FinRes β
  | .throw => .throw
  | .hang => .hang
  | .ok a => .ok (f a)

/-- Add a record to the counters (dg4block.cpp lines 781-782). -/
def addCounter (cs : Nat → Counter) (id n : Nat) : Nat → Counter :=
  fun i => if i = id then ⟨(cs i).samples + 1, (cs i).bytes + n⟩ else cs i

/-- The counting loop (dg4block.cpp lines 745-784).  `left` is `DataSize() - count`.  If nothing is consumed the state of the
loop does not change and it never ends. -/
def finLoop (idSize : Nat) (groups : List RGroup) (left : Nat) (file : Bytes) (cs : Nat → Counter) : FinRes (Nat → Counter) :=
  if left = 0 then .ok cs
  else
    match finRecordId idSize file with
    | none => .throw
    | some (id, n, rest) =>
      match counterFind groups id with
      | none => .ok cs
      | some g =>
        match finSkip g rest with
        | none => .throw
        | some (m, rest) =>
          if n + m = 0 then .hang
          else finLoop idSize groups (left - (n + m)) rest (addCounter cs g.id m)
termination_by left
decreasing_by omega

/-- `UpdateCycleCounter` and `UpdateVlsdSize` (cg4block.cpp lines 403-417). -/
def updateCg (g : VlsdCg) (vlsd updateCg updateVlsd : Bool) (c : Counter) : VlsdCg :=
  let g := if updateCg then { g with nof := (g.nof + c.samples) % 2 ^ 64 } else g
  if updateVlsd ∧ vlsd then
    let size := (g.hi * 2 ^ 32 + g.lo + c.bytes) % 2 ^ 64
    { g with lo := size % 2 ^ 32, hi := size / 2 ^ 32 }
  else g

/-- `FinalizeCgAndVlsdBlocks` (dg4block.cpp lines 712-796) for a data group whose last block is a DT block: the members of the
groups after it.  `st` are the members read from the file. -/
def finalizeCg (idSize : Nat) (groups : List RGroup) (size : Nat) (file : Bytes) (st : Nat → VlsdCg) (cg vlsd : Bool) :
    FinRes (Nat → VlsdCg) :=
  let l := counterList [] groups
  if l = [] then .ok st
  else
    (finLoop idSize l size file (fun _ => ⟨0, 0⟩)).map fun cs id =>
      match l.find? (·.id = id) with
      | some g => updateCg (st id) g.vlsd cg vlsd (cs id)
      | none => st id

/-- `Mdf4File::FinalizeFile` (mdf4file.cpp lines 203-257) for a file with the given standard flags: the result and the members
of the groups of the last data group.  `size` is the stored size of its DT block. -/
def finalizeFile (flags : Nat) (idSize : Nat) (groups : List RGroup) (size : Nat) (file : Bytes) (st : Nat → VlsdCg) :
    FinRes (Bool × Nat × (Nat → VlsdCg)) :=
  if flags = 0 then .ok (false, size, st)
  else
    let size := if flags.testBit 2 then updateDataSize size file else size
    let updated := !(flags.testBit 4 || flags.testBit 3 || flags.testBit 1)
    if flags.testBit 0 || flags.testBit 5 || flags.testBit 6 then
      (finalizeCg idSize groups size file st (flags.testBit 0) (flags.testBit 5 || flags.testBit 6)).map fun st =>
        (updated, size, st)
    else .ok (updated, size, st)

end Mdf
