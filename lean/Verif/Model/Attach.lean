import Verif.Model.MetaApi
import Verif.Model.Md5

/-!
# Attached files

Models /repo/mdflib/src/at4block.cpp `Write` and `ReadData` and the loop `WriteLink4List` (mdfblock.h lines 448-478) over the
attachments of the header.  The bytes of the block are in Model/Meta (`AtVals.write`, `AtVals.read`).

Simplifications: the file system is a map from names to files that does not change while the attachments are written; a file cannot be
partly read; directories, exceptions of the file system and failing writes are left out.  The text blocks of an attachment (name, type
and comment), which are written before it, only take place in the file and are left out.  zlib is a pair of functions.
-/

namespace Mdf

/-- A file of the file system. -/
structure DiskFile where
  content : Bytes
  /-- the file can be opened -/
  readable : Bool
deriving DecidableEq, Repr

/-- The files that exist. -/
abbrev FileSys := Bytes → Option DiskFile

/-- zlib: the compressed form of some bytes and the bytes of a compressed form (`none`: no complete compressed form). -/
structure Zlib where
  deflate : Bytes → Bytes
  inflate : Bytes → Option Bytes

/-- Decompressing what was compressed gives the bytes; no bytes at all are not a complete compressed form. -/
def Zlib.Ok (z : Zlib) : Prop := (∀ b, z.inflate (z.deflate b) = some b) ∧ z.inflate [] = none

/-- An `At4Block` object: position in the file (0: not written), `link_list_[0]` (`none`: the list is empty), values and name. -/
structure AtObj where
  pos : Nat
  next : Option Nat
  name : Bytes
  vals : AtVals
deriving DecidableEq, Repr

/-- `At4Flags::kUsingMd5`. -/
def AtVals.usesMd5 (v : AtVals) : Bool := hasFlag v.flags 4#16

/-- `Deflate(filename, buf_out)` (zlibutil.cpp lines 79-106) and `Deflate(buf_in, buf_out)` (lines 108-139) with an empty `buf_out`:
the buffer gets the size of the file, at least 100 bytes; `deflate` is called once and must have come to the end of the stream. -/
def atDeflate (z : Zlib) (f : DiskFile) : Option Bytes :=
  if !f.readable then none
  else if f.content = [] then none
  else if (z.deflate f.content).length ≤ max 100 f.content.length then some (z.deflate f.content)
  else none

/-- `FileToBuffer` (at4block.cpp lines 68-98). -/
def atLoad (f : DiskFile) : Option Bytes :=
  if f.content = [] then some [] else if f.readable then some f.content else none

/-- `CreateMd5FileChecksum` on the attached file and the flag (at4block.cpp lines 174-176); a file that cannot be opened leaves a
checksum of zeros (cryptoutil.cpp lines 251-253). -/
def AtVals.addMd5 (v : AtVals) (f : DiskFile) : AtVals :=
  if f.readable then
    match md5File [f.content] with
    | some d => { v with md5 := d, flags := v.flags ||| 4#16 }
    | none => v
  else { v with md5 := if v.md5.length = 16 then v.md5 else v.md5.take 16 ++ putZeros (16 - v.md5.length) }

/-- The first part of `At4Block::Write` (at4block.cpp lines 167-201): the values and whether the block will be written.  When it
returns 0 the data is dropped here: `nof_bytes_` stays 0 and the content of `data_buffer_` is never written. -/
def AtVals.prepare (v : AtVals) (z : Zlib) (fs : FileSys) (name : Bytes) : AtVals × Bool :=
  if v.originalSize = 0 then
    match fs name with
    | none => (v, true)
    | some f =>
      let v := { v.addMd5 f with originalSize := BitVec.ofNat 64 f.content.length }
      if v.isEmbedded && v.isCompressed then
        match atDeflate z f with
        | some d => ({ v with data := d }, true)
        | none => ({ v with data := [] }, false)
      else if v.isEmbedded then
        match atLoad f with
        | some d => ({ v with data := d }, true)
        | none => ({ v with data := [] }, false)
      else (v, true)
  else (v, true)

/-- `At4Block::Write` (at4block.cpp lines 162-229) at the end `free` of the file: the object and the new end of the file. -/
def AtObj.write (a : AtObj) (z : Zlib) (fs : FileSys) (free : Nat) : AtObj × Nat :=
  if 0 < a.pos then (a, free)
  else
    let p := a.vals.prepare z fs a.name
    if p.2 then ({ a with pos := free, next := some (a.next.getD 0), vals := p.1 }, free + 96 + p.1.data.length)
    else ({ a with vals := p.1 }, free)

/-- The outcome of the loop. -/
structure AtPass where
  /-- the link set in the block before the list, if it is set -/
  link : Option Nat
  objs : List AtObj
  free : Nat
  /-- `UpdateLink` has thrown -/
  thrown : Bool
deriving DecidableEq, Repr

/-- A link to the block at `link` is set in an object. -/
def AtObj.setNext (a : AtObj) : Option Nat → AtObj
  | none => a
  | some l => { a with next := some l }

/-- `WriteLink4List` (mdfblock.h lines 448-478) with the option `DoNotUpdateWrittenBlock`.  `prev` is the `next` of the block before,
`none` if that is the header.  `UpdateLink` (mdfblock.cpp lines 731-755) of the block before throws if its list of links is empty. -/
def atPass (z : Zlib) (fs : FileSys) : (free : Nat) → (prev : Option (Option Nat)) → List AtObj → AtPass
  | free, _, [] => ⟨none, [], free, false⟩
  | free, prev, a :: rest =>
    if 0 < a.pos then
      let r := atPass z fs free (some a.next) rest
      ⟨none, a.setNext r.link :: r.objs, r.free, r.thrown⟩
    else
      let w := a.write z fs free
      if prev = some none then ⟨none, w.1 :: rest, w.2, true⟩
      else
        let r := atPass z fs w.2 (some w.1.next) rest
        ⟨some w.1.pos, w.1.setNext r.link :: r.objs, r.free, r.thrown⟩

/-- The header and its attachments. -/
structure AtHead where
  /-- link `kIndexAt` of the header -/
  first : Nat
  objs : List AtObj
  free : Nat
deriving DecidableEq, Repr

/-- `Hd4Block::Write`, the attachments (hd4block.cpp lines 534-535): the new state and whether an exception was thrown, so that
`Mdf4File::Write` and with it `InitMeasurement` or `FinalizeMeasurement` returns false and nothing after the attachments is written. -/
def AtHead.write (h : AtHead) (z : Zlib) (fs : FileSys) : AtHead × Bool :=
  let r := atPass z fs h.free none h.objs
  (⟨r.link.getD h.first, r.objs, r.free⟩, r.thrown)

/-- A new attachment (`CreateAttachment`, at4block.h lines 68-83) with a name and settings. -/
def AtObj.new (name : Bytes) (ops : List AtOp) : AtObj := ⟨0, none, name, ops.foldl AtVals.apply ⟨0, 0, [], 0, []⟩⟩

/-- `CreateAttachment` (hd4block.cpp lines 396-401). -/
def AtHead.add (h : AtHead) (a : AtObj) : AtHead := { h with objs := h.objs ++ [a] }

/-- `ReadLink4List` over the blocks in the file (mdfblock.h lines 424-436): the links lead from block to block. -/
def atFollow (objs : List AtObj) : (fuel : Nat) → (link : Nat) → List AtObj
  | 0, _ => []
  | fuel + 1, link =>
    if link = 0 then []
    else match objs.find? fun a => a.pos == link with
      | none => []
      | some a => a :: atFollow objs fuel (a.next.getD 0)

/-- The attachments a reader of the file finds. -/
def AtHead.listed (h : AtHead) : List AtObj := atFollow (h.objs.filter fun a => 0 < a.pos) (h.objs.length + 1) h.first

/-- `At4Block::ReadData` to a file (at4block.cpp lines 235-272) and `ExportAttachmentData` (mdfreader.cpp lines 476-503): the content of
the new file, `none` if false is returned.  `fs` are the files at that time. -/
def AtObj.exportData (a : AtObj) (z : Zlib) (fs : FileSys) : Option Bytes :=
  let out :=
    if a.vals.isEmbedded then
      if a.vals.isCompressed then (if a.vals.data = [] then none else z.inflate a.vals.data) else some a.vals.data
    else (fs a.name).bind fun f => if f.readable then some f.content else none
  out.bind fun b => if a.vals.usesMd5 then (if md5File [b] = some a.vals.md5 then some b else none) else some b

end Mdf
