import Verif.Model.Bits

/-!
Transposition of records and the contents of compressed (DZ) blocks.

Models /repo/mdflib/src/zlibutil.cpp `Transpose`, `InvTranspose` and /repo/mdflib/src/dz4block.cpp `Data`, `CopyDataToBuffer`,
`CopyDataToFile`.  The compression itself (zlib) is outside the model and given as a pair of functions.
-/

namespace Mdf

/-- `data[to] = temp[from]`; `none` if an index is out of bounds. -/
def copyByte (temp data : Bytes) (to frm : Nat) : Option Bytes :=
  if to < data.length then (temp[frm]?).map fun b => data.set to b else none

/-- `Transpose` (zlibutil.cpp lines 352-367). -/
def transpose (data : Bytes) (recordSize : Nat) : Option Bytes :=
  if recordSize = 0 then some data
  else
    let rows := data.length / recordSize
    (List.range rows).foldlM (fun d row =>
      (List.range recordSize).foldlM (fun d column => copyByte data d (column * rows + row) (row * recordSize + column)) d) data

/-- `InvTranspose` (zlibutil.cpp lines 369-383). -/
def invTranspose (data : Bytes) (recordSize : Nat) : Option Bytes :=
  if recordSize = 0 then some data
  else
    let rows := data.length / recordSize
    (List.range rows).foldlM (fun d row =>
      (List.range recordSize).foldlM (fun d column => copyByte data d (row * recordSize + column) (column * rows + row)) d) data

/-- A DZ block: `type_` (0 deflate, 1 transpose and deflate), `parameter_`, `orig_data_length_` and the compressed bytes
(`data_length_` is their number). -/
structure Dz where
  type : Nat
  parameter : Nat
  origLength : Nat
  data : Bytes

/-- zlib: `deflate` gives the compressed bytes, `inflate size` decompresses into a buffer of `size` bytes. -/
structure Codec where
  deflate : Bytes → Bytes
  inflate : Nat → Bytes → Bytes

/-- `Dz4Block::Data` (dz4block.cpp lines 158-201) for a block with the given type and parameter. -/
def Dz.make (z : Codec) (type parameter : Nat) (data : Bytes) : Option Dz :=
  let t := if type = 1 then (if parameter = 0 then 0 else 1) else 0
  let p := if type = 1 then parameter else 0
  if data = [] then some ⟨t, p, 0, []⟩
  else if t = 1 then (transpose data p).map fun temp => ⟨t, p, data.length, z.deflate temp⟩
  else some ⟨t, p, data.length, z.deflate data⟩

/-- `Dz4Block::CopyDataToBuffer` (dz4block.cpp lines 115-156): the bytes appended to the buffer. `CopyDataToFile` (lines
80-113) gives the same bytes. -/
def Dz.contents (z : Codec) (d : Dz) : Option Bytes :=
  if d.origLength = 0 ∨ d.data.length = 0 then some []
  else if d.type = 0 then some (z.inflate d.origLength d.data)
  else if d.type = 1 then invTranspose (z.inflate d.origLength d.data) d.parameter
  else some []

end Mdf
