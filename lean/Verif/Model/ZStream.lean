import Verif.Model.Transpose

/-!
Model of the loops around zlib in /repo/mdflib/src/zlibutil.cpp and of the compressed blocks in /repo/mdflib/src/dz4block.cpp.

zlib itself is a pair of objects with a state each: a call takes the bytes available (`avail_in`) and the room for bytes (`avail_out`) and
tells how many bytes it has used and which it has put out.  What is known of such calls is in Verif/Spec/ZStream.lean.  `deflateInit` and
`inflateInit` succeed, and `sputn` writes all it is given.
-/

namespace Mdf

deriving instance DecidableEq for Dz

/-- The return values as far as the loops distinguish them; `error` is one of `Z_STREAM_ERROR`, `Z_NEED_DICT`, `Z_DATA_ERROR`,
`Z_MEM_ERROR`. -/
inductive ZRet where
  | ok
  | bufError
  | streamEnd
  | error
deriving DecidableEq, Repr

structure ZCall (σ : Type) where
  state : σ
  used : Nat
  out : Bytes
  ret : ZRet

/-- `inflate(&o, Z_NO_FLUSH)`. -/
structure ZInf where
  σ : Type
  init : σ
  call : σ → Bytes → Nat → ZCall σ

/-- `deflate(&s, flush)`; the last argument is `flush == Z_FINISH`. -/
structure ZDef where
  σ : Type
  init : σ
  call : σ → Bytes → Nat → Bool → ZCall σ

/-- The inner loop of the `Inflate` functions (zlibutil.cpp lines 162-188, 228-254, 319-345): until the buffer of `chunk` bytes is not
filled.  Gives the state, the bytes put out and the last return value; `none` if it has not ended after `fuel` calls. -/
def ZInf.inner (z : ZInf) (chunk : Nat) : (fuel : Nat) → z.σ → Bytes → Option (z.σ × Bytes × ZRet)
  | 0, _, _ => none
  | fuel + 1, s, input =>
    let r := z.call s input chunk
    if r.ret = .error then some (r.state, [], .error)
    else if r.out.length = chunk then (z.inner chunk fuel r.state (input.drop r.used)).map fun q => (q.1, r.out ++ q.2.1, q.2.2)
    else some (r.state, r.out, r.ret)

/-- How many bytes are read at once (lines 213-216). -/
def zWant (chunk : Nat) : Option Nat → Nat
  | none => chunk
  | some n => min chunk n

/-- The outer loop of `Inflate(in, out)` (lines 152-193) and `Inflate(in, out, nof_bytes)` (lines 206-259): `left` bytes may still be
read, `none` is no limit.  Gives the bytes put out and what the function returns. -/
def ZInf.outer (z : ZInf) (chunk fuel : Nat) : (rounds : Nat) → z.σ → (src : Bytes) → (left : Option Nat) → ZRet → Option (Bytes × Bool)
  | 0, _, _, _, _ => none
  | rounds + 1, s, src, left, ret =>
    let want := zWant chunk left
    if src.take want = [] then some ([], ret == .streamEnd)
    else
      match z.inner chunk fuel s (src.take want) with
      | none => none
      | some (s', out, ret') =>
        if ret' = .error then some (out, false)
        else if ret' = .streamEnd then some (out, true)
        else (z.outer chunk fuel rounds s' (src.drop want) (left.map (· - want)) ret').map fun q => (out ++ q.1, q.2)

/-- `Inflate(in, out)` (lines 141-194) and `Inflate(in, out, nof_bytes)` (lines 196-260) with `kZlibChunk` (line 25). -/
def ZInf.stream (z : ZInf) (fuel : Nat) (src : Bytes) (left : Option Nat) : Option (Bytes × Bool) :=
  z.outer 16384 fuel fuel z.init src left .ok

/-- `Inflate(buf_in, to_file)` (lines 304-350). -/
def ZInf.toFile (z : ZInf) (fuel : Nat) (src : Bytes) : Option (Bytes × Bool) :=
  if src = [] then some ([], false)
  else (z.inner 16384 fuel z.init src).map fun q => (q.2.1, q.2.2 == .streamEnd)

/-- `Inflate(buf_in, buf_out)` (lines 262-302) with a buffer of `size` zeros: the buffer and what is returned.  The buffer gets shorter if
it is not filled; it keeps its size if there was an error. -/
def ZInf.buffer (z : ZInf) (src : Bytes) (size : Nat) : Bytes × Bool :=
  if src = [] ∨ size = 0 then (List.replicate size 0, false)
  else
    let r := z.call z.init src size
    if r.ret = .error then (r.out ++ List.replicate (size - r.out.length) 0, false)
    else (r.out, decide (r.used = src.length) && r.ret == .streamEnd)

/-- The inner loop of `Deflate(in, out)` (lines 48-63). -/
def ZDef.inner (z : ZDef) (chunk : Nat) (finish : Bool) : (fuel : Nat) → z.σ → Bytes → Option (z.σ × Bytes × Bytes × ZRet)
  | 0, _, _ => none
  | fuel + 1, s, input =>
    let r := z.call s input chunk finish
    if r.ret = .error then some (r.state, [], input, .error)
    else if r.out.length = chunk then
      (z.inner chunk finish fuel r.state (input.drop r.used)).map fun q => (q.1, r.out ++ q.2.1, q.2.2)
    else some (r.state, r.out, input.drop r.used, r.ret)

/-- The outer loop of `Deflate(in, out)` (lines 40-76). -/
def ZDef.outer (z : ZDef) (chunk fuel : Nat) : (rounds : Nat) → z.σ → (src : Bytes) → Option (Bytes × Bool)
  | 0, _, _ => none
  | rounds + 1, s, src =>
    let finish := decide ((src.take chunk).length < chunk)
    match z.inner chunk finish fuel s (src.take chunk) with
    | none => none
    | some (s', out, rest, ret) =>
      if ret = .error then some (out, false)
      else if rest ≠ [] then some (out, false)
      else if finish then some (out, ret == .streamEnd)
      else (z.outer chunk fuel rounds s' (src.drop chunk)).map fun q => (out ++ q.1, q.2)

/-- `Deflate(in, out)` (lines 30-77). -/
def ZDef.stream (z : ZDef) (fuel : Nat) (src : Bytes) : Option (Bytes × Bool) := z.outer 16384 fuel fuel z.init src

/-- `Deflate(buf_in, buf_out)` (lines 108-139) with an empty `buf_out`: it gets 100 bytes more than the data. -/
def ZDef.buffer (z : ZDef) (data : Bytes) : Bytes × Bool :=
  if data = [] then (List.replicate 100 0, false)
  else
    let r := z.call z.init data (data.length + 100) true
    if r.ret = .error then (r.out ++ List.replicate (data.length + 100 - r.out.length) 0, false) else (r.out, r.ret == .streamEnd)

/-- `Dz4Block::Data` (dz4block.cpp lines 158-201): the block, and what is returned.  The callers do not look at it (cn4block.cpp lines
1219, 1240, 1254; writer4samplequeue.cpp line 230; convertersamplequeue.cpp lines 208, 287). -/
def ZDef.makeDz (z : ZDef) (type parameter : Nat) (data : Bytes) : Option (Dz × Bool) :=
  let t := if type = 1 then (if parameter = 0 then 0 else 1) else 0
  let p := if type = 1 then parameter else 0
  if data = [] then some (⟨t, p, 0, []⟩, true)
  else if t = 1 then (transpose data p).map fun temp => (⟨t, p, data.length, (z.buffer temp).1⟩, (z.buffer temp).2)
  else some (⟨t, p, data.length, (z.buffer data).1⟩, (z.buffer data).2)

/-- `Dz4Block::CopyDataToBuffer` (dz4block.cpp lines 115-156): the bytes appended to the buffer.  `orig_data_length_` bytes are copied
from what was decompressed, whatever was returned: `none` (undefined) if there are fewer. -/
def ZInf.dzBuffer (z : ZInf) (d : Dz) : Option Bytes :=
  if d.origLength = 0 ∨ d.data.length = 0 then some []
  else if d.type = 0 then
    let b := (z.buffer d.data d.origLength).1
    if b.length < d.origLength then none else some b
  else if d.type = 1 then
    (invTranspose (z.buffer d.data d.origLength).1 d.parameter).bind fun b => if b.length < d.origLength then none else some b
  else some []

/-- `Dz4Block::CopyDataToFile` (dz4block.cpp lines 80-113): the bytes written and the number returned; `rest` are the bytes in the file
after the block's data. -/
def ZInf.dzFile (z : ZInf) (fuel : Nat) (d : Dz) (rest : Bytes) : Option (Bytes × Nat) :=
  if d.origLength = 0 ∨ d.data.length = 0 then some ([], 0)
  else if d.type = 0 then
    (z.stream fuel (d.data ++ rest) (some d.data.length)).map fun q => (q.1, if q.2 then d.origLength else 0)
  else if d.type = 1 then
    (invTranspose (z.buffer d.data d.origLength).1 d.parameter).map fun b =>
      (b, if (z.buffer d.data d.origLength).2 then d.origLength else 0)
  else some ([], 0)

end Mdf
