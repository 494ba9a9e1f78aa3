import Verif.Model.Channel

/-!
The MD5 checksum of a file.

Models /repo/mdflib/src/cryptoutil.cpp.  A 32-bit number is a `BitVec 32`.  Accesses outside an array are `none`.
Simplifications: the two forms of the macros `SET`/`GET` (lines 35-44) both give the little-endian 32-bit number at
`ptr[4 n]` (the first form on little-endian machines only) and are modelled by it; clearing the context at the end
(line 243) is left out.
-/

namespace Mdf

/-- `F`, `G`, `H`, `I` (lines 26-29). -/
inductive Md5Fun where
  | f | g | h | i
  deriving DecidableEq

/-- The macros `F`, `G`, `H`, `I` (lines 26-29). -/
def Md5Fun.eval : Md5Fun → BitVec 32 → BitVec 32 → BitVec 32 → BitVec 32
  | .f, x, y, z => z ^^^ (x &&& (y ^^^ z))
  | .g, x, y, z => y ^^^ (z &&& (x ^^^ y))
  | .h, x, y, z => x ^^^ y ^^^ z
  | .i, x, y, z => y ^^^ (x ||| ~~~z)

/-- The local variables `a`, `b`, `c`, `d` of `body` (line 60). -/
inductive Md5Reg where
  | a | b | c | d
  deriving DecidableEq

/-- The values of the four variables. -/
structure Md5Words where
  a : BitVec 32
  b : BitVec 32
  c : BitVec 32
  d : BitVec 32
  deriving DecidableEq

/-- The value of one of the four variables. -/
def Md5Words.get (w : Md5Words) : Md5Reg → BitVec 32
  | .a => w.a
  | .b => w.b
  | .c => w.c
  | .d => w.d

/-- Assignment to one of the four variables. -/
def Md5Words.set (w : Md5Words) (v : BitVec 32) : Md5Reg → Md5Words
  | .a => { w with a := v }
  | .b => { w with b := v }
  | .c => { w with c := v }
  | .d => { w with d := v }

/-- One use of the macro `STEP(f, a, b, c, d, x, t, s)`, where `x` is `SET(k)` or `GET(k)`. -/
structure Md5Row where
  fn : Md5Fun
  r1 : Md5Reg
  r2 : Md5Reg
  r3 : Md5Reg
  r4 : Md5Reg
  k : Nat
  t : BitVec 32
  s : Nat
  deriving DecidableEq

/-- `SET(n)`, `GET(n)` (lines 35-44): the number at the bytes 4 n .. 4 n + 3 of the block. -/
def md5Get (block : Bytes) (n : Nat) : BitVec 32 := BitVec.ofNat 32 (leNat ((block.drop (4 * n)).take 4))

/-- The macro `STEP` (lines 30-33). -/
def md5Step (block : Bytes) (w : Md5Words) (r : Md5Row) : Md5Words :=
  let a := w.get r.r1 + (r.fn.eval (w.get r.r2) (w.get r.r3) (w.get r.r4) + md5Get block r.k + r.t)
  let a := (a <<< r.s) ||| ((a &&& 0xffffffff#32) >>> (32 - r.s))
  w.set (a + w.get r.r2) r.r1

/-- The 64 steps (lines 76-139). -/
def md5Rows : List Md5Row :=
  [
   ⟨.f, .a, .b, .c, .d, 0, 0xd76aa478#32, 7⟩,
   ⟨.f, .d, .a, .b, .c, 1, 0xe8c7b756#32, 12⟩,
   ⟨.f, .c, .d, .a, .b, 2, 0x242070db#32, 17⟩,
   ⟨.f, .b, .c, .d, .a, 3, 0xc1bdceee#32, 22⟩,
   ⟨.f, .a, .b, .c, .d, 4, 0xf57c0faf#32, 7⟩,
   ⟨.f, .d, .a, .b, .c, 5, 0x4787c62a#32, 12⟩,
   ⟨.f, .c, .d, .a, .b, 6, 0xa8304613#32, 17⟩,
   ⟨.f, .b, .c, .d, .a, 7, 0xfd469501#32, 22⟩,
   ⟨.f, .a, .b, .c, .d, 8, 0x698098d8#32, 7⟩,
   ⟨.f, .d, .a, .b, .c, 9, 0x8b44f7af#32, 12⟩,
   ⟨.f, .c, .d, .a, .b, 10, 0xffff5bb1#32, 17⟩,
   ⟨.f, .b, .c, .d, .a, 11, 0x895cd7be#32, 22⟩,
   ⟨.f, .a, .b, .c, .d, 12, 0x6b901122#32, 7⟩,
   ⟨.f, .d, .a, .b, .c, 13, 0xfd987193#32, 12⟩,
   ⟨.f, .c, .d, .a, .b, 14, 0xa679438e#32, 17⟩,
   ⟨.f, .b, .c, .d, .a, 15, 0x49b40821#32, 22⟩,
   ⟨.g, .a, .b, .c, .d, 1, 0xf61e2562#32, 5⟩,
   ⟨.g, .d, .a, .b, .c, 6, 0xc040b340#32, 9⟩,
   ⟨.g, .c, .d, .a, .b, 11, 0x265e5a51#32, 14⟩,
   ⟨.g, .b, .c, .d, .a, 0, 0xe9b6c7aa#32, 20⟩,
   ⟨.g, .a, .b, .c, .d, 5, 0xd62f105d#32, 5⟩,
   ⟨.g, .d, .a, .b, .c, 10, 0x02441453#32, 9⟩,
   ⟨.g, .c, .d, .a, .b, 15, 0xd8a1e681#32, 14⟩,
   ⟨.g, .b, .c, .d, .a, 4, 0xe7d3fbc8#32, 20⟩,
   ⟨.g, .a, .b, .c, .d, 9, 0x21e1cde6#32, 5⟩,
   ⟨.g, .d, .a, .b, .c, 14, 0xc33707d6#32, 9⟩,
   ⟨.g, .c, .d, .a, .b, 3, 0xf4d50d87#32, 14⟩,
   ⟨.g, .b, .c, .d, .a, 8, 0x455a14ed#32, 20⟩,
   ⟨.g, .a, .b, .c, .d, 13, 0xa9e3e905#32, 5⟩,
   ⟨.g, .d, .a, .b, .c, 2, 0xfcefa3f8#32, 9⟩,
   ⟨.g, .c, .d, .a, .b, 7, 0x676f02d9#32, 14⟩,
   ⟨.g, .b, .c, .d, .a, 12, 0x8d2a4c8a#32, 20⟩,
   ⟨.h, .a, .b, .c, .d, 5, 0xfffa3942#32, 4⟩,
   ⟨.h, .d, .a, .b, .c, 8, 0x8771f681#32, 11⟩,
   ⟨.h, .c, .d, .a, .b, 11, 0x6d9d6122#32, 16⟩,
   ⟨.h, .b, .c, .d, .a, 14, 0xfde5380c#32, 23⟩,
   ⟨.h, .a, .b, .c, .d, 1, 0xa4beea44#32, 4⟩,
   ⟨.h, .d, .a, .b, .c, 4, 0x4bdecfa9#32, 11⟩,
   ⟨.h, .c, .d, .a, .b, 7, 0xf6bb4b60#32, 16⟩,
   ⟨.h, .b, .c, .d, .a, 10, 0xbebfbc70#32, 23⟩,
   ⟨.h, .a, .b, .c, .d, 13, 0x289b7ec6#32, 4⟩,
   ⟨.h, .d, .a, .b, .c, 0, 0xeaa127fa#32, 11⟩,
   ⟨.h, .c, .d, .a, .b, 3, 0xd4ef3085#32, 16⟩,
   ⟨.h, .b, .c, .d, .a, 6, 0x04881d05#32, 23⟩,
   ⟨.h, .a, .b, .c, .d, 9, 0xd9d4d039#32, 4⟩,
   ⟨.h, .d, .a, .b, .c, 12, 0xe6db99e5#32, 11⟩,
   ⟨.h, .c, .d, .a, .b, 15, 0x1fa27cf8#32, 16⟩,
   ⟨.h, .b, .c, .d, .a, 2, 0xc4ac5665#32, 23⟩,
   ⟨.i, .a, .b, .c, .d, 0, 0xf4292244#32, 6⟩,
   ⟨.i, .d, .a, .b, .c, 7, 0x432aff97#32, 10⟩,
   ⟨.i, .c, .d, .a, .b, 14, 0xab9423a7#32, 15⟩,
   ⟨.i, .b, .c, .d, .a, 5, 0xfc93a039#32, 21⟩,
   ⟨.i, .a, .b, .c, .d, 12, 0x655b59c3#32, 6⟩,
   ⟨.i, .d, .a, .b, .c, 3, 0x8f0ccc92#32, 10⟩,
   ⟨.i, .c, .d, .a, .b, 10, 0xffeff47d#32, 15⟩,
   ⟨.i, .b, .c, .d, .a, 1, 0x85845dd1#32, 21⟩,
   ⟨.i, .a, .b, .c, .d, 8, 0x6fa87e4f#32, 6⟩,
   ⟨.i, .d, .a, .b, .c, 15, 0xfe2ce6e0#32, 10⟩,
   ⟨.i, .c, .d, .a, .b, 6, 0xa3014314#32, 15⟩,
   ⟨.i, .b, .c, .d, .a, 13, 0x4e0811a1#32, 21⟩,
   ⟨.i, .a, .b, .c, .d, 4, 0xf7537e82#32, 6⟩,
   ⟨.i, .d, .a, .b, .c, 11, 0xbd3af235#32, 10⟩,
   ⟨.i, .c, .d, .a, .b, 2, 0x2ad7d2bb#32, 15⟩,
   ⟨.i, .b, .c, .d, .a, 9, 0xeb86d391#32, 21⟩]

/-- One turn of the loop of `body` (lines 70-145). -/
def md5Turn (w : Md5Words) (block : Bytes) : Md5Words :=
  let v := md5Rows.foldl (md5Step block) w
  ⟨v.a + w.a, v.b + w.b, v.c + w.c, v.d + w.d⟩

/-- `MD5_CTX` (lines 47-52); `block` is not needed. -/
structure Md5Ctx where
  lo : BitVec 32
  hi : BitVec 32
  w : Md5Words
  buffer : Bytes
  deriving DecidableEq

/-- `body` (lines 58-155) with `size = 64 * n`, 0 < n: the loop of lines 70-147 is run n times, each time over the next 64
bytes.  `none`: bytes outside `data` are read. -/
def md5Body (data : Bytes) : (n : Nat) → Md5Words → Option Md5Words
  | 0, w => some w
  | n + 1, w => if data.length < 64 then none else md5Body (data.drop 64) n (md5Turn w (data.take 64))

/-- `memcpy(&buffer[at], data, size)`. -/
def copyAt (buffer : Bytes) (i : Nat) (data : Bytes) : Option Bytes :=
  if i + data.length ≤ buffer.length then some (buffer.take i ++ data ++ buffer.drop (i + data.length)) else none

/-- `MD5_Init` (lines 157-165) on a cleared context (line 263). -/
def md5Init : Md5Ctx :=
  ⟨0, 0, ⟨0x67452301#32, 0xefcdab89#32, 0x98badcfe#32, 0x10325476#32⟩, List.replicate 64 0⟩

/-- `MD5_Update` (lines 183-195): the part after a full buffer has been processed. -/
def md5Bulk (c : Md5Ctx) (data : Bytes) : Option Md5Ctx :=
  if 64 ≤ data.length then do
    let w ← md5Body data (data.length / 64) c.w
    let rest := data.drop (data.length / 64 * 64)
    let b ← copyAt c.buffer 0 rest
    some { c with w := w, buffer := b }
  else do
    let b ← copyAt c.buffer 0 data
    some { c with buffer := b }

/-- `MD5_Update` (lines 167-195). -/
def md5Update (c : Md5Ctx) (data : Bytes) : Option Md5Ctx :=
  let lo := BitVec.ofNat 32 ((c.lo.toNat + data.length) % 2 ^ 29)
  let hi := if lo.toNat < c.lo.toNat then c.hi + 1 else c.hi
  let hi := hi + BitVec.ofNat 32 (data.length / 2 ^ 29)
  let used := c.lo.toNat % 64
  let c := { c with lo := lo, hi := hi }
  if used ≠ 0 then
    let free := 64 - used
    if data.length < free then do
      let b ← copyAt c.buffer used data
      some { c with buffer := b }
    else do
      let b ← copyAt c.buffer used (data.take free)
      let w ← md5Body b 1 c.w
      md5Bulk { c with buffer := b, w := w } (data.drop free)
  else md5Bulk c data

/-- The four bytes of a number, lowest first (lines 213-220, 222-237). -/
def md5Bytes (x : BitVec 32) : Bytes :=
  [x.setWidth 8, (x >>> 8).setWidth 8, (x >>> 16).setWidth 8, (x >>> 24).setWidth 8]

/-- `MD5_Final` (lines 197-244): the result. -/
def md5Final (c : Md5Ctx) : Option Bytes := do
  let used := c.lo.toNat % 64
  let b ← copyAt c.buffer used [0x80#8]
  let used := used + 1
  let free := 64 - used
  let (w, b, used, free) ←
    if free < 8 then do
      let b ← copyAt b used (List.replicate free 0#8)
      let w ← md5Body b 1 c.w
      some (w, b, 0, 64)
    else some (c.w, b, used, free)
  let b ← copyAt b used (List.replicate (free - 8) 0#8)
  let b ← copyAt b 56 (md5Bytes (c.lo <<< 3) ++ md5Bytes c.hi)
  let w ← md5Body b 1 w
  some (md5Bytes w.a ++ md5Bytes w.b ++ md5Bytes w.c ++ md5Bytes w.d)

/-- `CreateMd5FileChecksum` (lines 249-290) for a file that can be opened: `reads` are the contents of the buffer after
each `fread` that gives some bytes (lines 265-270). -/
def md5File (reads : List Bytes) : Option Bytes := do
  let c ← reads.foldlM md5Update md5Init
  md5Final c

/-- One upper case hexadecimal digit (`std::hex`, `std::uppercase`). -/
def hexDigit (n : Nat) : Byte := if n < 10 then BitVec.ofNat 8 (48 + n) else BitVec.ofNat 8 (55 + n)

/-- `CreateMd5FileString` (lines 292-303) and `ConvertMd5Buffer` (at4block.cpp lines 59-66): two digits for every byte. -/
def md5String (md5 : Bytes) : Bytes := md5.flatMap fun b => [hexDigit (b.toNat / 16), hexDigit (b.toNat % 16)]

end Mdf
