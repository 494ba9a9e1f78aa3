import Verif.Model.Channel

/-!
The MD5 message digest as RFC 1321 defines it, independent of the program.
-/

namespace Mdf

/-- RFC 1321, 3.1 and 3.2: a byte 0x80, then zeros until the number of bytes is 56 modulo 64, then the number of bits of the
message modulo 2^64 as eight bytes, lowest first. -/
def md5Pad (m : Bytes) : Bytes :=
  m ++ [0x80#8] ++ List.replicate ((64 - (m.length + 9) % 64) % 64) 0#8 ++ leBytes 8 (8 * m.length % 2 ^ 64)

/-- RFC 1321, 3.4: the auxiliary function of step i (0 ≤ i < 64). -/
def rfcFun (i : Nat) (x y z : BitVec 32) : BitVec 32 :=
  match i / 16 with
  | 0 => (x &&& y) ||| (~~~x &&& z)
  | 1 => (x &&& z) ||| (y &&& ~~~z)
  | 2 => x ^^^ y ^^^ z
  | _ => y ^^^ (x ||| ~~~z)

/-- The word of the block used in step i. -/
def rfcIndex (i : Nat) : Nat :=
  match i / 16 with
  | 0 => i
  | 1 => (5 * i + 1) % 16
  | 2 => (3 * i + 5) % 16
  | _ => (7 * i) % 16

/-- The number of bits to rotate in step i. -/
def rfcShift (i : Nat) : Nat :=
  match i / 16, i % 4 with
  | 0, 0 => 7 | 0, 1 => 12 | 0, 2 => 17 | 0, _ => 22
  | 1, 0 => 5 | 1, 1 => 9 | 1, 2 => 14 | 1, _ => 20
  | 2, 0 => 4 | 2, 1 => 11 | 2, 2 => 16 | 2, _ => 23
  | _, 0 => 6 | _, 1 => 10 | _, 2 => 15 | _, _ => 21

/-- The table T: the integer part of 2^32 |sin(i + 1)|. -/
def rfcTable : List (BitVec 32) :=
  [
   0xd76aa478#32, 0xe8c7b756#32, 0x242070db#32, 0xc1bdceee#32, 0xf57c0faf#32, 0x4787c62a#32, 0xa8304613#32,
   0xfd469501#32, 0x698098d8#32, 0x8b44f7af#32, 0xffff5bb1#32, 0x895cd7be#32, 0x6b901122#32, 0xfd987193#32,
   0xa679438e#32, 0x49b40821#32, 0xf61e2562#32, 0xc040b340#32, 0x265e5a51#32, 0xe9b6c7aa#32, 0xd62f105d#32,
   0x02441453#32, 0xd8a1e681#32, 0xe7d3fbc8#32, 0x21e1cde6#32, 0xc33707d6#32, 0xf4d50d87#32, 0x455a14ed#32,
   0xa9e3e905#32, 0xfcefa3f8#32, 0x676f02d9#32, 0x8d2a4c8a#32, 0xfffa3942#32, 0x8771f681#32, 0x6d9d6122#32,
   0xfde5380c#32, 0xa4beea44#32, 0x4bdecfa9#32, 0xf6bb4b60#32, 0xbebfbc70#32, 0x289b7ec6#32, 0xeaa127fa#32,
   0xd4ef3085#32, 0x04881d05#32, 0xd9d4d039#32, 0xe6db99e5#32, 0x1fa27cf8#32, 0xc4ac5665#32, 0xf4292244#32,
   0x432aff97#32, 0xab9423a7#32, 0xfc93a039#32, 0x655b59c3#32, 0x8f0ccc92#32, 0xffeff47d#32, 0x85845dd1#32,
   0x6fa87e4f#32, 0xfe2ce6e0#32, 0xa3014314#32, 0x4e0811a1#32, 0xf7537e82#32, 0xbd3af235#32, 0x2ad7d2bb#32,
   0xeb86d391#32]

/-- Word k of a block of 64 bytes, lowest byte first. -/
def rfcWord (block : Bytes) (k : Nat) : BitVec 32 := BitVec.ofNat 32 (leNat ((block.drop (4 * k)).take 4))

/-- The four words A, B, C, D. -/
structure RfcState where
  a : BitVec 32
  b : BitVec 32
  c : BitVec 32
  d : BitVec 32
  deriving DecidableEq

/-- Step i: A, B, C, D become D, B + ((A + f(B,C,D) + X[k] + T[i]) <<< s), B, C. -/
def rfcStep (block : Bytes) (s : RfcState) (i : Nat) : RfcState :=
  ⟨s.d, s.b + (s.a + rfcFun i s.b s.c s.d + rfcWord block (rfcIndex i) + rfcTable.getD i 0).rotateLeft (rfcShift i), s.b, s.c⟩

/-- The processing of one block of 64 bytes. -/
def rfcBlock (s : RfcState) (block : Bytes) : RfcState :=
  let t := (List.range 64).foldl (rfcStep block) s
  ⟨s.a + t.a, s.b + t.b, s.c + t.c, s.d + t.d⟩

/-- The first n blocks of 64 bytes of the text, processed in order. -/
def rfcBlocks (text : Bytes) (n : Nat) : RfcState :=
  (List.range n).foldl (fun s i => rfcBlock s ((text.drop (64 * i)).take 64))
    ⟨0x67452301#32, 0xefcdab89#32, 0x98badcfe#32, 0x10325476#32⟩

/-- The digest: the words A, B, C, D after all blocks of the padded message, lowest byte first. -/
def md5Digest (m : Bytes) : Bytes :=
  let s := rfcBlocks (md5Pad m) ((md5Pad m).length / 64)
  leBytes 4 s.a.toNat ++ leBytes 4 s.b.toNat ++ leBytes 4 s.c.toNat ++ leBytes 4 s.d.toNat

end Mdf
