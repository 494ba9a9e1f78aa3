import Verif.Model.Bits

/-!
# Text encodings

Models /repo/mdflib/src/cutf.cpp, the conversions of `MdfHelper` (/repo/mdflib/src/mdfhelper.cpp lines 307-329) and the text
decoding of `Cn4Block::GetTextValue` (/repo/mdflib/src/cn4block.cpp lines 676-750).

Code points and 16-bit units are natural numbers, UTF-8 texts lists of bytes.  `none` as the result of a conversion without check
is undefined behaviour: the code reads or writes beyond its buffer.
-/

namespace Mdf

/-- `(uint8_t)(x)` -/
def u8 (x : Nat) : Byte := BitVec.ofNat 8 x

/-- `cutf_codepoint_length` (lines 41-51). -/
def cpLength (cp : Nat) : Nat := if cp < 0x80 then 1 else if cp < 0x800 then 2 else if cp < 0x10000 then 3 else 4

/-- `cutf_sequence_length` (lines 53-66). -/
def seqLength (lead : Byte) : Nat :=
  let l := lead.toNat
  if l < 0x80 then 1 else if l >>> 5 = 0x6 then 2 else if l >>> 4 = 0xe then 3 else if l >>> 3 = 0x1e then 4 else 0

/-- `CUTF_IS_TRAIL` (line 22). -/
def isTrail (b : Byte) : Bool := b.toNat >>> 6 == 0x2

/-- `cutf_append` (lines 206-239) if the buffer has room.  (`*remain` is never decreased, so room is not checked in fact; the
callers in mdflib allocate the exact size.) -/
def cutfAppend (cp : Nat) : Bytes :=
  if cp < 0x80 then [u8 cp]
  else if cp < 0x800 then [u8 (cp >>> 6 ||| 0xc0), u8 (cp &&& 0x3f ||| 0x80)]
  else if cp < 0x10000 then [u8 (cp >>> 12 ||| 0xe0), u8 (cp >>> 6 &&& 0x3f ||| 0x80), u8 (cp &&& 0x3f ||| 0x80)]
  else [u8 (cp >>> 18 ||| 0xf0), u8 (cp >>> 12 &&& 0x3f ||| 0x80), u8 (cp >>> 6 &&& 0x3f ||| 0x80), u8 (cp &&& 0x3f ||| 0x80)]

/-- The code point of a sequence of two, three or four bytes (lines 99-136 and 251-268). -/
def cp2 (a b : Byte) : Nat := ((a.toNat <<< 6) &&& 0x7ff) + (b.toNat &&& 0x3f)
def cp3 (a b c : Byte) : Nat := ((a.toNat <<< 12) &&& 0xffff) + ((b.toNat <<< 6) &&& 0xfff) + (c.toNat &&& 0x3f)
def cp4 (a b c d : Byte) : Nat :=
  ((a.toNat <<< 18) &&& 0x1fffff) + ((b.toNat <<< 12) &&& 0x3ffff) + ((c.toNat <<< 6) &&& 0xfff) + (d.toNat &&& 0x3f)

/-- `CUTF_IS_CODE_POINT_VALID` (line 26). -/
def cpValid (cp : Nat) : Bool := cp ≤ 0x10ffff && !(0xd800 ≤ cp && cp ≤ 0xdfff)

/-- `cutf_is_overlong_sequence` (lines 68-78). -/
def overlong (cp length : Nat) : Bool :=
  if cp < 0x80 then length != 1 else if cp < 0x800 then length != 2 else if cp < 0x10000 then length != 3 else false

/-- The end of `cutf_get_next` (lines 156-169). -/
def checked (cp length : Nat) (rest : Bytes) : Option (Nat × Bytes) :=
  if cpValid cp && !overlong cp length then some (cp, rest) else none

/-- `cutf_get_next` (lines 139-172): the next code point, checked, and the rest of the text; `none` is one of the errors. -/
def getNext : Bytes → Option (Nat × Bytes)
  | [] => none
  | a :: r =>
    match seqLength a, r with
    | 1, r => checked a.toNat 1 r
    | 2, b :: r => if isTrail b then checked (cp2 a b) 2 r else none
    | 3, b :: c :: r => if isTrail b && isTrail c then checked (cp3 a b c) 3 r else none
    | 4, b :: c :: d :: r => if isTrail b && isTrail c && isTrail d then checked (cp4 a b c d) 4 r else none
    | _, _ => none

/-- `cutf_find_invalid` and `cutf_is_valid` (lines 184-198).  `fuel` is at least the number of bytes: each round takes one. -/
def isValidLoop : Nat → Bytes → Bool
  | _, [] => true
  | 0, _ => false
  | fuel + 1, bs => match getNext bs with
    | none => false
    | some (_, r) => isValidLoop fuel r

def cutfIsValid (bs : Bytes) : Bool := isValidLoop bs.length bs

/-- `cutf_next` (lines 241-273), without checks.  The text is followed by a zero; reading behind it is undefined.  The result is the
code point and the number of bytes the iterator moves. -/
def cutfNext (bs : Bytes) : Option (Nat × Nat) :=
  let s := bs ++ [0#8]
  match s with
  | [] => none
  | a :: r =>
    match seqLength a, r with
    | 2, b :: _ => some (cp2 a b, 2)
    | 3, b :: c :: _ => some (cp3 a b c, 3)
    | 4, b :: c :: d :: _ => some (cp4 a b c d, 4)
    | 1, _ => some (a.toNat, 1)
    | 0, _ => some (a.toNat, 1)
    | _, _ => none

/-- The loop of `cutf_8to32` (lines 358-369) and `cutf_distance` (lines 287-294). -/
def decodeLoop : Nat → Bytes → Option (List Nat)
  | _, [] => some []
  | 0, _ => none
  | fuel + 1, bs => (cutfNext bs).bind fun r => (decodeLoop fuel (bs.drop r.2)).map (r.1 :: ·)

/-- A C string ends at the first zero. -/
def cstr (bs : Bytes) : Bytes := bs.takeWhile (· != 0#8)
def wcstr (ws : List Nat) : List Nat := ws.takeWhile (· != 0)

/-- `MdfHelper::Utf8ToUtf16` with a 32-bit `wchar_t`: `utf8towide` (lines 472-483), `utf8towchar` (lines 412-437). -/
def utf8ToWide32 (bs : Bytes) : Option (List Nat) := decodeLoop (cstr bs).length (cstr bs)

/-- `MdfHelper::Utf16ToUtf8` with a 32-bit `wchar_t`: `widetoutf8` (lines 485-496) and `cutf_32to8` (lines 342-356). -/
def wideToUtf8_32 (ws : List Nat) : Bytes := (wcstr ws).flatMap cutfAppend

/-- The loop of `cutf_16to8` (lines 298-311).  The text is followed by a zero.  A lead surrogate at the end moves the iterator past
the end: the loop does not stop there. -/
def enc16to8 : List Nat → Option Bytes
  | [] => some []
  | w :: r =>
    if 0xd800 ≤ w && w ≤ 0xdbff then
      match r with
      | [] => none
      | t :: r' => (enc16to8 r').map (cutfAppend ((w <<< 10 + t + (2 ^ 32 + 0x10000 - 0xd800 <<< 10 - 0xdc00)) % 2 ^ 32) ++ ·)
    else (enc16to8 r).map (cutfAppend w ++ ·)

/-- `MdfHelper::Utf16ToUtf8` with a 16-bit `wchar_t`. -/
def wideToUtf8_16 (ws : List Nat) : Option Bytes := enc16to8 (wcstr ws)

/-- The units written by `cutf_8to16` for a code point (lines 327-332). -/
def units16 (cp : Nat) : List Nat :=
  if cp > 0xffff then [(cp >>> 10 + (0xd800 - 0x10000 >>> 10)) % 2 ^ 16, ((cp &&& 0x3ff) + 0xdc00) % 2 ^ 16] else [cp % 2 ^ 16]

/-- `MdfHelper::Utf8ToUtf16` with a 16-bit `wchar_t`.  `utf8towide` gives the result the size `cutf_distance`, the number of code
points; `cutf_8to16` writes all units.  Writing behind the string is undefined. -/
def utf8ToWide16 (bs : Bytes) : Option (List Nat) :=
  (decodeLoop (cstr bs).length (cstr bs)).bind fun cps =>
    if cps.length < (cps.flatMap units16).length then none else some (cps.flatMap units16)

/-- `MdfHelper::Latin1ToUtf8` (mdfhelper.cpp lines 307-319). -/
def latin1ToUtf8 (bs : Bytes) : Bytes :=
  bs.flatMap fun b => if b.toNat < 0x80 then [b] else [u8 (0xC0 ||| b.toNat >>> 6), u8 (0x80 ||| (b.toNat &&& 0x3f))]

/-- The loops over the value of a text channel with UTF-16 (cn4block.cpp lines 715-723 and 732-740): two bytes each, until zero. -/
def utf16Units (num : Bytes → Nat) : Bytes → List Nat
  | a :: b :: r => if num [a, b] = 0 then [] else num [a, b] :: utf16Units num r
  | _ => []

/-- The text of a UTF-16 channel; `num` is the byte order, `leNat` or `beNat`. -/
def utf16Text32 (num : Bytes → Nat) (value : Bytes) : Bytes := wideToUtf8_32 (utf16Units num value)
def utf16Text16 (num : Bytes → Nat) (value : Bytes) : Option Bytes := wideToUtf8_16 (utf16Units num value)

/-- The text of a Latin-1 channel (cn4block.cpp lines 677-694) and of a UTF-8 channel (lines 697-708). -/
def latin1Text (value : Bytes) : Bytes := latin1ToUtf8 (cstr value)
def utf8Text (value : Bytes) : Bytes := cstr value

end Mdf
