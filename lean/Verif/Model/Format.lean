import Verif.Model.NumText
import Verif.Model.HdComment
import Verif.Model.Channel

/-!
# Values as text

`MdfHelper::FormatDouble` (`/repo/mdflib/src/mdfhelper.cpp` lines 228-293), by which numbers are shown, and the texts of values in a record:
`IChannel::SetChannelValue` and `GetChannelValue` with a `std::string` (`/repo/mdflib/src/ichannel.cpp`).

A finite `double` is the rational number it stands for; there is no negative zero, infinity or NaN here.
-/

namespace Mdf

/-- `%.df`, for `d` above 0: `d` digits after the point, the nearest number, ties to even.  mdfhelper.cpp lines 250-254. -/
def fixText (d : Nat) (q : Rat) : Bytes :=
  let n := (roundEven (ratAbs q * ((10 ^ d : Nat) : Rat))).toNat
  (if q < 0 then [0x2D#8] else []) ++ (decText (n / 10 ^ d) ++ 0x2E#8 :: padText d (n % 10 ^ d))

/-- The letter of the exponent. -/
def upE (c : Byte) : Byte := if c = 0x65#8 then 0x45#8 else c

/-- `%G`: as `%g`, with a large `E`.  mdfhelper.cpp line 261. -/
def generalUpper (q : Rat) : Bytes := (generalText q).map upE

/-- The text before it is checked for its length.  The integral part of a `double` is a `double`.  mdfhelper.cpp lines 240-255. -/
def formatStart (v : Rat) (d : Nat) (fixed : Bool) : Bytes :=
  if v = (truncInt v : Rat) ∧ fixed = false then intText (truncInt v)
  else if d = 0 then intText (dblRound (v + 1 / 2)).floor
  else fixText d v

/-- Zeros are added up to `d` digits after the point.  mdfhelper.cpp lines 276-280. -/
def fillZeros (d : Nat) (s : Bytes) : Bytes := s ++ List.replicate (d - ((s.dropWhile (· != 0x2E#8)).length - 1)) 0x30#8

/-- A point at the end is dropped.  mdfhelper.cpp lines 284-286. -/
def dropPoint (s : Bytes) : Bytes := if s.getLast? = some 0x2E#8 then s.dropLast else s

/-- Zeros behind the point are dropped or added, but not with an exponent.  mdfhelper.cpp lines 266-286. -/
def formatZeros (d : Nat) (fixed : Bool) (s : Bytes) : Bytes :=
  dropPoint (if 0x2E#8 ∈ s ∧ 0x45#8 ∉ s then (if fixed then fillZeros d s else dropZeros s) else s)

/-- The text is replaced if it is too long.  mdfhelper.cpp lines 256-264. -/
def formatLong (v : Rat) (d : Nat) (s : Bytes) : Bytes := if s.length > 6 + d then generalUpper v else s

/-- `FormatDouble`; `none` if the cast to `int64_t` is undefined (line 241).  mdfhelper.cpp lines 228-293. -/
def formatDouble (v : Rat) (decimals : Nat) (fixed : Bool) (unit : Bytes) : Option Bytes :=
  let d := min decimals 20
  let fixed := fixed && d != 0
  if -(2 ^ 63) - 1 < v ∧ v < 2 ^ 63 then
    let s := formatZeros d fixed (formatLong v d (formatStart v d fixed))
    some (if unit = [] then s else s ++ 0x20#8 :: unit)
  else none

/-! ## Texts in a record -/

/-- What comes of `SetChannelValue`: an exception, undefined behaviour, or the buffer. -/
inductive SetEnd where
  | threw
  | ub
  | done (buf : Bytes)
deriving DecidableEq, Repr

def SetEnd.ofUb : Option Bytes → SetEnd
  | none => .ub
  | some b => .done b

/-- `SetChannelValue` with a `std::string`, for integers, texts and bytes (the text channels are 8 bits wide here).  ichannel.cpp lines
762-813. -/
def Chan.setStr (c : Chan) (t : Bytes) (valid : Bool) (i : Nat) (buf : Bytes) : SetEnd :=
  match c.dataType with
  | .unsignedLe => match stoullText t with | none => .threw | some v => .ofUb (c.setUnsignedLe (BitVec.ofNat 64 v) valid i buf)
  | .unsignedBe => match stoullText t with | none => .threw | some v => .ofUb (c.setUnsignedBe (BitVec.ofNat 64 v) valid i buf)
  | .signedLe => match stollText t with | none => .threw | some v => .ofUb (c.setSignedLe (BitVec.ofInt 64 v) valid i buf)
  | .signedBe => match stollText t with | none => .threw | some v => .ofUb (c.setSignedBe (BitVec.ofInt 64 v) valid i buf)
  | .byteArray => .ofUb (c.setByteArray t valid buf)
  | _ => .done (c.setValid false i buf)

/-- A byte as two hexadecimal digits.  ichannel.cpp lines 711-714. -/
def hexByte (b : Byte) : Bytes :=
  let d : Nat → Byte := fun n => BitVec.ofNat 8 (if n < 10 then 48 + n else 55 + n)
  [d (b.toNat / 16), d (b.toNat % 16)]

/-- `GetChannelValue` with a `std::string`, for integers and bytes; the validity bit is `Chan.getValid`.  ichannel.cpp lines 661-760. -/
def Chan.getStr (c : Chan) (record : Bytes) (i : Nat) : Res Bytes :=
  match c.dataType with
  | .unsignedLe | .unsignedBe => match c.getUnsigned record i with | .ok v => .ok (decText v.toNat) | .fail => .fail | .ub => .ub
  | .signedLe | .signedBe => match c.getSigned record i with | .ok v => .ok (intText v.toInt) | .fail => .fail | .ub => .ub
  | .byteArray => match c.getByteArray record with | .ok l => .ok (l.flatMap hexByte) | .fail => .fail | .ub => .ub
  | _ => .fail

end Mdf
