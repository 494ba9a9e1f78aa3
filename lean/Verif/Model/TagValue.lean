import Verif.Model.HdComment
import Verif.Model.NumText

/-!
# Values and data types of tags

Models `ETag::Value` (/repo/include/mdf/etag.h lines 206-228, /repo/mdflib/src/etag.cpp lines 13-32) and `ETag::DataType` (etag.cpp lines
34-87).  The value of a tag is a text; `Value(v)` writes `v` by `operator<<`, `Value<T>()` reads it by `operator>>`.

Simplifications: the C locale; a `double` is finite, and is the rational number it stands for; `operator>>` reads a `double` as `std::stod`
does, they differ for texts with an incomplete exponent, which `operator<<` does not write.
-/

namespace Mdf

/-! ## Setting -/

/-- `Value (v)` of an integer type of 16 bits or more. -/
def tagSetInt (v : Int) : Bytes := intText v

/-- `Value (v)` of `char`, `int8_t` or `uint8_t`: a character. -/
def tagSetByte (v : Byte) : Bytes := [v]

/-- `Value (v)` of a `double`. -/
def tagSetDouble (q : Rat) : Bytes := generalText q

/-- `Value (v)` of a `bool`.  etag.cpp lines 13-16. -/
def tagSetBool (b : Bool) : Bytes := if b then wTrue else wFalse

/-! ## Reading -/

/-- The digits of a number and whether it is negative; `none` without digits. -/
def tagNumber (s : Bytes) : Option (Bool × Nat) :=
  let d := (numSign s).2.takeWhile isDig
  if d = [] then none else some ((numSign s).1, digits d)

/-- `Value<T>()` of a signed integer type with the bounds `lo` and `hi`: 0 if there are no digits, the bound if the number is outside. -/
def tagGetInt (lo hi : Int) (s : Bytes) : Int :=
  match tagNumber s with
  | none => 0
  | some (neg, n) => if neg then max lo (-(n : Int)) else min hi n

/-- `Value<T>()` of an unsigned integer type with the bound `hi`: a negative number is taken modulo `hi + 1`, one outside is the bound. -/
def tagGetNat (hi : Nat) (s : Bytes) : Nat :=
  match tagNumber s with
  | none => 0
  | some (neg, n) => if hi < n then hi else if neg then (hi + 1 - n) % (hi + 1) else n

/-- `Value<T>()` of `char`, `int8_t` or `uint8_t`: the first character that is no blank. -/
def tagGetByte (s : Bytes) : Byte := (lTrim s).headD 0#8

/-- `Value<double>()`. -/
def tagGetDouble (s : Bytes) : Rat := (stodText s).getD 0

/-- `Value<bool>()`.  etag.cpp lines 18-25. -/
def tagGetBool (s : Bytes) : Bool :=
  match s with
  | [] => false
  | c :: _ => c == 0x54#8 || c == 0x74#8 || c == 0x59#8 || c == 0x79#8 || c == 0x31#8

/-! ## Data types -/

/-- `ETag::DataType (type)`.  etag.cpp lines 34-67; the numbers are those of etag.h lines 27-36. -/
def tagTypeWord (t : Byte) : Bytes :=
  if t = 1#8 then wDecimal
  else if t = 2#8 then wInteger
  else if t = 3#8 then wFloat
  else if t = 4#8 then wBoolean
  else if t = 5#8 then wDate
  else if t = 6#8 then wTime
  else if t = 7#8 then wDateTime
  else wString

/-- `ETag::DataType()`.  etag.cpp lines 69-87. -/
def tagTypeOf (s : Bytes) : Byte :=
  if sameWord s wDecimal then 1#8
  else if sameWord s wInteger then 2#8
  else if sameWord s wFloat then 3#8
  else if sameWord s wBoolean then 4#8
  else if sameWord s wDate then 5#8
  else if sameWord s wTime then 6#8
  else if sameWord s wDateTime then 7#8
  else 0#8

end Mdf
