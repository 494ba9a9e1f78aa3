import Verif.Model.CommentApi
import Verif.Model.Double

/-!
# Numbers as text

The functions of the C++ library with which `/repo/mdflib/src/mdnumber.cpp` turns numbers into text and back: `std::to_string(double)`,
`operator<<` of a `double`, `snprintf` with `0x%llX`, `std::stod` and `operator>>`, `std::stoull` with base 16.

A finite `double` is the rational number it stands for, as in `Model/Double.lean`; its exponent is not limited.  Left out: infinity and
NaN, and the hexadecimal form that `std::stod` knows too (the texts read here were written by `operator<<`).
-/

namespace Mdf

/-- The power of ten with an integer exponent. -/
def pow10 : Int → Rat
  | .ofNat n => ((10 ^ n : Nat) : Rat)
  | .negSucc n => 1 / ((10 ^ (n + 1) : Nat) : Rat)

/-- The absolute value. -/
def ratAbs (q : Rat) : Rat := if 0 ≤ q then q else -q

/-- A number in exactly `w` digits, with zeros in front. -/
def padText : Nat → Nat → Bytes
  | 0, _ => []
  | w + 1, n => padText w (n / 10) ++ [BitVec.ofNat 8 (48 + n % 10)]

/-- `std::to_string(double)`, that is `%f`: six digits after the point, the nearest number, ties to even.  Used in mdnumber.cpp lines 14-18,
mdnumber.h lines 91-99. -/
def fixedText (q : Rat) : Bytes :=
  let n := (roundEven (ratAbs q * 1000000)).toNat
  (if q < 0 then [0x2D#8] else []) ++ decText (n / 1000000) ++ 0x2E#8 :: padText 6 (n % 1000000)

/-- The number of decimal digits. -/
def decLen (n : Nat) : Nat := (Nat.toDigits 10 n).length

/-- The exponent of the leading decimal digit of a number above 0. -/
def decExp (q : Rat) : Int :=
  let k : Int := (decLen q.num.natAbs : Int) - decLen q.den
  if pow10 k ≤ ratAbs q then k else k - 1

/-- Six significant digits and the exponent of the first: the nearest number, ties to even.  For a number that is not 0. -/
def sixDigits (q : Rat) : Nat × Int :=
  let m := (roundEven (ratAbs q * pow10 (5 - decExp q))).toNat
  if m = 1000000 then (100000, decExp q + 1) else (m, decExp q)

/-- The zeros at the end are dropped. -/
def dropZeros (s : Bytes) : Bytes := (s.reverse.dropWhile (· == 0x30#8)).reverse

/-- The digits after the point, without zeros at the end, and no point if nothing is left. -/
def fracText (w n : Nat) : Bytes := if dropZeros (padText w n) = [] then [] else 0x2E#8 :: dropZeros (padText w n)

/-- The exponent: a sign and at least two digits. -/
def expText (x : Int) : Bytes :=
  0x65#8 :: (if x < 0 then 0x2D#8 else 0x2B#8) :: if x.natAbs < 10 then 0x30#8 :: decText x.natAbs else decText x.natAbs

/-- `operator<<` of a `double`, that is `%g`: six significant digits, with an exponent if it is below -4 or above 5.  Used in
mdnumber.cpp lines 159-187. -/
def generalText (q : Rat) : Bytes :=
  if q = 0 then [0x30#8]
  else
    let (m, x) := sixDigits q
    (if q < 0 then [0x2D#8] else []) ++
    if -4 ≤ x ∧ x < 6 then decText (m / 10 ^ (5 - x).toNat) ++ fracText (5 - x).toNat (m % 10 ^ (5 - x).toNat)
    else decText (m / 100000) ++ fracText 5 (m % 100000) ++ expText x

/-- The digits after a point, and what follows them. -/
def fracPart (s : Bytes) : Bytes × Bytes :=
  match s with
  | c :: t => if c = 0x2E#8 then (t.takeWhile isDig, t.dropWhile isDig) else ([], s)
  | [] => ([], [])

/-- The exponent behind the digits. -/
def expPart (s : Bytes) : Int :=
  match s with
  | c :: t =>
    if c = 0x65#8 ∨ c = 0x45#8 then
      match t with
      | d :: r => if d = 0x2D#8 then -(digits (r.takeWhile isDig) : Int) else if d = 0x2B#8 then digits (r.takeWhile isDig) else digits (t.takeWhile isDig)
      | [] => 0
    else 0
  | [] => 0

/-- The exact value of a number text: sign, digits, point and digits, exponent; `none` if there is no digit. -/
def exactText (s : Bytes) : Option Rat :=
  let r := (numSign s).2
  let ip := r.takeWhile isDig
  let fp := (fracPart (r.dropWhile isDig)).1
  let e := expPart (fracPart (r.dropWhile isDig)).2
  if ip = [] ∧ fp = [] then none
  else
    let v := (digits (ip ++ fp) : Rat) * pow10 (e - fp.length)
    some (if (numSign s).1 then -v else v)

/-- `std::stod`, and `operator>>` of a `double`: the nearest `double`.  Used in mdnumber.h lines 104-110, mdnumber.cpp lines 194-253. -/
def stodText (s : Bytes) : Option Rat := (exactText s).map dblRound

/-- "0x" -/
def hexPrefix : Bytes := [0x30#8, 0x78#8]

/-- A number of 64 bits in hexadecimal (with `0x`) or decimal digits; `none` is an exception.  mdnumber.cpp lines 137-148 and 210-221. -/
def hexOrDec (s : Bytes) : Option Nat := if s.length > 2 ∧ s.take 2 = hexPrefix then stoullHex (s.drop 2) else stoullText s

end Mdf
