/-!
Times of samples as `double`.

Models the arithmetic on times of /repo/mdflib/src/samplequeue.cpp (`RecalculateTime`, lines 389-399; `RecalculateTimeMaster`,
lines 436-446), /repo/mdflib/src/ichannel.cpp (`GetTimestamp`, lines 898-960; `SetTimestamp`, lines 962-1071) and
/repo/mdflib/src/samplerecordobserver.cpp (`OnSample`, lines 36-46).

A finite `double` is the rational number it stands for.  `dblRound` is the rounding of the exact result of an operation: to the nearest
number with 53 significant bits, ties to the even one (IEEE 754, the default rounding mode).  Simplification: the exponent is not
limited, so there is no overflow, no underflow and no negative zero; the values below are between 10^-9 and 2^64.
-/

namespace Mdf

/-- The power of two with an integer exponent. -/
def pow2 : Int → Rat
  | .ofNat n => ((2 ^ n : Nat) : Rat)
  | .negSucc n => 1 / ((2 ^ (n + 1) : Nat) : Rat)

/-- The nearest integer, ties to the even one. -/
def roundEven (q : Rat) : Int :=
  if q - (q.floor : Rat) < 1 / 2 then q.floor
  else if 1 / 2 < q - (q.floor : Rat) then q.floor + 1
  else if q.floor % 2 = 0 then q.floor else q.floor + 1

/-- The exponent of the leading bit of a number that is not 0. -/
def binExp (q : Rat) : Int :=
  let k : Int := (q.num.natAbs.log2 : Int) - (q.den.log2 : Int)
  if pow2 k ≤ (if 0 ≤ q then q else -q) then k else k - 1

/-- Rounding to a `double`. -/
def dblRound (q : Rat) : Rat :=
  if q = 0 then 0 else (roundEven (q * pow2 (52 - binExp q)) : Rat) * pow2 (binExp q - 52)

/-- `static_cast<int64_t>` of a `double` in range: the digits after the point are dropped. -/
def truncInt (q : Rat) : Int := if 0 ≤ q then q.floor else -((-q).floor)

/-- `static_cast<double>(rel_ns) / 1'000'000'000.0` (samplequeue.cpp lines 395-396): the relative time in seconds. -/
def relSeconds (ns : Int) : Rat := dblRound (dblRound (ns : Rat) / 1000000000)

/-- `static_cast<int64_t>(rel_time * 1'000'000'000)` (samplerecordobserver.cpp line 43): the relative time in nanoseconds. -/
def relNanos (s : Rat) : Int := truncInt (dblRound (s * 1000000000))

/-- A master channel with a linear conversion: `GetTimestamp` (ichannel.cpp lines 923-927) with the conversion of
ichannelconversion.cpp (`value * p1 + p0`), both operations rounded. -/
def counterSeconds (p0 p1 : Rat) (v : Nat) : Rat := dblRound (dblRound (dblRound (v : Rat) * p1) + p0)

/-- `SetTimestamp` of an unsigned integer master with a linear conversion (ichannel.cpp lines 966-1010): subtraction, division and the
cast, with negative times replaced by 0. -/
def secondsCounter (p0 p1 : Rat) (s : Rat) : Nat :=
  let c := dblRound (dblRound (s - p0) / p1)
  (truncInt (if c < 0 then 0 else c)).toNat

end Mdf
