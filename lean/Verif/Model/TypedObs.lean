import Verif.Model.Observer
import Verif.Model.Channel
import Verif.Model.Double
import Verif.Model.HdComment

/-!
The values of a channel observer in the type asked for.

Models `CreateChannelObserver` of /repo/mdflib/src/mdfreader.cpp (the type `T` an observer keeps the values in), `IChannel::GetChannelValue<T>`
of /repo/include/mdf/ichannel.h, `GetVirtualSample` of the same file, `GetSampleUnsigned`, `GetSampleSigned` and `GetSampleFloat` of
/repo/mdflib/src/channelobserver.h and `GetChannelValue<V>`, `GetChannelSamples<V>`, `GetChannelValues<V>` of
/repo/include/mdf/ichannelobserver.h and /repo/mdflib/src/ichannelobserver.cpp, for integer and float channels.

A value kept by an observer is an `Option`: `none` is undefined behaviour of the bit loops.  The state of the observer and the events are
those of `Verif.Model.Observer`, the bit loops those of `Verif.Model.Channel`.
-/

namespace Mdf

/-- An integer type of C++: signed or not, and its number of bits. -/
structure IntTy where
  signed : Bool
  bits : Nat
deriving DecidableEq, Repr

/-- `static_cast` of an integer to an integer type: modulo a power of two. -/
def IntTy.cast (t : IntTy) (n : Int) : Int := if t.signed then Int.bmod n (2 ^ t.bits) else n % (2 ^ t.bits : Int)

/-- `uint64_t` -/
def tU64 : IntTy := ⟨false, 64⟩
/-- `int64_t` -/
def tI64 : IntTy := ⟨true, 64⟩

/-- The channel holds unsigned integers. -/
def Chan.isU (c : Chan) : Bool := c.dataType == .unsignedLe || c.dataType == .unsignedBe
/-- The channel holds signed integers. -/
def Chan.isS (c : Chan) : Bool := c.dataType == .signedLe || c.dataType == .signedBe

/-- The type an observer of an integer channel keeps its values in.  mdfreader.cpp lines 99-140: by the number of bytes of the
channel. -/
def Chan.keepTy (c : Chan) : IntTy :=
  if c.isU then
    ⟨false, if c.dataBytes = 1 then 8 else if c.dataBytes = 2 then 16 else if c.dataBytes = 4 then 32 else 64⟩
  else ⟨true, if c.dataBytes ≤ 1 then 8 else if c.dataBytes ≤ 2 then 16 else if c.dataBytes ≤ 4 then 32 else 64⟩

/-- `GetChannelValue<T>` of an integer channel (ichannel.h lines 638-652, 700-704): the validity bit is only looked at if the value could
be read; otherwise the value is 0. -/
def Chan.intIn (c : Chan) (t : IntTy) (record : Bytes) (j : Nat) : Bool × Option Int :=
  match (if c.isU then (c.getUnsigned record j) else c.getSigned record j) with
  | .ub => (false, none)
  | .fail => (false, some (t.cast 0))
  | .ok v => (c.getValid record j, some (t.cast (if c.isU then (v.toNat : Int) else v.toInt)))

/-- The case of `OnSample` by the type of the channel.  channelobserver.h lines 87-163. -/
def Chan.obsKind (c : Chan) : ObsKind :=
  match c.type with
  | .virtualMaster | .virtualData => .virtual
  | .variableLength => .vlsd
  | _ => .fixed

/-- The offset of a value of variable length (channelobserver.h lines 107-110). -/
def Chan.offsetIn (c : Chan) (record : Bytes) (j : Nat) : Bool × Nat :=
  match c.getUnsigned record j with
  | .ok v => (true, v.toNat)
  | _ => (false, 0)

/-- The observer of an integer channel: `CreateChannelObserver` (mdfreader.cpp lines 89-180), the constructor (channelobserver.h lines
38-54). -/
def Chan.intObs (c : Chan) (recordId nof : Nat) : ObsCfg (Option Int) where
  kind := c.obsKind
  recordId := recordId
  vlsdId := 0
  arraySize := c.arraySize
  nof := nof
  readVlsd := true
  default := some 0
  value := c.intIn c.keepTy
  offset := c.offsetIn
  virt := fun sample => some (c.keepTy.cast sample)

/-- `GetSampleUnsigned` for an unsigned channel, `GetSampleSigned` for a signed one (channelobserver.h lines 172-213,
ichannelobserver.h lines 230-245): the value kept as `uint64_t` or `int64_t`. -/
def Chan.wide (c : Chan) (n : Int) : Int := (if c.isU then tU64 else tI64).cast n

/-- `GetChannelValue<V>` of the observer for an integer type `V` (ichannelobserver.h lines 216-245). -/
def Chan.askInt (c : Chan) (v : IntTy) (r : Bool × Option Int) : Bool × Option Int := (r.1, r.2.map fun n => v.cast (c.wide n))

/-- `GetChannelValue<double>` (the same lines). -/
def Chan.askDouble (c : Chan) (r : Bool × Option Int) : Bool × Option Rat := (r.1, r.2.map fun n => dblRound (c.wide n : Rat))

/-- `GetChannelValue<std::string>` (ichannelobserver.cpp lines 113-131): `std::to_string`. -/
def Chan.askText (c : Chan) (r : Bool × Option Int) : Bool × Option Bytes := (r.1, r.2.map fun n => intText (c.wide n))

/-- `GetChannelSamples<V>` (ichannelobserver.h lines 294-306): one value for each sample of the group. -/
def Chan.allInt (c : Chan) (v : IntTy) (recordId nof : Nat) (s : ObsSt (Option Int)) : List (Bool × Option Int) :=
  (List.range nof).map fun i => c.askInt v ((c.intObs recordId nof).get s i 0)

/-- `GetChannelValues<V>` (ichannelobserver.h lines 308-321): the elements of the array of one sample. -/
def Chan.arrayInt (c : Chan) (v : IntTy) (recordId nof : Nat) (s : ObsSt (Option Int)) (i : Nat) : List (Bool × Option Int) :=
  (List.range c.arraySize).map fun j => c.askInt v ((c.intObs recordId nof).get s i j)

/-! ### Floats -/

/-- A floating-point number: the sign and the magnitude, an infinity, or not a number. -/
inductive FltV where
  | fin (neg : Bool) (mag : Rat)
  | inf (neg : Bool)
  | nan
deriving DecidableEq

/-- The number a bit pattern of IEEE 754 stands for, with `e` bits of exponent and `m` bits of mantissa. -/
def ieeeVal (e m : Nat) (bits : Nat) : FltV :=
  let neg := decide (bits / 2 ^ (e + m) % 2 = 1)
  let ex := bits / 2 ^ m % 2 ^ e
  let man := bits % 2 ^ m
  let bias : Int := 2 ^ (e - 1) - 1
  if ex = 2 ^ e - 1 then (if man = 0 then .inf neg else .nan)
  else if ex = 0 then .fin neg ((man : Rat) * pow2 (1 - bias - m))
  else .fin neg (((2 ^ m + man : Nat) : Rat) * pow2 ((ex : Int) - bias - m))

/-- The `double` of a bit pattern of 16, 32 or 64 bits (dbchelper.cpp lines 424-498). -/
def floatOfBits (bitCount : Nat) (bits : Nat) : FltV :=
  if bitCount = 16 then ieeeVal 5 10 bits else if bitCount = 32 then ieeeVal 8 23 bits else ieeeVal 11 52 bits

/-- Rounding to `p` significant bits; `dblRound` is the case of 53.  The exponent is not limited. -/
def rndBits (p : Nat) (q : Rat) : Rat :=
  if q = 0 then 0 else (roundEven (q * pow2 ((p : Int) - 1 - binExp q)) : Rat) * pow2 (binExp q - ((p : Int) - 1))

/-- `static_cast<float>` of a `double`.  Simplification: no overflow and no underflow. -/
def FltV.toF32 : FltV → FltV
  | .fin neg mag => .fin neg (rndBits 24 mag)
  | x => x

/-- The type an observer of a float channel keeps its values in.  mdfreader.cpp lines 142-151. -/
def Chan.keepFlt (c : Chan) (x : FltV) : FltV := if c.dataBytes ≤ 4 then x.toF32 else x

/-- `GetChannelValue<T>` of a float channel (ichannel.h lines 653-659, 700-704). -/
def Chan.fltIn (c : Chan) (record : Bytes) (j : Nat) : Bool × Option FltV :=
  match c.getFloatBits record j with
  | .ub => (false, none)
  | .fail => (false, some (c.keepFlt (.fin false 0)))
  | .ok b => (c.getValid record j, some (c.keepFlt (floatOfBits c.bitCount b.toNat)))

/-- The observer of a float channel.  `GetChannelValue<double>` of it is what it keeps: a `float` is a `double`. -/
def Chan.fltObs (c : Chan) (recordId nof : Nat) : ObsCfg (Option FltV) where
  kind := c.obsKind
  recordId := recordId
  vlsdId := 0
  arraySize := c.arraySize
  nof := nof
  readVlsd := true
  default := some (.fin false 0)
  value := c.fltIn
  offset := c.offsetIn
  virt := fun sample => some (c.keepFlt (.fin false (dblRound (sample : Rat))))

end Mdf
