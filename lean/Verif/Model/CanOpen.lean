import Verif.Model.Channel

/-!
# CANopen dates and times

Models the CANopen functions of /repo/mdflib/src/mdfhelper.cpp and the CANopen cases of `SetChannelValue` and `GetChannelValue`.
The functions `localtime` and `mktime` of the C library are parameters (`Zone`).
-/

namespace Mdf

/-- The members of `struct tm` that are used.  `tm_isdst` is only tested for zero. -/
structure Tm where
  sec : Int
  min : Int
  hour : Int
  mday : Int
  mon : Int
  /-- years since 1900 -/
  year : Int
  wday : Int
  dst : Bool
deriving DecidableEq, Repr

/-- The two functions of the C library, for the time zone of the computer. -/
structure Zone where
  localtime : Int → Tm
  mktime : Tm → Int

/-- `sec_1984`.  mdfhelper.cpp lines 98-102 and 124-129. -/
def Zone.sec1984 (z : Zone) : Int :=
  z.mktime { sec := 0, min := 0, hour := 0, mday := 1, mon := 0, year := 84, wday := 0, dst := false }

/-- `MdfHelper::NsToCanOpenTimeArray`.  mdfhelper.cpp lines 91-118. -/
def Zone.timeArray (z : Zone) (ns : BitVec 64) : Bytes :=
  let ms : BitVec 64 := ns / 1000000#64 - BitVec.ofInt 64 z.sec1984 * 1000#64
  leBytes 4 (ms % 86400000#64).toNat ++ leBytes 2 ((ms / 86400000#64).setWidth 16).toNat

/-- `MdfHelper::CanOpenTimeArrayToNs`.  mdfhelper.cpp lines 120-134. -/
def Zone.timeOfArray (z : Zone) (a : Bytes) : BitVec 64 :=
  let ms := leNat (a.take 4)
  let days := leNat ((a.drop 4).take 2)
  BitVec.ofInt 64 z.sec1984 * 1000000000#64 + BitVec.ofNat 64 days * 24#64 * 3600000000000#64 + BitVec.ofNat 64 ms * 1000000#64

/-- The conversion of an `int` to `uint8_t`. -/
def toU8 (i : Int) : Byte := BitVec.ofInt 8 i

/-- `MdfHelper::NsToCanOpenDateArray`.  `%` of C++ truncates towards zero.  mdfhelper.cpp lines 67-89. -/
def Zone.dateArray (z : Zone) (ns : BitVec 64) : Bytes :=
  let t := z.localtime (ns / 1000000000#64).toNat
  let msMin := ((ns / 1000000#64) % 60000#64).setWidth 16
  let hour := if t.dst then toU8 t.hour ||| 0x80#8 else toU8 t.hour
  let dayInWeek := if t.wday = 0 then 7#8 else toU8 t.wday
  leBytes 2 msMin.toNat ++
    [toU8 t.min, hour, toU8 t.mday ||| dayInWeek <<< 5, toU8 (1 + t.mon), toU8 (t.year.tmod 100)]

/-- `MdfHelper::CanOpenDateArrayToNs` for the seven bytes of a date.  mdfhelper.cpp lines 136-170. -/
def Zone.dateOfArray (z : Zone) (a : Bytes) : BitVec 64 :=
  let at' (i : Nat) : Byte := a[i]?.getD 0
  let dayInWeek := (at' 4 &&& 0xE0#8) >>> 5
  let year := (at' 6 &&& 0x7F#8).toNat
  BitVec.ofNat 64 (leNat (a.take 2)) * 1000000#64 +
  BitVec.ofInt 64 (z.mktime
    { sec := 0, min := (at' 2 &&& 0x3F#8).toNat, hour := (at' 3 &&& 0x1F#8).toNat, mday := (at' 4 &&& 0x1F#8).toNat
      mon := ((at' 5 &&& 0x3F#8).toNat : Int) - 1, year := if 70 ≤ year then year else 100 + year
      wday := if dayInWeek = 7#8 then 0 else dayInWeek.toNat, dst := at' 3 &&& 0x80#8 ≠ 0 }) * 1000000000#64

/-- `SetChannelValue` of a `uint64_t` on a CANopen channel; of another type than `uint64_t` the value is invalid.
`none` is undefined behaviour.  /repo/include/mdf/ichannel.h lines 760-778. -/
def Chan.setCanOpen (z : Zone) (c : Chan) (ns : BitVec 64) (valid : Bool) (arrayIndex : Nat) (buf : Bytes) : Option Bytes :=
  match c.dataType with
  | .canOpenDate => if c.dataBytes = 7 then c.setByteArray (z.dateArray ns) valid buf else some (c.setValid false arrayIndex buf)
  | .canOpenTime => if c.dataBytes = 6 then c.setByteArray (z.timeArray ns) valid buf else some (c.setValid false arrayIndex buf)
  | _ => some (c.setValid false arrayIndex buf)

/-- `GetCanOpenDate` and `GetCanOpenTime`.  /repo/mdflib/src/ichannel.cpp lines 259-283. -/
def Chan.getCanOpen (z : Zone) (c : Chan) (record : Bytes) : Res (BitVec 64) :=
  match c.dataType with
  | .canOpenDate =>
    if c.byteOffset + 7 ≤ record.length then .ok (z.dateOfArray ((record.drop c.byteOffset).take 7)) else .fail
  | .canOpenTime =>
    if c.byteOffset + 6 ≤ record.length then .ok (z.timeOfArray ((record.drop c.byteOffset).take 6)) else .fail
  | _ => .fail

/-- The time `GetChannelValue` for a text shows: the seconds given to `localtime` and the milliseconds shown behind them.
`ns` is the result of `GetCanOpenDate` or `GetCanOpenTime`.  /repo/mdflib/src/ichannel.cpp lines 723-751. -/
def canOpenShown (ns : BitVec 64) : Nat × Nat := ((ns / 1000#64).toNat, (ns % 1000#64).toNat)

end Mdf
