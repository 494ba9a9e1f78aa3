import Verif.Model.Time

/-! The start time in the header: mdf3timestamp.cpp, mdf4timestamp.cpp, the texts of mdfhelper.cpp, and what `IHeader::CopyFrom` and
`StartMeasurement` make of it when a file is sorted.

What the functions of the C library say of the time zone of the computer at the time of the call is a parameter (`Clock`). -/

namespace Mdf

/-- The time zone of the computer. -/
structure Clock where
  zone : Zone
  gmt : BitVec 64    -- `GmtOffsetNs()`: ns east of Greenwich without daylight saving; `int64_t` as bits (mdfhelper.cpp lines 344-354)
  dst : Bool         -- `tm_isdst` of now (lines 356-365)

/-- `DstOffsetNs()`.  mdfhelper.cpp lines 356-365. -/
def Clock.dstNs (c : Clock) : BitVec 64 := if c.dst then 3600000000000#64 else 0#64

/-- The three classes of itimestamp.h; the offsets are `int16_t`. -/
inductive TsArg where
  | utc (ns : BitVec 64)
  | loc (ns : BitVec 64)
  | zoned (ns : BitVec 64) (tz dst : BitVec 16)
deriving DecidableEq, Repr

/-- `"%d:%m:%Y"`. -/
def dateText3 (tm : Tm) : Bytes := pad2 tm.mday.toNat ++ 0x3A#8 :: pad2 (tm.mon + 1).toNat ++ 0x3A#8 :: pad4 (tm.year + 1900).toNat

/-- `NanoSecTzToDDMMYYYY`, `NanoSecTzToHHMMSS`: the seconds that are shown.  mdfhelper.cpp lines 200-221. -/
def tzSeconds (ns : BitVec 64) (tz dst : BitVec 16) : Int := (ns.toNat / 1000000000 : Nat) + (tz.toInt + dst.toInt) * 60

/-- The members of `Mdf3Timestamp` that depend on the time.  mdf3timestamp.h lines 24-31. -/
structure Ts3 where
  date : Bytes
  time : Bytes
  localNs : BitVec 64
  utcOffset : BitVec 16
deriving DecidableEq, Repr

/-- `SetTime(uint64_t)`.  The division is one of unsigned numbers, because `kNanosecondsPerHour` is one.
mdf3timestamp.cpp lines 23-31; mdfhelper.cpp lines 169-184. -/
def Ts3.setNs (c : Clock) (ns : BitVec 64) : Ts3 where
  date := dateText3 (c.zone.localtime (ns.toNat / 1000000000 : Nat))
  time := clockText (c.zone.localtime (ns.toNat / 1000000000 : Nat))
  localNs := ns + c.gmt
  utcOffset := (c.gmt / 3600000000000#64).setWidth 16

/-- `SetTime(ITimestamp&)`.  mdf3timestamp.cpp lines 33-62. -/
def Ts3.set (c : Clock) : TsArg → Ts3
  | .utc ns => Ts3.setNs c ns
  | .loc ns => {
      date := dateText3 (gmtime (ns.toNat / 1000000000 : Nat))
      time := clockText (gmtime (ns.toNat / 1000000000 : Nat))
      localNs := ns - c.dstNs
      utcOffset := (c.gmt / 3600000000000#64).setWidth 16 }
  | .zoned ns tz dst => {
      date := dateText3 (gmtime (tzSeconds ns tz dst))
      time := clockText (gmtime (tzSeconds ns tz dst))
      localNs := ns + tz.signExtend 64 * 60000000000#64
      utcOffset := tz.sdiv 60#16 }

/-- `Mdf3Timestamp::GetTzOffsetMin`: an `int` cut to 16 bits.  mdf3timestamp.cpp line 65. -/
def Ts3.tzMin (t : Ts3) : BitVec 16 := t.utcOffset * 60#16

/-- `Mdf4Timestamp`: the time, the offsets in minutes and the flags. -/
structure Ts4 where
  time : BitVec 64
  tz : BitVec 16
  dst : BitVec 16
  flags : Byte
deriving DecidableEq, Repr

/-- `SetTime(uint64_t)`.  mdf4timestamp.cpp lines 45-50. -/
def Ts4.setNs (ns : BitVec 64) : Ts4 := ⟨ns, 0, 0, 0x00#8⟩

/-- `SetTime(ITimestamp&)`.  mdf4timestamp.cpp lines 51-68. -/
def Ts4.set : TsArg → Ts4
  | .utc ns => ⟨ns, 0, 0, 0x00#8⟩
  | .loc ns => ⟨ns, 0, 0, 0x01#8⟩
  | .zoned ns tz dst => ⟨ns, tz, dst, 0x02#8⟩

/-- `Write`.  mdf4timestamp.cpp lines 32-43. -/
def Ts4.write (t : Ts4) : Bytes := leBytes 8 t.time.toNat ++ leBytes 2 t.tz.toNat ++ leBytes 2 t.dst.toNat ++ [t.flags]

/-- `Read` of 13 bytes.  mdf4timestamp.cpp lines 23-30. -/
def Ts4.read (b : Bytes) : Ts4 :=
  ⟨BitVec.ofNat 64 (leNat (b.take 8)), BitVec.ofNat 16 (leNat ((b.drop 8).take 2)), BitVec.ofNat 16 (leNat ((b.drop 10).take 2)), b[12]?.getD 0⟩

inductive TsType where
  | utcTime | localTime | localTimeTz | timezoneTime
deriving DecidableEq, Repr

/-- `GetTimeType`.  mdf4timestamp.cpp lines 110-118. -/
def Ts4.type (t : Ts4) : TsType :=
  if t.flags &&& 0x02#8 ≠ 0#8 then .timezoneTime else if t.flags &&& 0x01#8 ≠ 0#8 then .localTime else .utcTime

/-- The header of a sorted file: `StartTime()` of the source given to `CopyFrom` (iheader.cpp line 88) and to `StartMeasurement`
(sortingtask.cpp lines 73, 135); the sorted file is always an MDF 4 file (mdftask.cpp line 170). -/
def sortedStart (source : Ts4) : Ts4 := Ts4.setNs source.time

/-- The same for an MDF 3 file: `Hd3Block::StartTime()` is the local time (hd3block.cpp lines 277-279). -/
def sortedStart3 (source : Ts3) : Ts4 := Ts4.setNs source.localNs

end Mdf
