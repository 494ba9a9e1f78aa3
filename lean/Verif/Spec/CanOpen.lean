import Verif.Model.CanOpen

/-!
# Calendar

What is assumed of `localtime` and `mktime`, and the Gregorian calendar with a fixed offset to UTC, which meets the assumptions.
-/

namespace Mdf

/-- What is assumed of the C library.  Time zones have offsets of whole minutes; `mktime` finds the time of a local minute again,
also with daylight saving time because `tm_isdst` says which of two equal local times is meant; and 1984-01-01 is at most a day
away from where it is in UTC. -/
structure Zone.Sound (z : Zone) : Prop where
  sec : ∀ t, 0 ≤ t → (z.localtime t).sec = t % 60
  min : ∀ t, 0 ≤ t → 0 ≤ (z.localtime t).min ∧ (z.localtime t).min < 60
  hour : ∀ t, 0 ≤ t → 0 ≤ (z.localtime t).hour ∧ (z.localtime t).hour < 24
  mday : ∀ t, 0 ≤ t → 1 ≤ (z.localtime t).mday ∧ (z.localtime t).mday ≤ 31
  mon : ∀ t, 0 ≤ t → 0 ≤ (z.localtime t).mon ∧ (z.localtime t).mon < 12
  wday : ∀ t, 0 ≤ t → 0 ≤ (z.localtime t).wday ∧ (z.localtime t).wday < 7
  minute : ∀ t, 0 ≤ t → z.mktime { z.localtime t with sec := 0 } = t - t % 60
  y1984 : 441763200 - 86400 ≤ z.sec1984 ∧ z.sec1984 ≤ 441763200 + 86400

/-- Leap years of the Gregorian calendar. -/
def isLeap (y : Int) : Bool := y % 4 = 0 && (y % 100 ≠ 0 || y % 400 = 0)

/-- The days of a year. -/
def yearDays (y : Int) : Int := if isLeap y then 366 else 365

/-- The number of days from the (virtual) year 1 to the start of a year. -/
def daysBefore (y : Int) : Int := 365 * (y - 1) + (y - 1) / 4 - (y - 1) / 100 + (y - 1) / 400

/-- The days of the months. -/
def monthDays (leap : Bool) : List Int := [31, if leap then 29 else 28, 31, 30, 31, 30, 31, 31, 30, 31, 30, 31]

/-- The days from the start of a year to the start of a month (0 to 11). -/
def daysBeforeMonth (leap : Bool) (m : Nat) : Int := ((monthDays leap).take m).sum

/-- The year and the day in the year of a day counted from the start of the year `y`. -/
def findYear : (fuel : Nat) → (y d : Int) → Int × Int
  | 0, y, d => (y, d)
  | fuel + 1, y, d => if d < yearDays y then (y, d) else findYear fuel (y + 1) (d - yearDays y)

/-- The month (counted from `m`) and the day in the month. -/
def findMonth : List Int → Nat → Int → Nat × Int
  | [], m, d => (m, d)
  | n :: l, m, d => if d < n then (m, d) else findMonth l (m + 1) (d - n)

/-- The Gregorian calendar, `off` seconds east of UTC.  The search starts in 1969 because a time zone west of UTC is still in that
year at the time zero.  `mktime` takes the fields as they are, also if they are out of their ranges. -/
def fixedZone (off : Int) : Zone where
  localtime t :=
    let days := (t + off) / 86400
    let sod := (t + off) % 86400
    let y := findYear (days + 366).toNat 1969 (days + 365)
    let m := findMonth (monthDays (isLeap y.1)) 0 y.2
    { sec := sod % 60, min := sod / 60 % 60, hour := sod / 3600, mday := m.2 + 1, mon := m.1, year := y.1 - 1900
      wday := (days + 4) % 7, dst := false }
  mktime tm :=
    let y := tm.year + 1900 + tm.mon / 12
    (daysBefore y - daysBefore 1970 + daysBeforeMonth (isLeap y) (tm.mon % 12).toNat + (tm.mday - 1)) * 86400 +
      tm.hour * 3600 + tm.min * 60 + tm.sec - off

/-- The time rounded down to the millisecond. -/
def roundMs (ns : BitVec 64) : BitVec 64 := ns / 1000000#64 * 1000000#64

/-- A CANopen time counts the days from 1984-01-01 with 16 bits: 65536 days. -/
def Zone.TimeInRange (z : Zone) (ns : BitVec 64) : Prop :=
  z.sec1984 * 1000000000 ≤ ns.toNat ∧ ns.toNat < (z.sec1984 + 65536 * 86400) * 1000000000

/-- A CANopen date has two digits for the year; they stand for 1970 to 2069. -/
def Zone.DateInRange (z : Zone) (ns : BitVec 64) : Prop :=
  70 ≤ (z.localtime (ns.toNat / 1000000000 : Nat)).year ∧ (z.localtime (ns.toNat / 1000000000 : Nat)).year < 170

end Mdf
