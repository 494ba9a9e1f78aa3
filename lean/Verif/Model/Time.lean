import Verif.Model.Xml
import Verif.Spec.CanOpen

/-!
Times as texts.  Models `UtcTimestamp` of /repo/mdflib/src/timestamp.cpp.

`gmtime` and `timegm` of the C library are the Gregorian calendar without an offset (`fixedZone 0` of `Verif.Spec.CanOpen`); both take
leap years, not leap seconds, into account, as POSIX says.  `std::isdigit` of characters above 127 is taken as false; where `char` is
signed the code calls it with a negative number, for which the C standard has no answer.
-/

namespace Mdf

/-- The digit of a number below 10. -/
def dig (n : Nat) : Byte := BitVec.ofNat 8 (48 + n)

/-- `std::put_time` with `%m`, `%d`, `%H`, `%M`, `%S`: two digits. -/
def pad2 (n : Nat) : Bytes := [dig (n / 10), dig (n % 10)]

/-- Three digits (`setw(3)`, `setfill('0')`). -/
def pad3 (n : Nat) : Bytes := [dig (n / 100), dig (n / 10 % 10), dig (n % 10)]

/-- `std::put_time` with `%Y` for a year of four digits.  64 bits of nanoseconds end in the year 2554. -/
def pad4 (n : Nat) : Bytes := [dig (n / 1000), dig (n / 100 % 10), dig (n / 10 % 10), dig (n % 10)]

/-- `gmtime`. -/
def gmtime (t : Int) : Tm := (fixedZone 0).localtime t

/-- `timegm`. -/
def timegm (tm : Tm) : Int := (fixedZone 0).mktime tm

/-- `"%Y-%m-%d"`. -/
def dateText (tm : Tm) : Bytes := pad4 (tm.year + 1900).toNat ++ 0x2D#8 :: pad2 (tm.mon + 1).toNat ++ 0x2D#8 :: pad2 tm.mday.toNat

/-- `"%H:%M:%S"`. -/
def clockText (tm : Tm) : Bytes := pad2 tm.hour.toNat ++ 0x3A#8 :: pad2 tm.min.toNat ++ 0x3A#8 :: pad2 tm.sec.toNat

/-- The milliseconds, if there are any and they are wanted.  timestamp.cpp lines 73-75 and 87-89. -/
def msText (ns : BitVec 64) (includeMs : Bool) : Bytes :=
  let ms := ns.toNat / 1000000 % 1000
  if ms > 0 && includeMs then 0x2E#8 :: pad3 ms else []

/-- `ToIsoDate`.  timestamp.cpp lines 53-62. -/
def toIsoDate (ns : BitVec 64) : Bytes := dateText (gmtime (ns.toNat / 1000000000 : Nat)) ++ [0x5A#8]

/-- `ToIsoTime`.  timestamp.cpp lines 64-77. -/
def toIsoTime (ns : BitVec 64) (includeMs : Bool) : Bytes :=
  clockText (gmtime (ns.toNat / 1000000000 : Nat)) ++ msText ns includeMs ++ [0x5A#8]

/-- `ToIsoDateTime`.  timestamp.cpp lines 79-92. -/
def toIsoDateTime (ns : BitVec 64) (includeMs : Bool) : Bytes :=
  dateText (gmtime (ns.toNat / 1000000000 : Nat)) ++ 0x54#8 :: clockText (gmtime (ns.toNat / 1000000000 : Nat)) ++ msText ns includeMs ++
    [0x5A#8]

/-- `DateState`.  timestamp.cpp lines 95-107. -/
inductive IsoState where
  | start | year | month | day | hour | minute | second | milli | tzHour | tzMinute | done
deriving DecidableEq, Repr

/-- The state of the scanner and the texts collected so far.  timestamp.cpp lines 107-123. -/
structure IsoScan where
  state : IsoState
  year : Bytes
  month : Bytes
  day : Bytes
  hour : Bytes
  minute : Bytes
  second : Bytes
  milli : Bytes
  tzHour : Bytes
  tzMinute : Bytes
  utc : Bool
deriving DecidableEq, Repr

def IsoScan.init : IsoScan := ⟨.start, [], [], [], [], [], [], [], [], [], false⟩

/-- `std::isdigit`. -/
def isDig (c : Byte) : Bool := 0x30#8 ≤ c && c ≤ 0x39#8

/-- The common end of the branches from day to millisecond: the letter Z or the sign of an offset. -/
def IsoScan.zone (s : IsoScan) (c : Byte) : IsoScan :=
  if c = 0x5A#8 then { s with utc := true }
  else if c = 0x2D#8 || c = 0x2B#8 then { s with tzHour := s.tzHour ++ [c], state := .tzHour }
  else s

/-- One character.  timestamp.cpp lines 125-249.  In the state millisecond the limit of nine digits looks at the minutes (line 226). -/
def isoStep (s : IsoScan) (c : Byte) : IsoScan :=
  match s.state with
  | .start =>
    if isDig c then { s with year := s.year ++ [c], state := .year }
    else if c = 0x54#8 then
      { s with year := s.year ++ [0x31#8, 0x39#8, 0x37#8, 0x30#8], month := s.month ++ [0x30#8, 0x31#8], day := s.day ++ [0x30#8, 0x31#8],
               state := .hour }
    else s
  | .year =>
    if c = 0x2D#8 then { s with state := .month }
    else if isDig c && s.year.length < 4 then { s with year := s.year ++ [c] }
    else if isDig c then { s with month := s.month ++ [c], state := .month }
    else if c = 0x5A#8 then { s with utc := true }
    else s
  | .month =>
    if c = 0x2D#8 then { s with state := .day }
    else if isDig c && s.month.length < 2 then { s with month := s.month ++ [c] }
    else if isDig c then { s with day := s.day ++ [c], state := .day }
    else if c = 0x5A#8 then { s with utc := true }
    else s
  | .day =>
    if c = 0x20#8 || c = 0x54#8 then { s with state := .hour }
    else if isDig c && s.day.length < 2 then { s with day := s.day ++ [c] }
    else s.zone c
  | .hour =>
    if c = 0x3A#8 then { s with state := .minute }
    else if isDig c && s.hour.length < 2 then { s with hour := s.hour ++ [c] }
    else if isDig c then { s with minute := s.minute ++ [c], state := .minute }
    else s.zone c
  | .minute =>
    if c = 0x3A#8 then { s with state := .second }
    else if isDig c && s.minute.length < 2 then { s with minute := s.minute ++ [c] }
    else if isDig c then { s with second := s.second ++ [c], state := .second }
    else s.zone c
  | .second =>
    if c = 0x2E#8 then { s with state := .milli }
    else if isDig c && s.second.length < 2 then { s with second := s.second ++ [c] }
    else s.zone c
  | .milli =>
    if c = 0x2E#8 then s
    else if isDig c && s.minute.length < 9 then { s with milli := s.milli ++ [c] }
    else s.zone c
  | .tzHour =>
    if c = 0x3A#8 then { s with state := .tzMinute }
    else if isDig c then { s with tzHour := s.tzHour ++ [c] }
    else s
  | .tzMinute =>
    if isDig c && s.tzMinute.length < 2 then { s with tzMinute := s.tzMinute ++ [c] }
    else if c = 0x5A#8 then { s with utc := true, state := .done }
    else s
  | .done => s

/-- The value of a text of digits. -/
def digits (s : Bytes) : Nat := s.foldl (fun n c => 10 * n + (c.toNat - 48)) 0

/-- `std::stoi` of a text that consists of an optional sign and digits; `none` is an exception (no digits, or no `int`). -/
def stoiText (s : Bytes) : Option Int :=
  let (neg, d) := match s with
    | c :: t => if c = 0x2D#8 then (true, t) else if c = 0x2B#8 then (false, t) else (false, s)
    | [] => (false, [])
  if d = [] then none
  else
    let v : Int := if neg then -(digits d : Int) else digits d
    if -2147483648 ≤ v ∧ v ≤ 2147483647 then some v else none

/-- A field of the date: the number in the text, `empty` if there is none, `bad` if it is outside of its range.  The texts have digits only
and at most four of them, so that `std::stoi` does not throw.  timestamp.cpp lines 254-289. -/
def isoField (s : Bytes) (empty low high bad : Int) : Int :=
  let v := if s = [] then empty else digits s
  if v < low ∨ high < v then bad else v

/-- The date of the texts.  timestamp.cpp lines 252-290 (lines 301-305 repeat the minute). -/
def IsoScan.tm (s : IsoScan) : Tm where
  year := if (if s.year = [] then 70 else (digits s.year : Int) - 1900) < 70 then 70 else if s.year = [] then 70 else (digits s.year : Int) - 1900
  mon := isoField s.month 1 1 12 1 - 1
  mday := isoField s.day 0 1 31 1
  hour := isoField s.hour 0 0 23 0
  min := isoField s.minute 0 0 59 0
  sec := isoField s.second 0 0 59 0
  wday := 0
  dst := false

def isInt32 (v : Int) : Prop := -2147483648 ≤ v ∧ v ≤ 2147483647

instance (v : Int) : Decidable (isInt32 v) := by unfold isInt32; infer_instance

/-- The offset in seconds, calculated with `int`: `Out.throw` if `std::stoi` throws, `Out.ub` if the multiplication overflows.
timestamp.cpp lines 292-299. -/
def IsoScan.offset (s : IsoScan) : Out Int :=
  match (if s.tzHour = [] then some 0 else stoiText s.tzHour) with
  | none => .throw
  | some h =>
    let m : Int := if s.tzMinute = [] then 0 else digits s.tzMinute
    if isInt32 (h * 60) ∧ isInt32 (h * 60 + m) ∧ isInt32 ((h * 60 + m) * 60) then .ok ((h * 60 + m) * 60) else .ub

/-- The nanoseconds of the digits after the point; `none`: `std::stoull` throws.  timestamp.cpp lines 325-333. -/
def IsoScan.fraction (s : IsoScan) : Option Nat :=
  if s.milli = [] then some 0
  else if digits s.milli ≥ 2 ^ 64 then none
  else some (digits s.milli * if s.milli.length ≤ 3 then 1000000 else if s.milli.length ≤ 6 then 1000 else 1)

/-- `FromIsoDateTime`: the new value of the time stamp that was `old`; `none` if the behaviour is undefined.  Exceptions are caught; the
value is then the old one, or the time without the fraction.  timestamp.cpp lines 94-337. -/
def fromIso (old : BitVec 64) (text : Bytes) : Option (BitVec 64) :=
  let s := text.foldl isoStep .init
  match s.offset with
  | .ub => none
  | .throw => some old
  | .ok off =>
    let t := BitVec.ofInt 64 (timegm s.tm - if s.utc then 0 else off) * 1000000000#64
    match s.fraction with
    | none => some t
    | some f => some (t + BitVec.ofNat 64 f)

end Mdf
