import Verif.Model.Time

/-!
ISO 8601 texts and the times they stand for.
-/

namespace Mdf

/-- The time zone of a text: none, the letter Z, or the offset of the local time from UTC in hours and minutes, with its sign. -/
inductive IsoZone where
  | none
  | utc
  | offset (neg : Bool) (hours minutes : Nat)
deriving DecidableEq, Repr

/-- A date and time of day with the digits of the fraction of a second. -/
structure IsoTime where
  year : Nat
  month : Nat
  day : Nat
  hour : Nat
  minute : Nat
  second : Nat
  frac : List Nat
  zone : IsoZone
deriving DecidableEq, Repr

def IsoZone.Valid : IsoZone → Prop
  | .offset _ h m => h ≤ 23 ∧ m ≤ 59
  | _ => True

/-- Dates that exist, from 1970 on, with at most nine digits after the point. -/
structure IsoTime.Valid (x : IsoTime) : Prop where
  year : 1970 ≤ x.year ∧ x.year ≤ 9999
  month : 1 ≤ x.month ∧ x.month ≤ 12
  day : 1 ≤ x.day ∧ (x.day : Int) ≤ (monthDays (isLeap x.year)).getD (x.month - 1) 0
  hour : x.hour ≤ 23
  minute : x.minute ≤ 59
  second : x.second ≤ 59
  frac : (∀ d ∈ x.frac, d < 10) ∧ x.frac.length ≤ 9
  zone : x.zone.Valid

/-- Separators: with `-` and `:` or without, a `T` or a blank between date and time. -/
structure IsoForm where
  basic : Bool
  blank : Bool
deriving DecidableEq, Repr

def IsoForm.sep (f : IsoForm) (c : Byte) : Bytes := if f.basic then [] else [c]

def IsoZone.text (f : IsoForm) : IsoZone → Bytes
  | .none => []
  | .utc => [0x5A#8]
  | .offset neg h m => (if neg then 0x2D#8 else 0x2B#8) :: (pad2 h ++ f.sep 0x3A#8 ++ pad2 m)

/-- The text of a time, for example `2024-02-29T23:59:59.500+01:00`. -/
def IsoTime.text (f : IsoForm) (x : IsoTime) : Bytes :=
  (pad4 x.year ++ f.sep 0x2D#8 ++ pad2 x.month ++ f.sep 0x2D#8 ++ pad2 x.day) ++ [if f.blank then 0x20#8 else 0x54#8] ++
  (pad2 x.hour ++ f.sep 0x3A#8 ++ pad2 x.minute ++ f.sep 0x3A#8 ++ pad2 x.second) ++
  (if x.frac = [] then [] else 0x2E#8 :: x.frac.map dig) ++ x.zone.text f

/-- Seconds from 1970 of the date and time of day, not looking at the zone. -/
def IsoTime.civil (x : IsoTime) : Int :=
  (daysBefore x.year - daysBefore 1970 + daysBeforeMonth (isLeap x.year) (x.month - 1) + ((x.day : Int) - 1)) * 86400 +
    x.hour * 3600 + x.minute * 60 + x.second

/-- Seconds of the offset from UTC. -/
def IsoZone.seconds : IsoZone → Int
  | .offset neg h m => (if neg then -1 else 1) * ((h : Int) * 3600 + m * 60)
  | _ => 0

/-- The number that the digits stand for. -/
def digitsValue (l : List Nat) : Nat := l.foldl (fun n d => 10 * n + d) 0

/-- Nanoseconds from 1970-01-01T00:00:00Z. -/
def IsoTime.ns (x : IsoTime) : Int :=
  (x.civil - x.zone.seconds) * 1000000000 + (digitsValue x.frac * 10 ^ (9 - x.frac.length) : Nat)

end Mdf
