import Verif.Model.StartTime
import Verif.Props.Time
import Mathlib.Tactic.IntervalCases

/-! C108: the start time in the header of an MDF 3 file.  C109: the start time in the header of an MDF 4 file, also after sorting. -/

namespace Mdf

/-- A computer in a time zone `off` seconds east of Greenwich, with daylight saving or not: the clock shows an hour more with it. -/
structure Clock.At (c : Clock) (off : Int) : Prop where
  gmt : c.gmt = BitVec.ofInt 64 (off * 1000000000)
  zone : c.zone = fixedZone (off + if c.dst then 3600 else 0)

/-! ### C108 -/

/-- The UTC time that the header of an MDF 3 file stands for: the local time without its distance to UTC, which is in hours. -/
def Ts3.utc (t : Ts3) : BitVec 64 := t.localNs - t.utcOffset.signExtend 64 * 3600000000000#64

/-- The full claim: in all time zones, the header stands for the time that was set. -/
def C108_Statement : Prop :=
  ∀ (c : Clock) (off : Int), c.At off → -43200 ≤ off → off ≤ 50400 → off % 900 = 0 → ∀ ns, (Ts3.setNs c ns).utc = ns

/-- The offset that is stored in all whole time zones west of Greenwich: not a negative number. -/
theorem C108_west (c : Clock) (k : Nat) (h : c.At (-(3600 * k : Nat))) (h1 : 1 ≤ k) (h2 : k ≤ 12) (ns : BitVec 64) :
    (Ts3.setNs c ns).utcOffset.toInt = 12287 - k := by
  simp only [Ts3.setNs, h.gmt]
  interval_cases k <;> decide

example : (Clock.mk (fixedZone (-18000)) (BitVec.ofInt 64 (-18000 * 1000000000)) false).At (-(3600 * 5 : Nat)) :=
  ⟨rfl, by simp⟩

/-- It is false in all of America: with UTC-5 the header stands for a time more than a year away. -/
theorem C108_false : ¬ C108_Statement := by
  intro h
  have := h ⟨fixedZone (-18000), BitVec.ofInt 64 (-18000 * 1000000000), false⟩ (-18000) ⟨rfl, by simp⟩ (by decide) (by decide) (by decide) 0#64
  exact absurd this (by decide)

/-- It holds in whole time zones from Greenwich to the east.  Missing: zones to the west, and zones with parts of an hour. -/
theorem C108_east_partial (c : Clock) (k : Nat) (h : c.At (3600 * k : Nat)) (h2 : k ≤ 14) (ns : BitVec 64) :
    (Ts3.setNs c ns).utc = ns := by
  have hg : c.gmt = ((c.gmt / 3600000000000#64).setWidth 16).signExtend 64 * 3600000000000#64 := by
    rw [h.gmt]
    interval_cases k <;> decide
  show ns + c.gmt - _ = ns
  simp only [Ts3.setNs]
  rw [← hg, BitVec.add_sub_cancel]

example : (Ts3.setNs ⟨fixedZone 7200, BitVec.ofInt 64 (3600 * 1000000000), true⟩ 1600000000000000000#64).utcOffset = 1#16 := by decide

/-- In a zone with half an hour the header stands for a time half an hour too late. -/
theorem C108_half_hour (c : Clock) (k : Nat) (h : c.At (3600 * k + 1800 : Nat)) (h2 : k ≤ 13) (ns : BitVec 64) :
    (Ts3.setNs c ns).utc = ns + 1800000000000#64 := by
  have hg : c.gmt = ((c.gmt / 3600000000000#64).setWidth 16).signExtend 64 * 3600000000000#64 + 1800000000000#64 := by
    rw [h.gmt]
    interval_cases k <;> decide
  show ns + c.gmt - _ = _
  simp only [Ts3.setNs]
  conv_lhs => lhs; rw [hg]
  rw [BitVec.add_comm _ 1800000000000#64, ← BitVec.add_assoc, BitVec.add_sub_cancel]

/-- With a time zone given by the user the header stands for the time that was set, in all whole zones; the computer's own zone
does not matter. -/
theorem C108_zoned (c : Clock) (k : Int) (h1 : -12 ≤ k) (h2 : k ≤ 14) (ns : BitVec 64) (dst : BitVec 16) :
    (Ts3.set c (.zoned ns (BitVec.ofInt 16 (60 * k)) dst)).utc = ns ∧
    (Ts3.set c (.zoned ns (BitVec.ofInt 16 (60 * k)) dst)).tzMin = BitVec.ofInt 16 (60 * k) := by
  have hg : (BitVec.ofInt 16 (60 * k)).signExtend 64 * 60000000000#64 =
      (((BitVec.ofInt 16 (60 * k)).sdiv 60#16).signExtend 64) * 3600000000000#64 ∧
      (BitVec.ofInt 16 (60 * k)).sdiv 60#16 * 60#16 = BitVec.ofInt 16 (60 * k) := by
    interval_cases k <;> decide
  constructor
  · show ns + _ - _ = ns
    simp only [Ts3.set]
    rw [hg.1, BitVec.add_sub_cancel]
  · exact hg.2

example : (Ts3.set ⟨fixedZone 0, 0#64, false⟩ (.zoned 1600000000000000000#64 (BitVec.ofInt 16 (-300)) 60#16)).utcOffset = BitVec.ofInt 16 (-5) := by decide

/-- `StartTime()` of an MDF 3 file does not return the time set with `StartTime(ns)`: it is the local time, without daylight saving. -/
theorem C108_getter (c : Clock) (ns : BitVec 64) : (Ts3.setNs c ns).localNs = ns ↔ c.gmt = 0#64 := by
  show ns + c.gmt = ns ↔ _
  constructor
  · intro h
    have : ns + c.gmt = ns + 0#64 := by rw [h, BitVec.add_zero]
    exact (BitVec.add_right_inj ns).mp this
  · intro h; rw [h]; exact BitVec.add_zero ns

/-- The date and the time shown by the header. -/
theorem texts3_gmtime (t : Int) (h0 : 0 ≤ t) (h1 : t < 18446744074) :
    ∃ x : IsoTime, x.Valid ∧ x.civil = t ∧ dateText3 (gmtime t) = pad2 x.day ++ 0x3A#8 :: pad2 x.month ++ 0x3A#8 :: pad4 x.year ∧
      clockText (gmtime t) = pad2 x.hour ++ 0x3A#8 :: pad2 x.minute ++ 0x3A#8 :: pad2 x.second := by
  obtain ⟨x, hv, _, _, hc, _, hk⟩ := gmtime_fields t h0 h1 [] ⟨by simp, by simp⟩
  refine ⟨x, hv, hc, ?_, hk⟩
  obtain ⟨w, hw⟩ := C63_calendar x hv
  rw [hc] at hw
  rw [hw]
  simp only [dateText3]
  have e1 : ((x.month : Int) - 1 + 1).toNat = x.month := by omega
  have e2 : ((x.year : Int) - 1900 + 1900).toNat = x.year := by omega
  rw [e1, e2, Int.toNat_natCast]

theorem fixedZone_shift (off t : Int) : (fixedZone off).localtime t = gmtime (t + off) := by
  unfold gmtime fixedZone
  simp only [Int.add_zero]

/-- The texts of the header are the date and time of the clock on the wall, in all time zones, with daylight saving; they name the
second that was set. -/
theorem C108_texts (c : Clock) (off : Int) (h : c.At off) (ns : BitVec 64)
    (h0 : 0 ≤ (ns.toNat / 1000000000 : Nat) + (off + if c.dst then 3600 else 0))
    (h1 : (ns.toNat / 1000000000 : Nat) + (off + if c.dst then 3600 else 0) < 18446744074) :
    ∃ x : IsoTime, x.Valid ∧ x.civil = (ns.toNat / 1000000000 : Nat) + (off + if c.dst then 3600 else 0) ∧
      (Ts3.setNs c ns).date = pad2 x.day ++ 0x3A#8 :: pad2 x.month ++ 0x3A#8 :: pad4 x.year ∧
      (Ts3.setNs c ns).time = pad2 x.hour ++ 0x3A#8 :: pad2 x.minute ++ 0x3A#8 :: pad2 x.second := by
  obtain ⟨x, a, b, d, e⟩ := texts3_gmtime _ h0 h1
  refine ⟨x, a, b, ?_, ?_⟩
  · simp only [Ts3.setNs, h.zone, fixedZone_shift]; exact d
  · simp only [Ts3.setNs, h.zone, fixedZone_shift]; exact e

/-- The same with a time zone given by the user, and with a local time given by the user. -/
theorem C108_texts_given (c : Clock) (ns : BitVec 64) (tz dst : BitVec 16)
    (h0 : 0 ≤ (ns.toNat / 1000000000 : Nat) + (tz.toInt + dst.toInt) * 60)
    (h1 : (ns.toNat / 1000000000 : Nat) + (tz.toInt + dst.toInt) * 60 < 18446744074) :
    (∃ x : IsoTime, x.Valid ∧ x.civil = (ns.toNat / 1000000000 : Nat) + (tz.toInt + dst.toInt) * 60 ∧
      (Ts3.set c (.zoned ns tz dst)).date = pad2 x.day ++ 0x3A#8 :: pad2 x.month ++ 0x3A#8 :: pad4 x.year ∧
      (Ts3.set c (.zoned ns tz dst)).time = pad2 x.hour ++ 0x3A#8 :: pad2 x.minute ++ 0x3A#8 :: pad2 x.second) ∧
    (∃ x : IsoTime, x.Valid ∧ x.civil = (ns.toNat / 1000000000 : Nat) ∧
      (Ts3.set c (.loc ns)).date = pad2 x.day ++ 0x3A#8 :: pad2 x.month ++ 0x3A#8 :: pad4 x.year ∧
      (Ts3.set c (.loc ns)).time = pad2 x.hour ++ 0x3A#8 :: pad2 x.minute ++ 0x3A#8 :: pad2 x.second) :=
  ⟨texts3_gmtime _ h0 h1, texts3_gmtime _ (by omega) (by have := ns.isLt; omega)⟩

example : (Ts3.setNs ⟨fixedZone 7200, BitVec.ofInt 64 (3600 * 1000000000), true⟩ 1600000000000000000#64).date =
      "13:09:2020".toList.map (fun c => BitVec.ofNat 8 c.toNat) ∧
    (Ts3.setNs ⟨fixedZone 7200, BitVec.ofInt 64 (3600 * 1000000000), true⟩ 1600000000000000000#64).time =
      "14:26:40".toList.map (fun c => BitVec.ofNat 8 c.toNat) := by decide +kernel

/-- A local time given by the user: the header has it without daylight saving, as the standard says. -/
theorem C108_local (c : Clock) (ns : BitVec 64) :
    (Ts3.set c (.loc ns)).localNs = ns - (if c.dst then 3600000000000#64 else 0#64) ∧ (Ts3.set c (.utc ns)) = Ts3.setNs c ns := ⟨rfl, rfl⟩

/-! ### C109 -/

/-- Every start time is read back as it was set: time, offsets and kind. -/
theorem C109_read_back (a : TsArg) : Ts4.read (Ts4.set a).write = Ts4.set a := by
  have key : ∀ t : Ts4, Ts4.read t.write = t := by
    intro t
    have h8 : (t.write).take 8 = leBytes 8 t.time.toNat := by
      unfold Ts4.write
      rw [List.append_assoc, List.append_assoc, List.take_append_of_le_length (by simp), List.take_of_length_le (by simp)]
    have hd8 : (t.write).drop 8 = leBytes 2 t.tz.toNat ++ (leBytes 2 t.dst.toNat ++ [t.flags]) := by
      unfold Ts4.write
      rw [List.append_assoc, List.append_assoc]
      exact List.drop_left' (by simp)
    have hd10 : (t.write).drop 10 = leBytes 2 t.dst.toNat ++ [t.flags] := by
      have : (t.write).drop 10 = ((t.write).drop 8).drop 2 := by rw [List.drop_drop]
      rw [this, hd8]
      exact List.drop_left' (by simp)
    have h12 : (t.write)[12]? = some t.flags := by
      unfold Ts4.write
      rw [List.getElem?_append_right (by simp)]
      simp
    unfold Ts4.read
    rw [h8, hd8, hd10, h12, List.take_left' (by simp), List.take_left' (by simp), leNat_leBytes, leNat_leBytes, leNat_leBytes]
    have e1 : t.time.toNat % 256 ^ 8 = t.time.toNat := Nat.mod_eq_of_lt t.time.isLt
    have e2 : t.tz.toNat % 256 ^ 2 = t.tz.toNat := Nat.mod_eq_of_lt t.tz.isLt
    have e3 : t.dst.toNat % 256 ^ 2 = t.dst.toNat := Nat.mod_eq_of_lt t.dst.isLt
    rw [e1, e2, e3, BitVec.ofNat_toNat, BitVec.ofNat_toNat, BitVec.ofNat_toNat]
    simp
  exact key _

example : Ts4.read (Ts4.set (.zoned 5#64 (BitVec.ofInt 16 (-300)) 60#16)).write = ⟨5#64, BitVec.ofInt 16 (-300), 60#16, 2#8⟩ := by decide

/-- The kind says how the time was given, and the offsets are those given. -/
theorem C109_kind (ns : BitVec 64) (tz dst : BitVec 16) :
    (Ts4.set (.utc ns)).type = .utcTime ∧ (Ts4.set (.loc ns)).type = .localTime ∧ (Ts4.set (.zoned ns tz dst)).type = .timezoneTime ∧
    (Ts4.set (.zoned ns tz dst)).tz = tz ∧ (Ts4.set (.zoned ns tz dst)).dst = dst ∧ (Ts4.setNs ns).type = .utcTime ∧
    (Ts4.set (.utc ns)).time = ns ∧ (Ts4.set (.loc ns)).time = ns ∧ (Ts4.set (.zoned ns tz dst)).time = ns ∧ (Ts4.setNs ns).time = ns := by
  refine ⟨?_, ?_, ?_, rfl, rfl, ?_, rfl, rfl, rfl, rfl⟩ <;>
    simp [Ts4.setNs, Ts4.set, Ts4.type]

/-- A start time given without offsets has none. -/
theorem C109_no_offsets (ns : BitVec 64) : (Ts4.setNs ns).tz = 0#16 ∧ (Ts4.setNs ns).dst = 0#16 ∧ (Ts4.set (.utc ns)).tz = 0#16 ∧
    (Ts4.set (.utc ns)).dst = 0#16 ∧ (Ts4.set (.loc ns)).tz = 0#16 ∧ (Ts4.set (.loc ns)).dst = 0#16 := ⟨rfl, rfl, rfl, rfl, rfl, rfl⟩

/-- The full claim for the offset in minutes, which `GetTzOffsetMin` returns as `uint16_t`. -/
def C109_Statement : Prop := ∀ ns tz dst, ((Ts4.set (.zoned ns tz dst)).tz.toNat : Int) = tz.toInt

/-- It is false west of Greenwich. -/
theorem C109_false : ¬ C109_Statement := by
  intro h
  exact absurd (h 0#64 (BitVec.ofInt 16 (-300)) 0#16) (by decide)

/-- It holds for zones to the east.  Missing: zones to the west, where the number has to be cast to `int16_t`. -/
theorem C109_offset_partial (ns : BitVec 64) (tz dst : BitVec 16) (h : 0 ≤ tz.toInt) : ((Ts4.set (.zoned ns tz dst)).tz.toNat : Int) = tz.toInt := by
  show (tz.toNat : Int) = tz.toInt
  rw [BitVec.toInt_eq_toNat_cond] at h ⊢
  split
  · rfl
  · rename_i hc
    rw [if_neg hc] at h
    have := tz.isLt
    omega

example : ((Ts4.set (.zoned 7#64 120#16 60#16)).tz.toNat : Int) = 120 := by decide

/-- The UTC time that a start time stands for, where the clock is `off` ns ahead of UTC. -/
def Ts4.instant (off : BitVec 64) (t : Ts4) : BitVec 64 := if t.type = .localTime then t.time - off else t.time

/-- Sorting a file: the claim that the start time stands for the same time as before. -/
def C109_SortStatement : Prop := ∀ (off : BitVec 64) (a : TsArg), (sortedStart (Ts4.set a)).instant off = (Ts4.set a).instant off

/-- It is false: the sorted file has a local time as one in UTC. -/
theorem C109_sort_false : ¬ C109_SortStatement := by
  intro h
  exact absurd (h 3600000000000#64 (.loc 0#64)) (by decide)

/-- It holds for all other start times; the time zone is dropped.  Missing: local times. -/
theorem C109_sort_partial (off : BitVec 64) (t : Ts4) (h : t.type ≠ .localTime) :
    (sortedStart t).instant off = t.instant off ∧ (sortedStart t).type = .utcTime ∧ (sortedStart t).tz = 0#16 ∧ (sortedStart t).time = t.time := by
  have hu : (sortedStart t).type = .utcTime := by simp [sortedStart, Ts4.setNs, Ts4.type]
  refine ⟨?_, hu, rfl, rfl⟩
  unfold Ts4.instant
  rw [if_neg h, hu]
  rfl

example : (Ts4.set (.zoned 7#64 120#16 60#16)).type ≠ .localTime := by decide

/-- A sorted MDF 3 file: its start time is that of the source only if the zone of the computer that wrote it was Greenwich. -/
theorem C109_sort_mdf3 (c : Clock) (ns off : BitVec 64) : (sortedStart3 (Ts3.setNs c ns)).instant off = ns ↔ c.gmt = 0#64 := by
  have hu : (sortedStart3 (Ts3.setNs c ns)).type = .utcTime := by simp [sortedStart3, Ts4.setNs, Ts4.type]
  unfold Ts4.instant
  rw [hu]
  exact C108_getter c ns

end Mdf
