import Verif.Proof.CanOpen

/-!
# C41: CANopen dates and times

`Zone` stands for `localtime` and `mktime`; `Zone.Sound` (Verif.Spec.CanOpen) is what is assumed of them.
-/

namespace Mdf

/-- The assumptions about the C library hold for the Gregorian calendar in every time zone with a fixed offset of whole minutes. -/
example : (fixedZone 0).Sound ∧ (fixedZone (-5 * 3600)).Sound ∧ (fixedZone (5 * 3600 + 45 * 60)).Sound :=
  ⟨fixedZone_sound _ (by decide) (by decide) (by decide), fixedZone_sound _ (by decide) (by decide) (by decide),
   fixedZone_sound _ (by decide) (by decide) (by decide)⟩

theorem roundMs_toNat (ns : BitVec 64) : (roundMs ns).toNat = ns.toNat / 1000000 * 1000000 := by
  unfold roundMs
  have := ns.isLt
  rw [BitVec.toNat_mul, BitVec.toNat_udiv]
  have h2 : (1000000#64).toNat = 1000000 := rfl
  rw [h2]
  omega

/-- **C41**, times.  A time stored as CANopen time is read back rounded down to the millisecond exactly if it is in the 65536 days
from 1984-01-01 the format can represent. -/
theorem C41_time_iff (z : Zone) (hz : z.Sound) (ns : BitVec 64) :
    z.timeOfArray (z.timeArray ns) = roundMs ns ↔ z.TimeInRange ns := by
  have h84 := hz.y1984
  obtain ⟨ms, hlt, harr, hms⟩ := timeArray_nat z hz ns
  have hn := ns.isLt
  have hval := timeOfArray_nat z hz (ms % 86400000) (ms / 86400000 % 65536) (by omega) (by omega)
  rw [harr]
  unfold Zone.TimeInRange
  generalize z.sec1984 = s at *
  constructor
  · intro h
    rw [h, roundMs_toNat] at hval
    generalize ns.toNat = n at *
    generalize hx : ms % 86400000 = x at *
    generalize hy : ms / 86400000 % 65536 = y at *
    have hxl : x < 86400000 := by omega
    have hyl : y < 65536 := by omega
    clear hms harr hx hy
    omega
  · intro h
    apply BitVec.eq_of_toNat_eq
    rw [hval, roundMs_toNat]
    generalize ns.toNat = n at *
    have hm : ms = n / 1000000 - s.toNat * 1000 := by omega
    have hd : ms / 86400000 < 65536 := by omega
    rw [Nat.mod_eq_of_lt hd]
    clear hms hval
    omega

/-- **C41**, time arrays.  A CANopen time with less than a day of milliseconds is not changed by reading it and storing it again. -/
theorem C41_time_array (z : Zone) (hz : z.Sound) (ms days : Nat) (hms : ms < 86400000) (hd : days < 65536) :
    z.timeArray (z.timeOfArray (leBytes 4 ms ++ leBytes 2 days)) = leBytes 4 ms ++ leBytes 2 days := by
  have h84 := hz.y1984
  have hval := timeOfArray_nat z hz ms days hms hd
  obtain ⟨m, hlt, harr, hm⟩ := timeArray_nat z hz (z.timeOfArray (leBytes 4 ms ++ leBytes 2 days))
  rw [harr]
  rw [hval] at hm
  generalize z.sec1984 = s at *
  have : m = days * 86400000 + ms := by omega
  rw [this]
  have e1 : (days * 86400000 + ms) % 86400000 = ms := by omega
  have e2 : (days * 86400000 + ms) / 86400000 % 65536 = days := by omega
  rw [e1, e2]

/-- A time of the year 2025 is in the range; the year 1983 and the year 2200 are not. -/
example : (fixedZone 3600).TimeInRange 1763251217123456789#64 ∧ ¬ (fixedZone 3600).TimeInRange 441700000000000000#64 ∧
    ¬ (fixedZone 3600).TimeInRange 7258118400000000000#64 := by
  unfold Zone.TimeInRange
  decide +kernel

theorem toU8_toNat {i : Int} (h0 : 0 ≤ i) (h : i < 256) : (toU8 i).toNat = i.toNat := by
  unfold toU8
  rw [BitVec.toNat_ofInt]
  omega

theorem mask_min : ∀ i : Fin 60, (BitVec.ofNat 8 i.val &&& 0x3F#8).toNat = i.val := by decide
theorem mask_mon : ∀ i : Fin 12, (BitVec.ofNat 8 (1 + i.val) &&& 0x3F#8).toNat = 1 + i.val := by decide
theorem mask_year : ∀ i : Fin 100, (BitVec.ofNat 8 i.val &&& 0x7F#8).toNat = i.val := by decide
theorem mask_hour : ∀ i : Fin 24, ∀ d : Bool,
    ((if d then BitVec.ofNat 8 i.val ||| 0x80#8 else BitVec.ofNat 8 i.val) &&& 0x1F#8).toNat = i.val ∧
    decide ((if d then BitVec.ofNat 8 i.val ||| 0x80#8 else BitVec.ofNat 8 i.val) &&& 0x80#8 ≠ 0) = d := by decide
theorem mask_day : ∀ i : Fin 32, ∀ w : Fin 7,
    ((BitVec.ofNat 8 i.val ||| (if w.val = 0 then 7#8 else BitVec.ofNat 8 w.val) <<< 5) &&& 0x1F#8).toNat = i.val ∧
    (if ((BitVec.ofNat 8 i.val ||| (if w.val = 0 then 7#8 else BitVec.ofNat 8 w.val) <<< 5) &&& 0xE0#8) >>> 5 = 7#8 then 0
     else (((BitVec.ofNat 8 i.val ||| (if w.val = 0 then 7#8 else BitVec.ofNat 8 w.val) <<< 5) &&& 0xE0#8) >>> 5).toNat) = w.val := by
  decide +kernel

theorem toU8_ofNat {i : Int} (h0 : 0 ≤ i) : toU8 i = BitVec.ofNat 8 i.toNat := by
  unfold toU8
  obtain ⟨n, rfl⟩ := Int.eq_ofNat_of_zero_le h0
  rw [BitVec.ofInt_natCast]
  rfl

theorem int_fin {i : Int} {n : Nat} (h0 : 0 ≤ i) (h : i < n) : ∃ k : Fin n, i = (k.val : Int) :=
  ⟨⟨i.toNat, by omega⟩, by simp; omega⟩

/-- Reading the fields of the stored date gives the fields of the local time back, at the start of the minute. -/
theorem dateOfArray_dateArray (z : Zone) (hz : z.Sound) (ns : BitVec 64) (hr : z.DateInRange ns) :
    z.dateOfArray (z.dateArray ns) =
      BitVec.ofNat 64 (ns.toNat / 1000000 % 60000) * 1000000#64 +
      BitVec.ofInt 64 (z.mktime { z.localtime (ns.toNat / 1000000000 : Nat) with sec := 0 }) * 1000000000#64 := by
  have ht : (ns / 1000000000#64).toNat = ns.toNat / 1000000000 := BitVec.toNat_udiv
  have hmin := hz.min (ns.toNat / 1000000000 : Nat) (by omega)
  have hhour := hz.hour (ns.toNat / 1000000000 : Nat) (by omega)
  have hmday := hz.mday (ns.toNat / 1000000000 : Nat) (by omega)
  have hmon := hz.mon (ns.toNat / 1000000000 : Nat) (by omega)
  have hwday := hz.wday (ns.toNat / 1000000000 : Nat) (by omega)
  unfold Zone.DateInRange at hr
  unfold Zone.dateArray
  rw [ht]
  dsimp only
  generalize z.localtime (ns.toNat / 1000000000 : Nat) = tm at *
  obtain ⟨sec, min, hour, mday, mon, year, wday, dst⟩ := tm
  dsimp only at *
  obtain ⟨min', rfl⟩ := int_fin (n := 60) hmin.1 hmin.2
  obtain ⟨hour', rfl⟩ := int_fin (n := 24) hhour.1 hhour.2
  obtain ⟨mday', rfl⟩ := int_fin (n := 32) (by omega) (show mday < 32 by omega)
  obtain ⟨mon', rfl⟩ := int_fin (n := 12) hmon.1 hmon.2
  obtain ⟨wday', rfl⟩ := int_fin (n := 7) hwday.1 hwday.2
  have hy : ∃ y : Fin 100, year.tmod 100 = (y.val : Int) ∧ (if 70 ≤ y.val then (y.val : Int) else 100 + y.val) = year := by
    by_cases h : year < 100
    · refine ⟨⟨year.toNat, by omega⟩, ?_, ?_⟩
      · show year.tmod 100 = ((year.toNat : Nat) : Int)
        rw [Int.tmod_eq_emod_of_nonneg (by omega)]
        omega
      · show (if 70 ≤ year.toNat then ((year.toNat : Nat) : Int) else _) = year
        rw [if_pos (by omega)]
        omega
    · refine ⟨⟨(year - 100).toNat, by omega⟩, ?_, ?_⟩
      · show year.tmod 100 = (((year - 100).toNat : Nat) : Int)
        rw [Int.tmod_eq_emod_of_nonneg (by omega)]
        omega
      · show (if 70 ≤ (year - 100).toNat then (((year - 100).toNat : Nat) : Int) else 100 + (((year - 100).toNat : Nat) : Int)) = year
        rw [if_neg (by omega)]
        omega
  obtain ⟨y, hy1, hy2⟩ := hy
  rw [hy1]
  have u : ∀ n : Nat, toU8 (n : Int) = BitVec.ofNat 8 n := fun n => toU8_ofNat (by omega)
  have um : toU8 (1 + (mon'.val : Int)) = BitVec.ofNat 8 (1 + mon'.val) := by
    have := u (1 + mon'.val)
    rw [← this]
    congr 1
  rw [u, u, u, u, u, um]
  have hms : (((ns / 1000000#64) % 60000#64).setWidth 16).toNat = ns.toNat / 1000000 % 60000 := by
    rw [BitVec.toNat_setWidth, BitVec.toNat_umod, BitVec.toNat_udiv]
    have h1 : (1000000#64).toNat = 1000000 := rfl
    have h2 : (60000#64).toNat = 60000 := rfl
    rw [h1, h2]
    omega
  rw [hms]
  generalize hm : ns.toNat / 1000000 % 60000 = m
  have hw0 : ((wday'.val : Int) = 0) ↔ wday'.val = 0 := by omega
  have hday : (if (wday'.val : Int) = 0 then 7#8 else BitVec.ofNat 8 wday'.val) = (if wday'.val = 0 then 7#8 else BitVec.ofNat 8 wday'.val) := by
    by_cases h : wday'.val = 0
    · rw [if_pos h, if_pos (hw0.2 h)]
    · rw [if_neg h, if_neg (fun e => h (hw0.1 e))]
  rw [hday]
  have k1 := mask_min min'
  have k2 := mask_hour hour' dst
  have k3 := mask_day mday' wday'
  have k4 := mask_mon mon'
  have k5 := mask_year y
  generalize BitVec.ofNat 8 min'.val = bmin at k1 ⊢
  generalize (if dst then BitVec.ofNat 8 hour'.val ||| 0x80#8 else BitVec.ofNat 8 hour'.val) = bhour at k2 ⊢
  generalize BitVec.ofNat 8 mday'.val ||| (if wday'.val = 0 then 7#8 else BitVec.ofNat 8 wday'.val) <<< 5 = bday at k3 ⊢
  generalize BitVec.ofNat 8 (1 + mon'.val) = bmon at k4 ⊢
  generalize BitVec.ofNat 8 y.val = byear at k5 ⊢
  have htake : (leBytes 2 m ++ [bmin, bhour, bday, bmon, byear]).take 2 = leBytes 2 m := List.take_left' (leBytes_length 2 m)
  show BitVec.ofNat 64 (leNat ((leBytes 2 m ++ [bmin, bhour, bday, bmon, byear]).take 2)) * 1000000#64 +
    BitVec.ofInt 64 (z.mktime
      { sec := 0, min := (bmin &&& 0x3F#8).toNat, hour := (bhour &&& 0x1F#8).toNat, mday := (bday &&& 0x1F#8).toNat
        mon := ((bmon &&& 0x3F#8).toNat : Int) - 1
        year := if 70 ≤ (byear &&& 0x7F#8).toNat then ((byear &&& 0x7F#8).toNat : Int) else 100 + ((byear &&& 0x7F#8).toNat : Int)
        wday := if (bday &&& 0xE0#8) >>> 5 = 7#8 then (0 : Int) else (((bday &&& 0xE0#8) >>> 5).toNat : Int)
        dst := decide (bhour &&& 0x80#8 ≠ 0) }) * 1000000000#64 = _
  have k3' : (if (bday &&& 0xE0#8) >>> 5 = 7#8 then (0 : Int) else (((bday &&& 0xE0#8) >>> 5).toNat : Int)) = (wday'.val : Int) := by
    rw [← k3.2]
    split <;> rfl
  have hmn : ((1 + mon'.val : Nat) : Int) - 1 = (mon'.val : Int) := by omega
  rw [htake, leNat_leBytes, Nat.mod_eq_of_lt (show m < 256 ^ 2 by omega), k1, k2.1, k2.2, k3.1, k3', k4, k5, hy2, hmn]

/-- **C41**, dates.  A time stored as CANopen date is read back rounded down to the millisecond if its local year is 1970 to 2069,
with or without daylight saving time. -/
theorem C41_date (z : Zone) (hz : z.Sound) (ns : BitVec 64) (hr : z.DateInRange ns) :
    z.dateOfArray (z.dateArray ns) = roundMs ns := by
  rw [dateOfArray_dateArray z hz ns hr, hz.minute _ (by omega)]
  have hn := ns.isLt
  have hi : BitVec.ofInt 64 (((ns.toNat / 1000000000 : Nat) : Int) - ((ns.toNat / 1000000000 : Nat) : Int) % 60) =
      BitVec.ofNat 64 (ns.toNat / 1000000000 - ns.toNat / 1000000000 % 60) := by
    apply BitVec.eq_of_toNat_eq
    rw [ofInt_toNat (by omega) (by omega), BitVec.toNat_ofNat, Nat.mod_eq_of_lt (by omega)]
    omega
  rw [hi]
  have e : BitVec.ofNat 64 (ns.toNat / 1000000 % 60000) * 1000000#64 +
      BitVec.ofNat 64 (ns.toNat / 1000000000 - ns.toNat / 1000000000 % 60) * 1000000000#64 =
      BitVec.ofNat 64 (ns.toNat / 1000000 % 60000 * 1000000 + (ns.toNat / 1000000000 - ns.toNat / 1000000000 % 60) * 1000000000) := by
    simp only [BitVec.ofNat_add, BitVec.ofNat_mul]
  rw [e]
  apply BitVec.eq_of_toNat_eq
  rw [roundMs_toNat, BitVec.toNat_ofNat]
  generalize ns.toNat = n at hn
  have h1 : n / 1000000000 = n / 1000000 / 1000 := by omega
  have h2 : n / 1000000 / 1000 - n / 1000000 / 1000 % 60 = 60 * (n / 1000000 / 60000) := by omega
  rw [h1, h2]
  generalize hx : n / 1000000 = x
  have hx2 : x * 1000000 < 2 ^ 64 := by omega
  have h3 : x % 60000 * 1000000 + 60 * (x / 60000) * 1000000000 = x * 1000000 := by omega
  rw [h3, Nat.mod_eq_of_lt hx2]

/-- Times of the years 1970 and 2069 are in the range, the year 2070 is not. -/
example : (fixedZone 3600).DateInRange 1#64 ∧ (fixedZone 3600).DateInRange 3155756399123456789#64 ∧
    ¬ (fixedZone 3600).DateInRange 3155756400123456789#64 := by
  unfold Zone.DateInRange
  decide +kernel

/-- A date of the year 2070 is read back as a date of the year 1970. -/
theorem C41_date_2070 : (fixedZone 0).dateOfArray ((fixedZone 0).dateArray 3155760000000000000#64) = 0#64 := by
  decide +kernel

/-- The layout of a date (CiA 301): milliseconds in the minute, minutes, hours with the daylight saving bit, day of the month with
the day of the week, month and year. -/
theorem C41_date_layout (z : Zone) (hz : z.Sound) (ns : BitVec 64) :
    let t := z.localtime (ns.toNat / 1000000000 : Nat)
    ∃ b0 b1 b2 b3 b4 b5 b6 : Byte, z.dateArray ns = [b0, b1, b2, b3, b4, b5, b6] ∧
      b0.toNat + 256 * b1.toNat = ns.toNat / 1000000 % 60000 ∧ b2.toNat = t.min.toNat ∧
      b3.toNat = t.hour.toNat + (if t.dst then 128 else 0) ∧
      b4.toNat = t.mday.toNat + 32 * (if t.wday = 0 then 7 else t.wday.toNat) ∧ b5.toNat = t.mon.toNat + 1 ∧
      b6 = toU8 (t.year.tmod 100) := by
  have ht : (ns / 1000000000#64).toNat = ns.toNat / 1000000000 := BitVec.toNat_udiv
  have hmin := hz.min (ns.toNat / 1000000000 : Nat) (by omega)
  have hhour := hz.hour (ns.toNat / 1000000000 : Nat) (by omega)
  have hmday := hz.mday (ns.toNat / 1000000000 : Nat) (by omega)
  have hmon := hz.mon (ns.toNat / 1000000000 : Nat) (by omega)
  have hwday := hz.wday (ns.toNat / 1000000000 : Nat) (by omega)
  unfold Zone.dateArray
  rw [ht]
  dsimp only
  generalize z.localtime (ns.toNat / 1000000000 : Nat) = tm at *
  obtain ⟨sec, min, hour, mday, mon, year, wday, dst⟩ := tm
  dsimp only at *
  refine ⟨_, _, _, _, _, _, _, rfl, ?_, ?_, ?_, ?_, ?_, rfl⟩
  · have hms : (((ns / 1000000#64) % 60000#64).setWidth 16).toNat = ns.toNat / 1000000 % 60000 := by
      rw [BitVec.toNat_setWidth, BitVec.toNat_umod, BitVec.toNat_udiv]
      have h1 : (1000000#64).toNat = 1000000 := rfl
      have h2 : (60000#64).toNat = 60000 := rfl
      rw [h1, h2]
      omega
    rw [hms]
    generalize ns.toNat / 1000000 % 60000 = m at *
    have hm : m < 65536 := by rw [← hms]; exact BitVec.isLt _
    rw [BitVec.toNat_ofNat, BitVec.toNat_ofNat]
    omega
  · exact toU8_toNat (by omega) (by omega)
  · obtain ⟨h, rfl⟩ := int_fin (n := 24) hhour.1 hhour.2
    rw [toU8_ofNat (by omega)]
    have : ∀ h : Fin 24, ∀ d : Bool, (if d then BitVec.ofNat 8 h.val ||| 0x80#8 else BitVec.ofNat 8 h.val).toNat = h.val + (if d then 128 else 0) := by
      decide
    exact this h dst
  · obtain ⟨d, rfl⟩ := int_fin (n := 32) (show 0 ≤ mday by omega) (by omega)
    obtain ⟨w, rfl⟩ := int_fin (n := 7) hwday.1 hwday.2
    rw [toU8_ofNat (by omega), toU8_ofNat (by omega)]
    have : ∀ d : Fin 32, ∀ w : Fin 7, (BitVec.ofNat 8 d.val ||| (if (w.val : Int) = 0 then 7#8 else BitVec.ofNat 8 w.val) <<< 5).toNat =
        d.val + 32 * (if (w.val : Int) = 0 then 7 else w.val) := by
      decide +kernel
    exact this d w
  · rw [toU8_toNat (by omega) (by omega)]
    omega

/-- The bit count a CANopen channel gets when the measurement is prepared, whatever it was: a date has 7 bytes, a time 6. -/
theorem C41_sizes (bits : Nat) : prepareBits .canOpenDate bits = (8 * 7, false) ∧ prepareBits .canOpenTime bits = (8 * 6, false) :=
  ⟨rfl, rfl⟩

theorem timeArray_length (z : Zone) (ns : BitVec 64) : (z.timeArray ns).length = 6 := by simp [Zone.timeArray]
theorem dateArray_length (z : Zone) (ns : BitVec 64) : (z.dateArray ns).length = 7 := by simp [Zone.dateArray]

/-- **C41** on a channel.  A value set on a CANopen channel as prepared for writing is read from the record rounded down to the
millisecond; nothing else in the record changes (`Stored`, C07). -/
theorem C41_channel (z : Zone) (hz : z.Sound) (c : Chan) (ns : BitVec 64) (valid : Bool) (i : Nat) (buf : Bytes)
    (hd : (c.dataType = .canOpenDate ∧ z.DateInRange ns) ∨ (c.dataType = .canOpenTime ∧ z.TimeInRange ns))
    (hc : c.bitCount = (prepareBits c.dataType 0).1) (bit0 : c.bitOffset = 0)
    (inside : c.byteOffset + c.dataBytes ≤ c.nofDataBytes) (data : c.nofDataBytes ≤ buf.length) (vp : c.ValidPosOk 0) :
    ∃ out, c.setCanOpen z ns valid i buf = some out ∧ Stored c 0 valid buf out ∧ c.getCanOpen z out = .ok (roundMs ns) := by
  rcases hd with ⟨hd, hr⟩ | ⟨hd, hr⟩
  · rw [hd] at hc
    have hb : c.bitCount = 8 * 7 := hc
    have hdb := dataBytes_of_bitCount c 7 hb
    obtain ⟨out, h1, h2, h3⟩ := C07_byte_array_roundtrip c (z.dateArray ns) valid buf 7 (by decide) hb bit0 (by omega) data vp
    refine ⟨out, ?_, h2, ?_⟩
    · unfold Chan.setCanOpen
      rw [hd]
      show (if c.dataBytes = 7 then _ else _) = _
      rw [if_pos hdb]
      exact h1
    · unfold Chan.getCanOpen
      rw [hd]
      show (if c.byteOffset + 7 ≤ out.length then _ else _) = _
      unfold Chan.getByteArray at h3
      rw [hdb, if_neg (by decide)] at h3
      by_cases hl : c.byteOffset + 7 ≤ out.length
      · rw [if_pos hl] at h3 ⊢
        injection h3 with h3
        rw [h3, dateArray_length, List.take_of_length_le (by rw [dateArray_length]; exact Nat.le_refl _)]
        simp only [Nat.sub_self, List.replicate_zero, List.append_nil]
        rw [C41_date z hz ns hr]
      · rw [if_neg hl] at h3
        exact nomatch h3
  · rw [hd] at hc
    have hb : c.bitCount = 8 * 6 := hc
    have hdb := dataBytes_of_bitCount c 6 hb
    obtain ⟨out, h1, h2, h3⟩ := C07_byte_array_roundtrip c (z.timeArray ns) valid buf 6 (by decide) hb bit0 (by omega) data vp
    refine ⟨out, ?_, h2, ?_⟩
    · unfold Chan.setCanOpen
      rw [hd]
      show (if c.dataBytes = 6 then _ else _) = _
      rw [if_pos hdb]
      exact h1
    · unfold Chan.getCanOpen
      rw [hd]
      show (if c.byteOffset + 6 ≤ out.length then _ else _) = _
      unfold Chan.getByteArray at h3
      rw [hdb, if_neg (by decide)] at h3
      by_cases hl : c.byteOffset + 6 ≤ out.length
      · rw [if_pos hl] at h3 ⊢
        injection h3 with h3
        rw [h3, timeArray_length, List.take_of_length_le (by rw [timeArray_length]; exact Nat.le_refl _)]
        simp only [Nat.sub_self, List.replicate_zero, List.append_nil]
        rw [(C41_time_iff z hz ns).2 hr]
      · rw [if_neg hl] at h3
        exact nomatch h3

/-- The full claim for the text of a CANopen channel: it shows the second and the millisecond of the time. -/
def C41_TextStatement : Prop :=
  ∀ ns : BitVec 64, canOpenShown ns = (ns.toNat / 1000000000, ns.toNat / 1000000 % 1000)

/-- The text is wrong for every time from a microsecond on: the time in nanoseconds is taken as milliseconds. -/
theorem C41_text_false (ns : BitVec 64) (h : 1000 ≤ ns.toNat) :
    canOpenShown ns ≠ (ns.toNat / 1000000000, ns.toNat / 1000000 % 1000) := by
  intro e
  have h1 : (canOpenShown ns).1 = ns.toNat / 1000000000 := by rw [e]
  have h2 : (canOpenShown ns).1 = ns.toNat / 1000 := BitVec.toNat_udiv
  omega

theorem C41_text_statement_false : ¬ C41_TextStatement :=
  fun h => C41_text_false 1000#64 (by decide) (h _)

/-- A CANopen time channel behind another byte, with a validity bit. -/
def exCanOpen : Chan :=
  { type := .fixedLength, dataType := .canOpenTime, byteOffset := 1, bitOffset := 0, bitCount := 48, invalidFlag := true,
    invalidPos := 0, nofDataBytes := 7, arraySize := 1 }

example : ∃ out, exCanOpen.setCanOpen (fixedZone 0) 1763251217123456789#64 true 0 [9, 0, 0, 0, 0, 0, 0, 1] = some out ∧
    out = [9, 0xE3, 0x42, 0, 0, 0xBF, 0x3B, 0] ∧ exCanOpen.ValidPosOk 0 ∧
    exCanOpen.getCanOpen (fixedZone 0) out = .ok 1763251217123000000#64 := by
  refine ⟨_, rfl, ?_⟩
  decide +kernel

end Mdf
