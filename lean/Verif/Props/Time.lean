import Verif.Proof.Time

/-!
**C63**: texts of dates and times stand for the times they say.
-/

namespace Mdf

/-! ### The calendar -/

theorem findMonth_lt (l : List Int) (m : Nat) (d : Int) (h0 : 0 ≤ d) (hd : d < l.sum) :
    (findMonth l m d).2 < l.getD ((findMonth l m d).1 - m) 0 ∧ m ≤ (findMonth l m d).1 := by
  induction l generalizing m d with
  | nil => simp at hd; omega
  | cons n l ih =>
    rw [findMonth]
    by_cases h : d < n
    · rw [if_pos h]
      simp [h]
    · rw [if_neg h]
      obtain ⟨a, b⟩ := ih (m + 1) (d - n) (by omega) (by simp at hd; omega)
      generalize findMonth l (m + 1) (d - n) = r at a b
      refine ⟨?_, by omega⟩
      rw [show r.1 - m = (r.1 - (m + 1)) + 1 by omega]
      simpa using a

theorem daysBefore_mono (y : Int) (k : Nat) : daysBefore y ≤ daysBefore (y + k) := by
  induction k with
  | zero => rw [Int.natCast_zero, Int.add_zero]; exact Int.le_refl _
  | succ k ih =>
    rw [show y + ((k + 1 : Nat) : Int) = y + k + 1 by omega, daysBefore_succ]
    have := (yearDays_bounds (y + k)).1
    omega

theorem daysBefore_le {y z : Int} (h : y ≤ z) : daysBefore y ≤ daysBefore z := by
  have := daysBefore_mono y (z - y).toNat
  rwa [show y + ((z - y).toNat : Int) = z by omega] at this

theorem floor_toNat (ns : BitVec 64) (k : Nat) (hk : k < 2 ^ 64) : (ns / BitVec.ofNat 64 k * BitVec.ofNat 64 k).toNat = ns.toNat / k * k := by
  rw [BitVec.toNat_mul, BitVec.toNat_udiv, BitVec.toNat_ofNat, Nat.mod_eq_of_lt hk, Nat.mod_eq_of_lt]
  exact Nat.lt_of_le_of_lt (Nat.div_mul_le_self _ _) ns.isLt

theorem secs_ns (a : Nat) : BitVec.ofNat 64 a * 1000000000#64 + BitVec.ofNat 64 0 = BitVec.ofNat 64 (a * 1000000000) := by
  rw [BitVec.ofNat_mul]
  exact BitVec.add_zero _

/-- The fields of a time are a date that exists and its seconds are the time. -/
theorem gmtime_fields (t : Int) (h0 : 0 ≤ t) (h1 : t < 18446744074) (frac : List Nat) (hf : (∀ d ∈ frac, d < 10) ∧ frac.length ≤ 9) :
    ∃ x : IsoTime, x.Valid ∧ x.zone = .utc ∧ x.frac = frac ∧ x.civil = t ∧ dateText (gmtime t) = pad4 x.year ++ 0x2D#8 :: pad2 x.month ++ 0x2D#8 :: pad2 x.day ∧
      clockText (gmtime t) = pad2 x.hour ++ 0x3A#8 :: pad2 x.minute ++ 0x3A#8 :: pad2 x.second := by
  unfold gmtime dateText clockText fixedZone
  dsimp only
  rw [Int.add_zero]
  generalize hdays : t / 86400 = days
  obtain ⟨a, b, c⟩ := findYear_spec (days + 366).toNat 1969 (days + 365) (by omega) (by omega)
  generalize findYear (days + 366).toNat 1969 (days + 365) = y at a b c
  obtain ⟨y, d⟩ := y
  dsimp only at a b c ⊢
  have hs : d < (monthDays (isLeap y)).sum := by
    rw [monthDays_sum]
    exact c
  have hms := findMonth_spec (monthDays (isLeap y)) 0 d b hs (monthDays_le _)
  have hml := findMonth_lt (monthDays (isLeap y)) 0 d b hs
  generalize findMonth (monthDays (isLeap y)) 0 d = m at hms hml
  obtain ⟨m, e⟩ := m
  dsimp only at hms hml ⊢
  obtain ⟨_, m1, m2, m3, m4⟩ := hms
  have hlen : (monthDays (isLeap y)).length = 12 := rfl
  rw [hlen] at m1
  rw [Nat.sub_zero] at m2 hml
  have hy := yearDays_bounds y
  have hdays2 : 0 ≤ days ∧ days < 213504 := by omega
  have hbnd : 1970 ≤ y ∧ y ≤ 9999 := by
    have h69 : daysBefore 1969 = 718797 := by decide
    have h70 : daysBefore 1970 = 719162 := by decide
    have h99 : daysBefore 10000 = 3652059 := by decide
    constructor
    · rcases Int.lt_or_le y 1970 with h | h
      · have h1 := daysBefore_le (show y + 1 ≤ 1970 by omega)
        rw [daysBefore_succ] at h1
        clear hs m2 m3 m4 hml
        omega
      · exact h
    · rcases Int.lt_or_le 9999 y with h | h
      · have h1 := daysBefore_le (show 10000 ≤ y by omega)
        clear hs m2 m3 m4 hml
        omega
      · exact h
  have ey : ((y - 1900 + 1900).toNat : Int) = y := by omega
  have em : (((m : Int) + 1).toNat) = m + 1 := by omega
  have ed : (((e + 1).toNat : Nat) : Int) = e + 1 := by omega
  refine ⟨⟨(y - 1900 + 1900).toNat, m + 1, (e + 1).toNat, (t % 86400 / 3600).toNat, (t % 86400 / 60 % 60).toNat, (t % 86400 % 60).toNat, frac, .utc⟩,
    ⟨by dsimp only; omega, by dsimp only; omega, ?_, by dsimp only; omega, by dsimp only; omega, by dsimp only; omega, hf, trivial⟩, rfl, rfl, ?_, ?_, rfl⟩
  · dsimp only
    rw [ey, ed, Nat.add_sub_cancel]
    omega
  · unfold IsoTime.civil
    dsimp only
    rw [ey, ed, Nat.add_sub_cancel]
    unfold daysBeforeMonth
    have h70 : daysBefore 1970 = daysBefore 1969 + 365 := by decide
    omega
  · rw [em]

theorem findYear_at (k : Nat) : ∀ (fuel : Nat) (y d : Int), 0 ≤ d → d < yearDays (y + k) → k < fuel →
    findYear fuel y (daysBefore (y + k) - daysBefore y + d) = (y + k, d) := by
  induction k with
  | zero =>
    intro fuel y d h0 hd hf
    obtain ⟨n, rfl⟩ := Nat.exists_eq_succ_of_ne_zero (show fuel ≠ 0 by omega)
    rw [findYear, Int.natCast_zero, Int.add_zero] at *
    rw [Int.sub_self, Int.zero_add, if_pos hd]
  | succ k ih =>
    intro fuel y d h0 hd hf
    obtain ⟨n, rfl⟩ := Nat.exists_eq_succ_of_ne_zero (show fuel ≠ 0 by omega)
    have e : y + ((k + 1 : Nat) : Int) = y + 1 + (k : Int) := by omega
    rw [e] at hd ⊢
    have hs := daysBefore_succ y
    have hge : daysBefore (y + 1) ≤ daysBefore (y + 1 + k) := by
      unfold daysBefore
      omega
    rw [findYear, if_neg (by omega)]
    have := ih n (y + 1) d h0 hd (by omega)
    rw [← this]
    congr 1
    omega

theorem findMonth_at (l : List Int) (m k : Nat) (d : Int) (hl : ∀ n ∈ l, 0 ≤ n) (h0 : 0 ≤ d) (hd : d < l.getD k 0) :
    findMonth l m ((l.take k).sum + d) = (m + k, d) := by
  induction l generalizing m k with
  | nil => simp at hd; omega
  | cons n l ih =>
    rw [findMonth]
    cases k with
    | zero =>
      rw [if_pos (by simpa using hd)]
      simp
    | succ k =>
      have hsum : 0 ≤ (l.take k).sum := by
        have : ∀ x ∈ l.take k, 0 ≤ x := fun x hx => hl x (List.mem_cons_of_mem _ (List.mem_of_mem_take hx))
        generalize l.take k = t at this
        clear ih hd hl
        induction t with
        | nil => simp
        | cons a t iht =>
          rw [List.sum_cons]
          have h1 := this a List.mem_cons_self
          have h2 := iht (fun x hx => this x (List.mem_cons_of_mem _ hx))
          omega
      rw [List.take_succ_cons, List.sum_cons, if_neg (by omega)]
      rw [show n + (l.take k).sum + d - n = (l.take k).sum + d by omega,
        ih (m + 1) k (fun x hx => hl x (List.mem_cons_of_mem _ hx)) (by simpa using hd)]
      congr 1
      omega

/-- **C63** (calendar).  The seconds of a date that exists give this date back: the calendar of the C library and the count of days are
inverse to each other. -/
theorem C63_calendar (x : IsoTime) (hx : x.Valid) :
    ∃ w, gmtime x.civil = ⟨x.second, x.minute, x.hour, x.day, (x.month : Int) - 1, (x.year : Int) - 1900, w, false⟩ := by
  have hy := hx.year
  have hm := hx.month
  have hd := hx.day
  have hh := hx.hour
  have hn := hx.minute
  have hsec := hx.second
  have hdoy0 : ∀ k ≤ 12, 0 ≤ daysBeforeMonth (isLeap x.year) k := by
    cases isLeap x.year <;> decide
  have hdoy : daysBeforeMonth (isLeap x.year) (x.month - 1) + ((x.day : Int) - 1) < yearDays x.year := by
    unfold yearDays
    have : ∀ b : Bool, ∀ k < 12, daysBeforeMonth b k + (monthDays b).getD k 0 ≤ if b then 366 else 365 := by decide
    have := this (isLeap x.year) (x.month - 1) (by omega)
    omega
  have h0 := hdoy0 (x.month - 1) (by omega)
  have hge : daysBefore 1970 ≤ daysBefore x.year := by unfold daysBefore; omega
  generalize hdo : daysBeforeMonth (isLeap x.year) (x.month - 1) + ((x.day : Int) - 1) = doy at hdoy
  have e1 : x.civil / 86400 = daysBefore x.year - daysBefore 1970 + doy := by
    unfold IsoTime.civil
    omega
  have e2 : x.civil % 86400 = x.hour * 3600 + x.minute * 60 + x.second := by
    unfold IsoTime.civil
    omega
  have h70 : daysBefore 1970 = daysBefore 1969 + 365 := by decide
  have hfy : findYear (daysBefore x.year - daysBefore 1970 + doy + 366).toNat 1969 (daysBefore x.year - daysBefore 1970 + doy + 365) =
      ((x.year : Int), doy) := by
    have := findYear_at (x.year - 1969) (daysBefore x.year - daysBefore 1970 + doy + 366).toNat 1969 doy (by omega)
      (by rw [show (1969 : Int) + (x.year - 1969 : Nat) = x.year by omega]; exact hdoy) (by
        have : (x.year : Int) - 1970 ≤ daysBefore x.year - daysBefore 1970 := by unfold daysBefore; omega
        omega)
    rw [show (1969 : Int) + (x.year - 1969 : Nat) = x.year by omega] at this
    rw [← this]
    congr 1
    omega
  have hfm : findMonth (monthDays (isLeap x.year)) 0 doy = (x.month - 1, (x.day : Int) - 1) := by
    have hnn : ∀ b : Bool, ∀ n ∈ monthDays b, 0 ≤ n := by decide
    have := findMonth_at (monthDays (isLeap x.year)) 0 (x.month - 1) ((x.day : Int) - 1) (hnn _) (by omega) (by omega)
    rw [Nat.zero_add] at this
    rw [← this, ← hdo]
    rfl
  refine ⟨(x.civil / 86400 + 4) % 7, ?_⟩
  unfold gmtime fixedZone
  dsimp only
  rw [Int.add_zero, e1, e2, hfy]
  dsimp only
  rw [hfm]
  dsimp only
  congr 1 <;> omega

/-! ### Reading -/

/-- **C63**, full statement: a text in the usual form is read as the time it stands for, if that time has a place in the 64 bits of a
time stamp. -/
def C63_Statement : Prop :=
  ∀ (f : IsoForm) (x : IsoTime) (old : BitVec 64), x.Valid → 0 ≤ x.ns → x.ns < 2 ^ 64 → fromIso old (x.text f) = some (BitVec.ofInt 64 x.ns)

/-- **C63** (partial: the fraction has 3, 6 or 9 digits or is not there; an offset is written with a colon and is positive or of whole
hours).  Every such text is read as the time it stands for. -/
theorem C63_read_partial (f : IsoForm) (x : IsoTime) (old : BitVec 64) (hx : x.Valid)
    (hfrac : x.frac.length = 0 ∨ x.frac.length = 3 ∨ x.frac.length = 6 ∨ x.frac.length = 9)
    (hzone : ∀ neg h m, x.zone = .offset neg h m → f.basic = false ∧ (neg = false ∨ m = 0)) :
    fromIso old (x.text f) = some (BitVec.ofInt 64 x.ns) := by
  rw [fromIso_text f x hx]
  have hz : x.zone.readSeconds f = x.zone.seconds := by
    cases hz : x.zone with
    | none => rfl
    | utc => rfl
    | offset neg h m =>
      obtain ⟨hb, hm⟩ := hzone neg h m hz
      unfold IsoZone.readSeconds IsoZone.seconds
      dsimp only
      rw [hb]
      cases neg
      · simp; omega
      · have : m = 0 := by simpa using hm
        subst this
        simp
        omega
  have hf : readFrac x.frac = digitsValue x.frac * 10 ^ (9 - x.frac.length) := by
    unfold readFrac
    obtain h | h | h | h := hfrac
    · rw [List.length_eq_zero_iff] at h
      rw [h]; rfl
    · rw [h]; rfl
    · rw [h]; rfl
    · rw [h]; rfl
  rw [hz, hf, IsoTime.ns]

example : (IsoTime.mk 2024 2 29 23 59 58 [1, 2, 3, 4, 5, 6] (.offset false 5 30)).Valid := by
  refine ⟨by decide, by decide, by decide, by decide, by decide, by decide, by decide, ⟨by decide, by decide⟩⟩

example : (IsoTime.mk 2024 2 29 23 59 58 [1, 2, 3] (.offset false 5 30)).text ⟨false, false⟩ =
    "2024-02-29T23:59:58.123+05:30".toUTF8.toList.map (fun c => BitVec.ofNat 8 c.toNat) ∧
    (IsoTime.mk 2024 2 29 23 59 58 [1, 2, 3] (.offset false 5 30)).ns = 1709231398123000000 := by decide +kernel

example : fromIso 0 ("20240229 235958.123Z".toUTF8.toList.map (fun c => BitVec.ofNat 8 c.toNat)) = some 1709251198123000000#64 := by
  decide +kernel

/-! ### Writing -/

/-- **C63** (writing).  The text of a time stamp is a date and time in UTC that stands for the time stamp, down to the millisecond if
milliseconds are wanted and else down to the second. -/
theorem C63_written (ns : BitVec 64) (ms : Bool) : ∃ x : IsoTime, x.Valid ∧ x.zone = .utc ∧ toIsoDateTime ns ms = x.text ⟨false, false⟩ ∧
    (x.frac.length = 0 ∨ x.frac.length = 3) ∧
    x.ns = if ms then (ns.toNat / 1000000 * 1000000 : Nat) else (ns.toNat / 1000000000 * 1000000000 : Nat) := by
  have hlt := ns.isLt
  generalize hms : ns.toNat / 1000000 % 1000 = k
  have hk : k < 1000 := by omega
  let frac : List Nat := if k > 0 && ms then [k / 100, k / 10 % 10, k % 10] else []
  have hfrac : (∀ d ∈ frac, d < 10) ∧ frac.length ≤ 9 := by
    dsimp only [frac]
    split
    · refine ⟨fun d hd => ?_, by simp⟩
      simp only [List.mem_cons, List.not_mem_nil, or_false] at hd
      omega
    · simp
  obtain ⟨x, hx, hz, hf, hc, hd, ht⟩ := gmtime_fields (ns.toNat / 1000000000 : Nat) (by omega) (by omega) frac hfrac
  refine ⟨x, hx, hz, ?_, ?_, ?_⟩
  · unfold toIsoDateTime IsoTime.text
    rw [hd, ht, hf, hz]
    have hm : msText ns ms = if frac = [] then [] else 0x2E#8 :: frac.map dig := by
      unfold msText
      dsimp only [frac]
      rw [hms]
      split
      · simp [pad3]
      · simp
    rw [hm]
    simp [IsoForm.sep, IsoZone.text]
  · rw [hf]
    dsimp only [frac]
    split <;> simp
  · unfold IsoTime.ns
    rw [hz, hc, hf]
    dsimp only [frac, IsoZone.seconds]
    cases ms
    · simp [digitsValue]
    · by_cases h0 : k > 0
      · simp [h0, digitsValue]
        omega
      · simp [h0, digitsValue]
        omega

/-- **C63** (writing and reading).  Every 64 bit time stamp that is written as a text is read back, rounded down to milliseconds (or to
seconds if milliseconds are not wanted). -/
theorem C63_round_trip (ns old : BitVec 64) (ms : Bool) : fromIso old (toIsoDateTime ns ms) =
    some (if ms then ns / 1000000#64 * 1000000#64 else ns / 1000000000#64 * 1000000000#64) := by
  obtain ⟨x, hx, hz, ht, hf, hns⟩ := C63_written ns ms
  rw [ht, C63_read_partial _ x old hx (by omega) (fun neg h m e => by rw [hz] at e; cases e), hns]
  congr 1
  apply BitVec.eq_of_toNat_eq
  have hlt := ns.isLt
  cases ms
  · rw [if_neg (by simp), if_neg (by simp), floor_toNat ns 1000000000 (by decide), BitVec.ofInt_natCast, BitVec.toNat_ofNat, Nat.mod_eq_of_lt]
    exact Nat.lt_of_le_of_lt (Nat.div_mul_le_self _ _) hlt
  · rw [if_pos rfl, if_pos rfl, floor_toNat ns 1000000 (by decide), BitVec.ofInt_natCast, BitVec.toNat_ofNat, Nat.mod_eq_of_lt]
    exact Nat.lt_of_le_of_lt (Nat.div_mul_le_self _ _) hlt

example : toIsoDateTime 1709251198123456789#64 true = "2024-02-29T23:59:58.123Z".toUTF8.toList.map (fun c => BitVec.ofNat 8 c.toNat) ∧
    toIsoDateTime 1709251198000456789#64 true = "2024-02-29T23:59:58Z".toUTF8.toList.map (fun c => BitVec.ofNat 8 c.toNat) := by decide +kernel

/-- The largest time stamp. -/
example : toIsoDateTime (BitVec.allOnes 64) true = "2554-07-21T23:34:33.709Z".toUTF8.toList.map (fun c => BitVec.ofNat 8 c.toNat) := by
  decide +kernel

/-- **C63** (dates).  The text of the date of a time stamp is read as the start of that day. -/
theorem C63_date (ns old : BitVec 64) : (fromIso old (toIsoDate ns)).map BitVec.toNat =
    some (ns.toNat / 86400000000000 * 86400000000000) := by
  have hlt := ns.isLt
  obtain ⟨x, hx, _, _, hc, hd, _⟩ := gmtime_fields (ns.toNat / 1000000000 : Nat) (by omega) (by omega) [] ⟨by simp, by simp⟩
  have hy := hx.year
  have hm := hx.month
  have hday := day_lt x hx
  have hday1 := hx.day.1
  have hscan : (toIsoDate ns).foldl isoStep .init = ⟨.day, pad4 x.year, pad2 x.month, pad2 x.day, [], [], [], [], [], [], true⟩ := by
    unfold toIsoDate
    rw [hd]
    have := scan_date ⟨false, false⟩ x.year x.month x.day (by omega) (by omega) (by omega)
    have e : pad4 x.year ++ 0x2D#8 :: pad2 x.month ++ 0x2D#8 :: pad2 x.day =
        pad4 x.year ++ IsoForm.sep ⟨false, false⟩ 0x2D#8 ++ pad2 x.month ++ IsoForm.sep ⟨false, false⟩ 0x2D#8 ++ pad2 x.day := by
      simp [IsoForm.sep]
    rw [List.foldl_append, e, this]
    simp [isoStep, IsoScan.zone, isDig]
  let z : IsoTime := { x with hour := 0, minute := 0, second := 0 }
  have hgm : timegm (IsoScan.tm ⟨.day, pad4 x.year, pad2 x.month, pad2 x.day, [], [], [], [], [], [], true⟩) = z.civil := by
    have hz : z.Valid := ⟨hx.year, hx.month, hx.day, Nat.zero_le _, Nat.zero_le _, Nat.zero_le _, hx.frac, hx.zone⟩
    have e : IsoScan.tm ⟨.day, pad4 x.year, pad2 x.month, pad2 x.day, [], [], [], [], [], [], true⟩ =
        IsoScan.tm ⟨.day, pad4 x.year, pad2 x.month, pad2 x.day, pad2 0, pad2 0, pad2 0, [], [], [], true⟩ := by
      unfold IsoScan.tm
      dsimp only
      have : ∀ b, isoField [] 0 0 b 0 = isoField (pad2 0) 0 0 b 0 := fun b => by
        unfold isoField
        rw [digits_pad2 (by omega), if_neg (show pad2 0 ≠ [] by simp [pad2])]
        rfl
      rw [this, this]
    rw [e]
    exact timegm_scan z hz _ rfl rfl rfl rfl rfl rfl
  unfold fromIso
  rw [hscan]
  dsimp only
  rw [hgm]
  have hoff : IsoScan.offset ⟨.day, pad4 x.year, pad2 x.month, pad2 x.day, [], [], [], [], [], [], true⟩ = .ok 0 := by
    simp [IsoScan.offset, isInt32]
  have hfr : IsoScan.fraction ⟨.day, pad4 x.year, pad2 x.month, pad2 x.day, [], [], [], [], [], [], true⟩ = some 0 := by
    simp [IsoScan.fraction]
  rw [hoff]
  dsimp only
  rw [hfr]
  dsimp only
  rw [Option.map_some]
  congr 1
  have hzc : z.civil = (ns.toNat / 1000000000 : Nat) - (x.hour * 3600 + x.minute * 60 + x.second : Nat) := by
    rw [← hc]
    dsimp only [z, IsoTime.civil]
    omega
  have hh := hx.hour
  have hn := hx.minute
  have hs := hx.second
  have hdiv : z.civil % 86400 = 0 := by
    dsimp only [z, IsoTime.civil]
    omega
  have hval : z.civil = (ns.toNat / 86400000000000 * 86400 : Nat) := by omega
  rw [hval, if_pos rfl, Int.sub_zero, BitVec.ofInt_natCast]
  rw [secs_ns, BitVec.toNat_ofNat, Nat.mod_eq_of_lt (by omega)]
  omega

/-! ### Where the statement is false -/

/-- **C63** (fractions).  With any other number of digits than 3, 6 or 9 a fraction is read wrongly, unless it is zero: the digits are
taken as milliseconds (1 or 2 digits), microseconds (4 or 5) or nanoseconds (7 or 8). -/
theorem C63_fraction_wrong (f : IsoForm) (x : IsoTime) (old : BitVec 64) (hx : x.Valid) (hz : x.zone = .utc) (h0 : digitsValue x.frac ≠ 0)
    (hlen : x.frac.length ≠ 3 ∧ x.frac.length ≠ 6 ∧ x.frac.length ≠ 9) : fromIso old (x.text f) ≠ some (BitVec.ofInt 64 x.ns) := by
  rw [fromIso_text f x hx, IsoTime.ns, hz]
  intro h
  have h := Option.some.inj h
  have hv := digitsValue_lt _ hx.frac.1
  have hl := hx.frac.2
  generalize x.civil = c at h
  have hr : readFrac x.frac < 10 ^ 9 ∧ digitsValue x.frac * 10 ^ (9 - x.frac.length) < 10 ^ 9 ∧
      readFrac x.frac ≠ digitsValue x.frac * 10 ^ (9 - x.frac.length) := by
    unfold readFrac
    generalize digitsValue x.frac = v at *
    have hcase : x.frac.length = 0 ∨ x.frac.length = 1 ∨ x.frac.length = 2 ∨ x.frac.length = 4 ∨ x.frac.length = 5 ∨ x.frac.length = 7 ∨
        x.frac.length = 8 := by omega
    obtain h | h | h | h | h | h | h := hcase <;> rw [h] at hv ⊢ <;> simp at hv ⊢ <;> omega
  obtain ⟨r1, r2, r3⟩ := hr
  generalize readFrac x.frac = a at *
  generalize digitsValue x.frac * 10 ^ (9 - x.frac.length) = b at *
  have h := congrArg BitVec.toNat h
  rw [BitVec.toNat_ofInt, BitVec.toNat_ofInt] at h
  simp only [IsoZone.seconds, IsoZone.readSeconds] at h
  omega

/-- **C63** (negative offsets).  The minutes of a negative offset are added to the hours instead of subtracted: the time is wrong by twice the
minutes. -/
theorem C63_negative_offset (x : IsoTime) (old : BitVec 64) (blank : Bool) (h m : Nat) (hx : x.Valid) (hz : x.zone = .offset true h m)
    (hf : x.frac.length = 0 ∨ x.frac.length = 3 ∨ x.frac.length = 6 ∨ x.frac.length = 9) :
    fromIso old (x.text ⟨false, blank⟩) = some (BitVec.ofInt 64 (x.ns - 2 * m * 60000000000)) := by
  rw [fromIso_text _ x hx, IsoTime.ns, hz]
  have hfr : readFrac x.frac = digitsValue x.frac * 10 ^ (9 - x.frac.length) := by
    unfold readFrac
    obtain h | h | h | h := hf
    · rw [List.length_eq_zero_iff] at h
      rw [h]; rfl
    · rw [h]; rfl
    · rw [h]; rfl
    · rw [h]; rfl
  rw [hfr]
  congr 2
  simp only [IsoZone.seconds, IsoZone.readSeconds, Bool.false_eq_true, if_false, if_true]
  omega

/-- **C63** (offsets without a colon).  The four digits of an offset without a colon are taken as hours. -/
theorem C63_offset_without_colon (x : IsoTime) (old : BitVec 64) (blank neg : Bool) (h m : Nat) (hx : x.Valid) (hz : x.zone = .offset neg h m)
    (hf : x.frac = []) : fromIso old (x.text ⟨true, blank⟩) =
      some (BitVec.ofInt 64 ((x.civil - (if neg then -1 else 1) * (100 * h + m) * 3600) * 1000000000)) := by
  rw [fromIso_text _ x hx, hz, hf]
  congr 2
  simp only [IsoZone.readSeconds, if_true, readFrac, digitsValue, List.foldl_nil]
  omega

/-- **C63 is false**: half a second after noon, with one digit. -/
theorem C63_full_statement_fails : ¬ C63_Statement := by
  intro h
  have hv : (IsoTime.mk 2024 1 1 12 0 0 [5] .utc).Valid :=
    ⟨by decide, by decide, by decide, by decide, by decide, by decide, by decide, trivial⟩
  exact C63_fraction_wrong ⟨false, false⟩ _ 0 hv rfl (by decide) (by decide) (h ⟨false, false⟩ _ 0 hv (by decide) (by decide))

example : fromIso 0 ("2024-01-01T12:00:00.5Z".toUTF8.toList.map (fun c => BitVec.ofNat 8 c.toNat)) = some 1704110400005000000#64 ∧
    fromIso 0 ("2024-01-01T12:00:00-03:30".toUTF8.toList.map (fun c => BitVec.ofNat 8 c.toNat)) =
      fromIso 0 ("2024-01-01T14:30:00Z".toUTF8.toList.map (fun c => BitVec.ofNat 8 c.toNat)) ∧
    fromIso 0 ("2024-01-01T12:00:00+0100".toUTF8.toList.map (fun c => BitVec.ofNat 8 c.toNat)) =
      fromIso 0 ("2023-12-28T08:00:00Z".toUTF8.toList.map (fun c => BitVec.ofNat 8 c.toNat)) := by decide +kernel

/-- **C63** (times of day).  The text that `ToIsoTime` writes is not understood: its digits are taken for a year, a month and a day. -/
theorem C63_time_of_day : toIsoTime 45296000000000#64 true = "12:34:56Z".toUTF8.toList.map (fun c => BitVec.ofNat 8 c.toNat) ∧
    fromIso 0 (toIsoTime 45296000000000#64 true) = some 0#64 := by decide +kernel

/-- A text that ends after the sign of the offset. -/
def isoNoOffset : Bytes := "2024-01-01T12:00:00+".toUTF8.toList.map (fun c => BitVec.ofNat 8 c.toNat)

/-- Without the offset after its sign nothing is set: the time stays as it was. -/
theorem C63_offset_missing (old : BitVec 64) : fromIso old isoNoOffset = some old := by
  have h : (isoNoOffset.foldl isoStep .init).offset = .throw := by decide +kernel
  unfold fromIso
  simp only [h]

end Mdf
