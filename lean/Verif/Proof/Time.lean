import Verif.Spec.Time
import Verif.Proof.CanOpen

namespace Mdf

/-! ### Digits -/

theorem isDig_dig {n : Nat} (h : n < 10) : isDig (dig n) = true := by
  revert n; decide

theorem dig_toNat {n : Nat} (h : n < 10) : (dig n).toNat - 48 = n := by
  revert n; decide

theorem dig_ne_2D {n : Nat} (h : n < 10) : (dig n = 0x2D#8) = False := by
  have : ∀ n < 10, dig n ≠ 0x2D#8 := by decide
  exact eq_false (this n h)

theorem dig_ne_20 {n : Nat} (h : n < 10) : (dig n = 0x20#8) = False := by
  have : ∀ n < 10, dig n ≠ 0x20#8 := by decide
  exact eq_false (this n h)

theorem dig_ne_54 {n : Nat} (h : n < 10) : (dig n = 0x54#8) = False := by
  have : ∀ n < 10, dig n ≠ 0x54#8 := by decide
  exact eq_false (this n h)

theorem dig_ne_3A {n : Nat} (h : n < 10) : (dig n = 0x3A#8) = False := by
  have : ∀ n < 10, dig n ≠ 0x3A#8 := by decide
  exact eq_false (this n h)

theorem dig_ne_2E {n : Nat} (h : n < 10) : (dig n = 0x2E#8) = False := by
  have : ∀ n < 10, dig n ≠ 0x2E#8 := by decide
  exact eq_false (this n h)

theorem pad2_digits {n : Nat} (h : n < 100) : ∃ a b, a < 10 ∧ b < 10 ∧ pad2 n = [dig a, dig b] ∧ n = 10 * a + b :=
  ⟨n / 10, n % 10, by omega, by omega, rfl, by omega⟩

theorem pad4_digits {n : Nat} (h : n < 10000) : ∃ a b c d, a < 10 ∧ b < 10 ∧ c < 10 ∧ d < 10 ∧ pad4 n = [dig a, dig b, dig c, dig d] ∧
    n = 1000 * a + 100 * b + 10 * c + d :=
  ⟨n / 1000, n / 100 % 10, n / 10 % 10, n % 10, by omega, by omega, by omega, by omega, rfl, by omega⟩

theorem digits_pad2 {n : Nat} (h : n < 100) : digits (pad2 n) = n := by
  obtain ⟨a, b, ha, hb, e, hn⟩ := pad2_digits h
  rw [e, digits, List.foldl_cons, List.foldl_cons, List.foldl_nil, dig_toNat ha, dig_toNat hb]
  omega

theorem digits_pad4 {n : Nat} (h : n < 10000) : digits (pad4 n) = n := by
  obtain ⟨a, b, c, d, ha, hb, hc, hd, e, hn⟩ := pad4_digits h
  rw [e, digits, List.foldl_cons, List.foldl_cons, List.foldl_cons, List.foldl_cons, List.foldl_nil, dig_toNat ha, dig_toNat hb,
    dig_toNat hc, dig_toNat hd]
  omega

theorem digits_map_aux (l : List Nat) (h : ∀ d ∈ l, d < 10) :
    ∀ n, (l.map dig).foldl (fun n c => 10 * n + (c.toNat - 48)) n = l.foldl (fun n d => 10 * n + d) n := by
  induction l with
  | nil => intro n; rfl
  | cons d l ih =>
    intro n
    rw [List.map_cons, List.foldl_cons, List.foldl_cons, dig_toNat (h d List.mem_cons_self)]
    exact ih (fun x hx => h x (List.mem_cons_of_mem _ hx)) _

theorem digits_map (l : List Nat) (h : ∀ d ∈ l, d < 10) : digits (l.map dig) = digitsValue l := digits_map_aux l h 0

theorem digitsValue_lt_aux (l : List Nat) (h : ∀ d ∈ l, d < 10) :
    ∀ n, l.foldl (fun n d => 10 * n + d) n < (n + 1) * 10 ^ l.length := by
  induction l with
  | nil => intro n; simp
  | cons d l ih =>
    intro n
    rw [List.foldl_cons, List.length_cons, Nat.pow_succ]
    refine Nat.lt_of_lt_of_le (ih (fun x hx => h x (List.mem_cons_of_mem _ hx)) _) ?_
    have hd := h d List.mem_cons_self
    calc (10 * n + d + 1) * 10 ^ l.length ≤ ((n + 1) * 10) * 10 ^ l.length := Nat.mul_le_mul_right _ (by omega)
      _ = (n + 1) * (10 ^ l.length * 10) := by rw [Nat.mul_assoc, Nat.mul_comm 10]

theorem digitsValue_lt (l : List Nat) (h : ∀ d ∈ l, d < 10) : digitsValue l < 10 ^ l.length := by
  have := digitsValue_lt_aux l h 0
  rwa [Nat.zero_add, Nat.one_mul] at this

/-! ### The scanner -/

theorem scan_date (f : IsoForm) (y m d : Nat) (hy : y < 10000) (hm : m < 100) (hd : d < 100) :
    (pad4 y ++ f.sep 0x2D#8 ++ pad2 m ++ f.sep 0x2D#8 ++ pad2 d).foldl isoStep .init =
      ⟨.day, pad4 y, pad2 m, pad2 d, [], [], [], [], [], [], false⟩ := by
  obtain ⟨y1, y2, y3, y4, hy1, hy2, hy3, hy4, ey, _⟩ := pad4_digits hy
  obtain ⟨m1, m2, hm1, hm2, em, _⟩ := pad2_digits hm
  obtain ⟨d1, d2, hd1, hd2, ed, _⟩ := pad2_digits hd
  rw [ey, em, ed]
  cases hb : f.basic
  · simp [IsoForm.sep, IsoScan.init, isoStep, isDig_dig, dig_ne_2D, dig_ne_20, dig_ne_54, *]
  · simp [IsoForm.sep, IsoScan.init, isoStep, isDig_dig, dig_ne_2D, dig_ne_20, dig_ne_54, *]

theorem scan_sep (f : IsoForm) (y m d : Bytes) :
    isoStep ⟨.day, y, m, d, [], [], [], [], [], [], false⟩ (if f.blank then 0x20#8 else 0x54#8) =
      ⟨.hour, y, m, d, [], [], [], [], [], [], false⟩ := by
  cases hb : f.blank <;> simp [isoStep]

theorem scan_clock (f : IsoForm) (y m d : Bytes) (h n s : Nat) (hh : h < 100) (hn : n < 100) (hs : s < 100) :
    (pad2 h ++ f.sep 0x3A#8 ++ pad2 n ++ f.sep 0x3A#8 ++ pad2 s).foldl isoStep ⟨.hour, y, m, d, [], [], [], [], [], [], false⟩ =
      ⟨.second, y, m, d, pad2 h, pad2 n, pad2 s, [], [], [], false⟩ := by
  obtain ⟨h1, h2, hh1, hh2, eh, _⟩ := pad2_digits hh
  obtain ⟨n1, n2, hn1, hn2, en, _⟩ := pad2_digits hn
  obtain ⟨s1, s2, hs1, hs2, es, _⟩ := pad2_digits hs
  rw [eh, en, es]
  cases hb : f.basic
  · simp [IsoForm.sep, isoStep, isDig_dig, dig_ne_3A, dig_ne_2E, *]
  · simp [IsoForm.sep, isoStep, isDig_dig, dig_ne_3A, dig_ne_2E, *]

theorem scan_milli (y m d h s a : Bytes) (n : Nat) (l : List Nat) (hl : ∀ x ∈ l, x < 10) :
    (l.map dig).foldl isoStep ⟨.milli, y, m, d, h, pad2 n, s, a, [], [], false⟩ =
      ⟨.milli, y, m, d, h, pad2 n, s, a ++ l.map dig, [], [], false⟩ := by
  induction l generalizing a with
  | nil => simp
  | cons x l ih =>
    have hx := hl x List.mem_cons_self
    rw [List.map_cons, List.foldl_cons]
    have : isoStep ⟨.milli, y, m, d, h, pad2 n, s, a, [], [], false⟩ (dig x) = ⟨.milli, y, m, d, h, pad2 n, s, a ++ [dig x], [], [], false⟩ := by
      simp [isoStep, isDig_dig, dig_ne_2E, hx, pad2]
    rw [this, ih _ (fun z hz => hl z (List.mem_cons_of_mem _ hz)), List.append_assoc]
    rfl

/-- The state after the fraction: `second` or `milli`. -/
def fracState (l : List Nat) : IsoState := if l = [] then .second else .milli

theorem scan_frac (y m d h s : Bytes) (n : Nat) (l : List Nat) (hl : ∀ x ∈ l, x < 10) :
    (if l = [] then [] else 0x2E#8 :: l.map dig).foldl isoStep ⟨.second, y, m, d, h, pad2 n, s, [], [], [], false⟩ =
      ⟨fracState l, y, m, d, h, pad2 n, s, l.map dig, [], [], false⟩ := by
  unfold fracState
  by_cases h0 : l = []
  · rw [if_pos h0, if_pos h0, h0]
    rfl
  · rw [if_neg h0, if_neg h0, List.foldl_cons]
    exact scan_milli y m d h s [] n l hl

/-- The texts of hour and minute of the offset, as the scanner collects them. -/
def zoneHour (f : IsoForm) : IsoZone → Bytes
  | .offset neg h m => (if neg then 0x2D#8 else 0x2B#8) :: (pad2 h ++ if f.basic then pad2 m else [])
  | _ => []

def zoneMinute (f : IsoForm) : IsoZone → Bytes
  | .offset _ _ m => if f.basic then [] else pad2 m
  | _ => []

theorem scan_zone (f : IsoForm) (y m d h n s : Bytes) (l : List Nat) (z : IsoZone) (hz : z.Valid) :
    ∃ st, (z.text f).foldl isoStep ⟨fracState l, y, m, d, h, n, s, l.map dig, [], [], false⟩ =
      ⟨st, y, m, d, h, n, s, l.map dig, zoneHour f z, zoneMinute f z, decide (z = .utc)⟩ := by
  cases z with
  | none => exact ⟨_, rfl⟩
  | utc =>
    refine ⟨fracState l, ?_⟩
    unfold fracState
    split <;> simp [IsoZone.text, isoStep, IsoScan.zone, isDig, zoneHour, zoneMinute]
  | offset neg a b =>
    obtain ⟨ha, hb⟩ := hz
    have hsign : isoStep ⟨fracState l, y, m, d, h, n, s, l.map dig, [], [], false⟩ (if neg then 0x2D#8 else 0x2B#8) =
        ⟨.tzHour, y, m, d, h, n, s, l.map dig, [if neg then 0x2D#8 else 0x2B#8], [], false⟩ := by
      unfold fracState
      cases neg <;> split <;> simp [isoStep, IsoScan.zone, isDig]
    unfold IsoZone.text zoneHour zoneMinute
    dsimp only
    rw [List.foldl_cons, hsign]
    obtain ⟨a1, a2, ha1, ha2, ea, _⟩ := pad2_digits (show a < 100 by omega)
    obtain ⟨b1, b2, hb1, hb2, eb, _⟩ := pad2_digits (show b < 100 by omega)
    rw [ea, eb]
    cases hbs : f.basic
    · refine ⟨.tzMinute, ?_⟩
      simp [IsoForm.sep, isoStep, isDig_dig, dig_ne_3A, *]
    · refine ⟨.tzHour, ?_⟩
      simp [IsoForm.sep, isoStep, isDig_dig, dig_ne_3A, *]

theorem scan_text (f : IsoForm) (x : IsoTime) (hx : x.Valid) : ∃ st, (x.text f).foldl isoStep .init =
    ⟨st, pad4 x.year, pad2 x.month, pad2 x.day, pad2 x.hour, pad2 x.minute, pad2 x.second, x.frac.map dig, zoneHour f x.zone,
      zoneMinute f x.zone, decide (x.zone = .utc)⟩ := by
  have hy := hx.year
  have hm := hx.month
  have hd : x.day < 100 := by
    have h1 := hx.day.2
    have h2 : (monthDays (isLeap x.year)).getD (x.month - 1) 0 ≤ 31 := by
      rw [List.getD_eq_getElem?_getD]
      cases h : (monthDays (isLeap x.year))[x.month - 1]? with
      | none => simp
      | some n => exact monthDays_le _ n (List.mem_of_getElem? h)
    omega
  have h1 := hx.hour
  have h2 := hx.minute
  have h3 := hx.second
  have key : ∀ (i : IsoScan) (a b c d e : Bytes), (a ++ b ++ c ++ d ++ e).foldl isoStep i =
      e.foldl isoStep (d.foldl isoStep (c.foldl isoStep (b.foldl isoStep (a.foldl isoStep i)))) := by
    intro i a b c d e
    simp only [List.foldl_append]
  unfold IsoTime.text
  rw [key, scan_date f _ _ _ (by omega) (by omega) hd,
    List.foldl_cons, List.foldl_nil, scan_sep, scan_clock f _ _ _ _ _ _ (by omega) (by omega) (by omega), scan_frac _ _ _ _ _ _ _ hx.frac.1]
  exact scan_zone f _ _ _ _ _ _ _ _ hx.zone

/-! ### The value -/

/-- The offset in seconds that the code gets out of the zone. -/
def IsoZone.readSeconds (f : IsoForm) : IsoZone → Int
  | .offset neg h m =>
    if f.basic then (if neg then -1 else 1) * (100 * (h : Int) + m) * 3600
    else ((if neg then -1 else 1) * (h : Int) * 60 + m) * 60
  | _ => 0

/-- The nanoseconds that the code gets out of the fraction. -/
def readFrac (l : List Nat) : Nat := digitsValue l * if l.length ≤ 3 then 1000000 else if l.length ≤ 6 then 1000 else 1

theorem digits_pad22 {a b : Nat} (ha : a < 100) (hb : b < 100) : digits (pad2 a ++ pad2 b) = 100 * a + b := by
  obtain ⟨a1, a2, ha1, ha2, ea, _⟩ := pad2_digits ha
  obtain ⟨b1, b2, hb1, hb2, eb, _⟩ := pad2_digits hb
  rw [ea, eb, digits]
  simp only [List.cons_append, List.nil_append, List.foldl_cons, List.foldl_nil, dig_toNat ha1, dig_toNat ha2, dig_toNat hb1, dig_toNat hb2]
  omega

theorem stoi_sign (neg : Bool) (d : Bytes) (h : d ≠ []) (hv : digits d ≤ 2147483647) :
    stoiText ((if neg then 0x2D#8 else 0x2B#8) :: d) = some ((if neg then -1 else 1) * (digits d : Int)) := by
  unfold stoiText
  cases neg
  · simp only [Bool.false_eq_true, if_false, show (0x2B#8 = 0x2D#8) = False by simp, if_true, if_neg h]
    rw [if_pos (by omega)]
    simp
  · simp only [if_true, if_neg h]
    rw [if_pos (by omega)]
    congr 1
    omega

theorem offset_zone (f : IsoForm) (s : IsoScan) (z : IsoZone) (hz : z.Valid) (h1 : s.tzHour = zoneHour f z) (h2 : s.tzMinute = zoneMinute f z) :
    s.offset = .ok (z.readSeconds f) := by
  unfold IsoScan.offset
  rw [h1, h2]
  cases z with
  | none => simp [zoneHour, zoneMinute, IsoZone.readSeconds, isInt32]
  | utc => simp [zoneHour, zoneMinute, IsoZone.readSeconds, isInt32]
  | offset neg h m =>
    obtain ⟨hh, hm⟩ := hz
    unfold zoneHour zoneMinute IsoZone.readSeconds
    dsimp only
    have hne : ∀ l, pad2 h ++ l ≠ [] := fun l => by simp [pad2]
    have hcons : ∀ l, ((if neg = true then 0x2D#8 else 0x2B#8) :: (pad2 h ++ l) = []) = False := fun l => by simp
    rw [if_neg (by simp)]
    cases hb : f.basic
    · simp only [Bool.false_eq_true, if_false]
      rw [List.append_nil, stoi_sign neg _ (by simp [pad2]) (by rw [digits_pad2 (by omega)]; omega), digits_pad2 (show h < 100 by omega),
        if_neg (show pad2 m ≠ [] by simp [pad2]), digits_pad2 (show m < 100 by omega)]
      dsimp only
      rw [if_pos]
      unfold isInt32
      cases neg <;> simp <;> omega
    · simp only [if_true]
      rw [stoi_sign neg _ (hne _) (by rw [digits_pad22 (by omega) (by omega)]; omega), digits_pad22 (show h < 100 by omega) (show m < 100 by omega)]
      dsimp only
      have e : (if neg = true then -1 else 1) * ((100 * h + m : Nat) : Int) * 60 + 0 = (if neg = true then -1 else 1) * ((100 * h + m : Nat) : Int) * 60 := by
        omega
      rw [e, if_pos]
      · congr 1
        cases neg <;> simp <;> omega
      · unfold isInt32
        cases neg <;> simp <;> omega

theorem isoField_pad2 {n : Nat} (e l h b : Int) (hn : n < 100) (hl : l ≤ n) (hh : (n : Int) ≤ h) : isoField (pad2 n) e l h b = n := by
  unfold isoField
  rw [if_neg (show pad2 n ≠ [] by simp [pad2]), digits_pad2 hn]
  dsimp only
  rw [if_neg (by omega)]

theorem day_lt (x : IsoTime) (hx : x.Valid) : x.day ≤ 31 := by
  have h1 := hx.day.2
  have h2 : (monthDays (isLeap x.year)).getD (x.month - 1) 0 ≤ 31 := by
    rw [List.getD_eq_getElem?_getD]
    cases h : (monthDays (isLeap x.year))[x.month - 1]? with
    | none => simp
    | some n => exact monthDays_le _ n (List.mem_of_getElem? h)
  omega

theorem timegm_scan (x : IsoTime) (hx : x.Valid) (s : IsoScan) (h1 : s.year = pad4 x.year) (h2 : s.month = pad2 x.month) (h3 : s.day = pad2 x.day)
    (h4 : s.hour = pad2 x.hour) (h5 : s.minute = pad2 x.minute) (h6 : s.second = pad2 x.second) : timegm s.tm = x.civil := by
  have hy := hx.year
  have hm := hx.month
  have hd := day_lt x hx
  have hd1 := hx.day.1
  have hh := hx.hour
  have hn := hx.minute
  have hs := hx.second
  have e : s.tm = ⟨x.second, x.minute, x.hour, x.day, (x.month : Int) - 1, (x.year : Int) - 1900, 0, false⟩ := by
    unfold IsoScan.tm
    rw [h1, h2, h3, h4, h5, h6, isoField_pad2 _ _ _ _ (by omega) (by omega) (by omega), isoField_pad2 _ _ _ _ (by omega) (by omega) (by omega),
      isoField_pad2 _ _ _ _ (by omega) (by omega) (by omega), isoField_pad2 _ _ _ _ (by omega) (by omega) (by omega),
      isoField_pad2 _ _ _ _ (by omega) (by omega) (by omega), if_neg (show pad4 x.year ≠ [] by simp [pad4]), digits_pad4 (by omega),
      if_neg (by omega)]
  rw [e]
  unfold timegm fixedZone IsoTime.civil
  dsimp only
  have e1 : (x.year : Int) - 1900 + 1900 + ((x.month : Int) - 1) / 12 = x.year := by omega
  have e2 : (((x.month : Int) - 1) % 12).toNat = x.month - 1 := by omega
  rw [e1, e2]
  omega

/-- What the code reads out of a text, exactly. -/
theorem fromIso_text (f : IsoForm) (x : IsoTime) (hx : x.Valid) (old : BitVec 64) : fromIso old (x.text f) =
    some (BitVec.ofInt 64 ((x.civil - x.zone.readSeconds f) * 1000000000 + readFrac x.frac)) := by
  obtain ⟨st, hs⟩ := scan_text f x hx
  unfold fromIso
  rw [hs]
  dsimp only
  rw [offset_zone f _ x.zone hx.zone rfl rfl]
  dsimp only
  rw [timegm_scan x hx _ rfl rfl rfl rfl rfl rfl]
  have hf : IsoScan.fraction ⟨st, pad4 x.year, pad2 x.month, pad2 x.day, pad2 x.hour, pad2 x.minute, pad2 x.second, x.frac.map dig,
      zoneHour f x.zone, zoneMinute f x.zone, decide (x.zone = .utc)⟩ = some (readFrac x.frac) := by
    unfold IsoScan.fraction readFrac
    dsimp only
    by_cases h0 : x.frac = []
    · rw [h0]; rfl
    · rw [if_neg (by simpa using h0), digits_map _ hx.frac.1, List.length_map]
      have h1 := digitsValue_lt _ hx.frac.1
      have h2 : 10 ^ x.frac.length ≤ 10 ^ 9 := Nat.pow_le_pow_right (by decide) hx.frac.2
      rw [if_neg (by omega)]
  rw [hf]
  dsimp only
  have hz : (if decide (x.zone = .utc) = true then 0 else x.zone.readSeconds f) = x.zone.readSeconds f := by
    split
    · rename_i h
      rw [of_decide_eq_true h]
      rfl
    · rfl
  rw [hz]
  congr 1
  rw [BitVec.ofInt_add, BitVec.ofInt_mul, BitVec.ofInt_natCast]
  rfl

end Mdf
