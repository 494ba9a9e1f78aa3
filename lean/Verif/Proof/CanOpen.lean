import Verif.Spec.CanOpen
import Verif.Props.Channel

namespace Mdf

theorem daysBefore_succ (y : Int) : daysBefore (y + 1) = daysBefore y + yearDays y := by
  unfold daysBefore yearDays isLeap
  by_cases h4 : y % 4 = 0
  · by_cases h1 : y % 100 = 0
    · by_cases h3 : y % 400 = 0
      · simp [h4, h3]; omega
      · simp [h4, h1, h3]; omega
    · simp [h4, h1]; omega
  · simp [h4]; omega

theorem yearDays_bounds (y : Int) : 365 ≤ yearDays y ∧ yearDays y ≤ 366 := by
  unfold yearDays; split <;> omega

theorem findYear_spec (fuel : Nat) (y d : Int) (h0 : 0 ≤ d) (hf : d < fuel) :
    daysBefore (findYear fuel y d).1 + (findYear fuel y d).2 = daysBefore y + d ∧ 0 ≤ (findYear fuel y d).2 ∧
      (findYear fuel y d).2 < yearDays (findYear fuel y d).1 := by
  induction fuel generalizing y d with
  | zero => omega
  | succ fuel ih =>
    rw [findYear]
    by_cases h : d < yearDays y
    · rw [if_pos h]
      exact ⟨rfl, h0, h⟩
    · rw [if_neg h]
      have hy := yearDays_bounds y
      have := ih (y + 1) (d - yearDays y) (by omega) (by omega)
      refine ⟨?_, this.2⟩
      rw [this.1, daysBefore_succ]
      omega

theorem findMonth_spec (l : List Int) (m : Nat) (d : Int) (h0 : 0 ≤ d) (hd : d < l.sum) (h31 : ∀ n ∈ l, n ≤ 31) :
    m ≤ (findMonth l m d).1 ∧ (findMonth l m d).1 < m + l.length ∧
      (l.take ((findMonth l m d).1 - m)).sum + (findMonth l m d).2 = d ∧ 0 ≤ (findMonth l m d).2 ∧ (findMonth l m d).2 < 31 := by
  induction l generalizing m d with
  | nil => simp at hd; omega
  | cons n l ih =>
    rw [findMonth]
    have hn := h31 n List.mem_cons_self
    by_cases h : d < n
    · rw [if_pos h]
      simp
      omega
    · rw [if_neg h]
      have := ih (m + 1) (d - n) (by omega) (by simp at hd; omega) (fun x hx => h31 x (List.mem_cons_of_mem _ hx))
      generalize findMonth l (m + 1) (d - n) = r at this
      obtain ⟨a, b, c, e, f⟩ := this
      refine ⟨by omega, by simp; omega, ?_, e, f⟩
      have hr : r.1 - m = (r.1 - (m + 1)) + 1 := by omega
      rw [hr, List.take_succ_cons, List.sum_cons]
      omega

theorem monthDays_sum (leap : Bool) : (monthDays leap).sum = if leap then 366 else 365 := by
  cases leap <;> decide

theorem monthDays_le (leap : Bool) : ∀ n ∈ monthDays leap, n ≤ 31 := by
  cases leap <;> decide

theorem fixedZone_sound (off : Int) (h60 : off % 60 = 0) (hlo : -86400 ≤ off) (hhi : off ≤ 86400) : (fixedZone off).Sound := by
  have key : ∀ t, 0 ≤ t →
      let days := (t + off) / 86400
      let y := findYear (days + 366).toNat 1969 (days + 365)
      let m := findMonth (monthDays (isLeap y.1)) 0 y.2
      daysBefore y.1 + y.2 = daysBefore 1970 + days ∧ m.1 < 12 ∧ daysBeforeMonth (isLeap y.1) m.1 + m.2 = y.2 ∧ 0 ≤ m.2 ∧ m.2 < 31 := by
    intro t ht
    dsimp only
    generalize hdays : (t + off) / 86400 = days
    have hd : -1 ≤ days := by omega
    obtain ⟨a, b, c⟩ := findYear_spec (days + 366).toNat 1969 (days + 365) (by omega) (by omega)
    generalize findYear (days + 366).toNat 1969 (days + 365) = y at a b c
    have hs : y.2 < (monthDays (isLeap y.1)).sum := by
      rw [monthDays_sum]
      exact c
    have := findMonth_spec (monthDays (isLeap y.1)) 0 y.2 b hs (monthDays_le _)
    generalize findMonth (monthDays (isLeap y.1)) 0 y.2 = m at this
    obtain ⟨_, m1, m2, m3, m4⟩ := this
    have hl : (monthDays (isLeap y.1)).length = 12 := rfl
    have h0 : daysBefore 1970 = daysBefore 1969 + 365 := by decide
    refine ⟨by omega, by omega, ?_, m3, m4⟩
    rw [Nat.sub_zero] at m2
    exact m2
  constructor
  · intro t ht
    show (t + off) % 86400 % 60 = t % 60
    omega
  · intro t ht
    show 0 ≤ (t + off) % 86400 / 60 % 60 ∧ (t + off) % 86400 / 60 % 60 < 60
    omega
  · intro t ht
    show 0 ≤ (t + off) % 86400 / 3600 ∧ (t + off) % 86400 / 3600 < 24
    omega
  · intro t ht
    have := key t ht
    dsimp only at this
    show 1 ≤ _ + 1 ∧ _ + 1 ≤ (31 : Int)
    omega
  · intro t ht
    have := key t ht
    dsimp only at this
    show 0 ≤ ((_ : Nat) : Int) ∧ ((_ : Nat) : Int) < 12
    omega
  · intro t ht
    show 0 ≤ ((t + off) / 86400 + 4) % 7 ∧ ((t + off) / 86400 + 4) % 7 < 7
    omega
  · intro t ht
    have hk := key t ht
    dsimp only at hk
    dsimp only [fixedZone]
    generalize hdays : (t + off) / 86400 = days at hk ⊢
    generalize findYear (days + 366).toNat 1969 (days + 365) = y at hk ⊢
    generalize findMonth (monthDays (isLeap y.1)) 0 y.2 = m at hk ⊢
    obtain ⟨a, b, c, d, e⟩ := hk
    have e1 : y.1 - 1900 + 1900 + (m.1 : Int) / 12 = y.1 := by omega
    have e2 : ((m.1 : Int) % 12).toNat = m.1 := by omega
    rw [e1, e2]
    omega
  · have : (fixedZone off).sec1984 = 441763200 - off := by
      have h : (daysBefore (84 + 1900 + 0 / 12) - daysBefore 1970 + daysBeforeMonth (isLeap (84 + 1900 + 0 / 12)) ((0 : Int) % 12).toNat + (1 - 1)) * 86400 +
        0 * 3600 + 0 * 60 + 0 = 441763200 := by decide
      show (daysBefore (84 + 1900 + 0 / 12) - daysBefore 1970 + daysBeforeMonth (isLeap (84 + 1900 + 0 / 12)) ((0 : Int) % 12).toNat + (1 - 1)) * 86400 +
        0 * 3600 + 0 * 60 + 0 - off = _
      rw [h]
    omega

theorem ofInt_toNat {i : Int} (h0 : 0 ≤ i) (h : i < 2 ^ 64) : (BitVec.ofInt 64 i).toNat = i.toNat := by
  rw [BitVec.toNat_ofInt]
  omega

/-- The time array as numbers. -/
theorem timeArray_nat (z : Zone) (hz : z.Sound) (ns : BitVec 64) :
    ∃ ms : Nat, ms < 2 ^ 64 ∧ z.timeArray ns = leBytes 4 (ms % 86400000) ++ leBytes 2 (ms / 86400000 % 65536) ∧
      (ns.toNat / 1000000 + 2 ^ 64 - z.sec1984.toNat * 1000) % 2 ^ 64 = ms := by
  have h84 := hz.y1984
  generalize hs : z.sec1984 = s at h84
  refine ⟨_, Nat.mod_lt _ (by decide), ?_, rfl⟩
  have hms : (ns / 1000000#64 - BitVec.ofInt 64 s * 1000#64).toNat =
      (ns.toNat / 1000000 + 2 ^ 64 - s.toNat * 1000) % 2 ^ 64 := by
    rw [BitVec.toNat_sub, BitVec.toNat_mul, ofInt_toNat (by omega) (by omega), BitVec.toNat_udiv]
    have h1 : (1000#64).toNat = 1000 := rfl
    have h2 : (1000000#64).toNat = 1000000 := rfl
    rw [h1, h2]
    omega
  unfold Zone.timeArray
  dsimp only
  rw [hs, BitVec.toNat_umod, BitVec.toNat_setWidth, BitVec.toNat_udiv, hms]
  rfl

/-- The time of an array of which the parts are known. -/
theorem timeOfArray_nat (z : Zone) (hz : z.Sound) (ms days : Nat) (hms : ms < 86400000) (hd : days < 65536) :
    (z.timeOfArray (leBytes 4 ms ++ leBytes 2 days)).toNat = z.sec1984.toNat * 1000000000 + days * 86400000000000 + ms * 1000000 := by
  have h84 := hz.y1984
  unfold Zone.timeOfArray
  have e1 : (leBytes 4 ms ++ leBytes 2 days).take 4 = leBytes 4 ms := List.take_left' (leBytes_length 4 ms)
  have e2 : ((leBytes 4 ms ++ leBytes 2 days).drop 4).take 2 = leBytes 2 days := by
    rw [List.drop_left' (leBytes_length 4 ms), List.take_of_length_le (by simp)]
  dsimp only
  rw [e1, e2, leNat_leBytes, leNat_leBytes, Nat.mod_eq_of_lt (show ms < 256 ^ 4 by omega), Nat.mod_eq_of_lt (show days < 256 ^ 2 by omega)]
  generalize hs : z.sec1984 = s at h84
  have hi : BitVec.ofInt 64 s = BitVec.ofNat 64 s.toNat := by
    apply BitVec.eq_of_toNat_eq
    rw [ofInt_toNat (by omega) (by omega), BitVec.toNat_ofNat, Nat.mod_eq_of_lt (by omega)]
  have hn1 : s.toNat ≤ 441849600 := by omega
  rw [hi]
  generalize s.toNat = n at hn1
  have e : BitVec.ofNat 64 n * 1000000000#64 + BitVec.ofNat 64 days * 24#64 * 3600000000000#64 + BitVec.ofNat 64 ms * 1000000#64 =
      BitVec.ofNat 64 (n * 1000000000 + days * 24 * 3600000000000 + ms * 1000000) := by
    simp only [BitVec.ofNat_add, BitVec.ofNat_mul]
  rw [e, BitVec.toNat_ofNat]
  omega

end Mdf
