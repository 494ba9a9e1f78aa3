import Verif.Model.PreTrig
import Verif.Props.Double

/-!
# Property C129: the pre-trigger time is the time that was set

False of the code: the time is cut to nanoseconds, also where the product is a little too small.  Proved: it is right to two nanoseconds up
to 52 days, exact for times that are a whole number of nanoseconds and a `double`, and what happens elsewhere.
-/

namespace Mdf

/-- **C129**, as stated: false of the code. -/
def C129_Statement : Prop := ∀ s : ℚ, IsDbl s → preTrigBack s = some s

theorem getPreTrig_eq (n : ℕ) : getPreTrig n = relSeconds n := by
  unfold getPreTrig relSeconds
  norm_cast

theorem setPreTrig_eq {s : ℚ} {n : ℤ} (h : relNanos s = n) (h0 : 0 ≤ n) (h1 : n < 2 ^ 64) : setPreTrig s = some n.toNat := by
  unfold setPreTrig
  have e : truncInt (dblRound (s * 1000000000)) = n := h
  simp only [e]
  rw [if_neg (by omega)]

theorem relNanos_near {s : ℚ} (h0 : 0 ≤ s) (h : s * 1000000000 < 2 ^ 52) :
    0 ≤ relNanos s ∧ (relNanos s : ℚ) ≤ s * 1000000000 + 1 / 2 ∧ s * 1000000000 - 3 / 2 < relNanos s := by
  have hq : 0 ≤ s * 1000000000 := by positivity
  have herr := abs_le.mp (dblRound_err (s * 1000000000))
  rw [abs_of_nonneg hq] at herr
  have hsmall : s * 1000000000 / 2 ^ 53 ≤ 1 / 2 := by rw [div_le_iff₀ (by positivity)]; linarith
  have hd0 : 0 ≤ dblRound (s * 1000000000) := dblRound_ge (by simpa using isDbl_int (n := 0) (by decide)) hq
  have e : relNanos s = (dblRound (s * 1000000000)).floor := by
    unfold relNanos truncInt
    rw [if_pos hd0]
  have h1 : ((dblRound (s * 1000000000)).floor : ℚ) ≤ dblRound (s * 1000000000) := Rat.floor_le _
  have h2 : dblRound (s * 1000000000) < (dblRound (s * 1000000000)).floor + 1 := by exact_mod_cast Rat.lt_floor_add_one (dblRound (s * 1000000000))
  rw [e]
  refine ⟨?_, by linarith [herr.1], by linarith [herr.2]⟩
  have : (-1 : ℚ) < ((dblRound (s * 1000000000)).floor : ℚ) := by linarith
  have : (-1 : ℤ) < (dblRound (s * 1000000000)).floor := by exact_mod_cast this
  omega

/-- **C129** (nanoseconds kept).  Of a time from 0 to 52 days the number of nanoseconds that is used as window is less than 3/2 too small and
at most 1/2 too large. -/
theorem C129_window {s : ℚ} (h0 : 0 ≤ s) (h : s * 1000000000 < 2 ^ 52) :
    ∃ n : ℕ, setPreTrig s = some n ∧ (n : ℚ) ≤ s * 1000000000 + 1 / 2 ∧ s * 1000000000 - 3 / 2 < n := by
  obtain ⟨h1, h2, h3⟩ := relNanos_near h0 h
  have hlt : relNanos s < 2 ^ 64 := by
    have : (relNanos s : ℚ) < 2 ^ 64 := by linarith
    exact_mod_cast this
  have hc : ((relNanos s).toNat : ℚ) = (relNanos s : ℚ) := by
    have : (((relNanos s).toNat : ℤ) : ℚ) = (relNanos s : ℚ) := by rw [Int.toNat_of_nonneg h1]
    exact_mod_cast this
  exact ⟨(relNanos s).toNat, setPreTrig_eq rfl h1 hlt, by rw [hc]; exact h2, by rw [hc]; exact h3⟩

example : ∃ n : ℕ, setPreTrig 604800 = some n ∧ (n : ℚ) ≤ 604800 * 1000000000 + 1 / 2 ∧ 604800 * 1000000000 - 3 / 2 < (n : ℚ) :=
  C129_window (by norm_num) (by norm_num)

/-- **C129** (right to two nanoseconds).  What is returned of a time from 0 to 52 days.  Missing: the exact time. -/
theorem C129_near_partial {s : ℚ} (h0 : 0 ≤ s) (h : s * 1000000000 < 2 ^ 52) :
    ∃ t, preTrigBack s = some t ∧ |t - s| ≤ 2 / 1000000000 := by
  obtain ⟨n, h1, h2, h3⟩ := C129_window h0 h
  refine ⟨getPreTrig n, by rw [preTrigBack, h1]; rfl, ?_⟩
  rw [getPreTrig_eq]
  have hn : ((n : ℤ) : ℚ) = n := by norm_cast
  have hn0 : (0 : ℚ) ≤ n := by positivity
  have hlt : (n : ℚ) < 2 ^ 52 + 1 := by linarith
  have hz : |(n : ℤ)| < 2 ^ 53 := by
    have : n < 2 ^ 52 + 1 := by exact_mod_cast hlt
    rw [abs_of_nonneg (by omega)]
    omega
  have herr := relSeconds_err hz
  rw [hn, abs_of_nonneg hn0] at herr
  have hb : (n : ℚ) / 2 ^ 53 ≤ 1 / 2 := by
    rw [div_le_iff₀ (by positivity)]
    have : n ≤ 2 ^ 52 := by
      have : n < 2 ^ 52 + 1 := by exact_mod_cast hlt
      omega
    have : (n : ℚ) ≤ 2 ^ 52 := by exact_mod_cast this
    linarith
  obtain ⟨e1, e2⟩ := abs_le.mp herr
  rw [abs_le]
  constructor <;> linarith

example : ∃ t, preTrigBack (3 / 2) = some t ∧ |t - 3 / 2| ≤ 2 / 1000000000 := C129_near_partial (by norm_num) (by norm_num)

/-- **C129** (exact).  A `double` of seconds that is a whole number of nanoseconds below 2^53 (104 days), so whole seconds, halves, quarters
down to 1/512 s, is returned as set. -/
theorem C129_exact {n : ℕ} (h : n < 2 ^ 53) (hd : IsDbl ((n : ℚ) / 1000000000)) :
    setPreTrig ((n : ℚ) / 1000000000) = some n ∧ preTrigBack ((n : ℚ) / 1000000000) = some ((n : ℚ) / 1000000000) := by
  have hz : |(n : ℤ)| < 2 ^ 53 := by rw [abs_of_nonneg (by omega)]; omega
  have hi : IsDbl (n : ℚ) := by simpa using isDbl_int hz
  have e : relNanos ((n : ℚ) / 1000000000) = n := by
    unfold relNanos
    rw [div_mul_cancel₀ _ (by norm_num), dblRound_id hi]
    unfold truncInt
    rw [if_pos (by positivity)]
    exact_mod_cast Rat.floor_intCast (n : ℤ)
  have h1 : setPreTrig ((n : ℚ) / 1000000000) = some n := by
    rw [setPreTrig_eq e (by omega) (by omega)]
    simp
  refine ⟨h1, ?_⟩
  rw [preTrigBack, h1]
  show some (getPreTrig n) = _
  unfold getPreTrig
  rw [dblRound_id hi, dblRound_id hd]

/-- **C129** (whole seconds).  A whole number of seconds up to 2^53 ns is returned as set. -/
theorem C129_seconds {k : ℕ} (h : k * 1000000000 < 2 ^ 53) : setPreTrig k = some (k * 1000000000) ∧ preTrigBack k = some (k : ℚ) := by
  have e : (((k * 1000000000 : ℕ) : ℚ)) / 1000000000 = k := by push_cast; field_simp
  have hd : IsDbl ((((k * 1000000000 : ℕ) : ℚ)) / 1000000000) := by
    rw [e]
    simpa using isDbl_int (n := (k : ℤ)) (by rw [abs_of_nonneg (by omega)]; omega)
  have := C129_exact h hd
  rwa [e] at this

example : setPreTrig (1 / 4) = some 250000000 ∧ preTrigBack (1 / 4) = some (1 / 4) := by
  have e : ((250000000 : ℕ) : ℚ) / 1000000000 = 1 / 4 := by norm_num
  have := C129_exact (n := 250000000) (by norm_num) (by rw [e]; exact ⟨1, -2, by norm_num, by norm_num⟩)
  rwa [e] at this

example : preTrigBack (86400 : ℕ) = some ((86400 : ℕ) : ℚ) := (C129_seconds (by norm_num)).2

/-- **C129** (set again).  Setting the time that was returned keeps the nanoseconds or takes one away. -/
theorem C129_again {n : ℕ} (h : n < 2 ^ 52) : setPreTrig (getPreTrig n) = some n ∨ (0 < n ∧ setPreTrig (getPreTrig n) = some (n - 1)) := by
  rw [getPreTrig_eq]
  by_cases hz : n = 0
  · subst hz
    left
    decide +kernel
  rcases C58_time_partial (n := n) (by omega) (by exact_mod_cast h) with e | e
  · left
    rw [setPreTrig_eq e (by omega) (by omega)]
    simp
  · right
    refine ⟨by omega, ?_⟩
    rw [setPreTrig_eq e (by omega) (by omega)]
    congr 1
    omega

example : setPreTrig (getPreTrig 15) = some 14 := by decide +kernel

/-- **C129** (negative).  A negative time of a nanosecond or more is undefined behaviour. -/
theorem C129_negative {s : ℚ} (h : s * 1000000000 ≤ -1) : setPreTrig s = none := by
  have h1 : dblRound (s * 1000000000) ≤ ((-1 : ℤ) : ℚ) := dblRound_le (isDbl_int (by decide)) (by push_cast; exact h)
  have h2 : truncInt (dblRound (s * 1000000000)) ≤ -1 := by
    unfold truncInt
    rw [if_neg (by push_cast at h1; linarith)]
    have : (1 : ℤ) ≤ (-dblRound (s * 1000000000)).floor := Rat.le_floor_iff.2 (by push_cast at h1 ⊢; linarith)
    omega
  unfold setPreTrig
  simp only
  rw [if_pos (by omega)]

example : setPreTrig (-1) = none := C129_negative (by norm_num)

/-- **C129** (too large).  2^64 ns (584 years) and more are undefined behaviour. -/
theorem C129_large {s : ℚ} (h : 2 ^ 64 ≤ s * 1000000000) : setPreTrig s = none := by
  have hd : IsDbl ((2 : ℚ) ^ 64) := ⟨2 ^ 52, 12, by norm_num, by norm_num⟩
  have h1 : (2 : ℚ) ^ 64 ≤ dblRound (s * 1000000000) := dblRound_ge hd h
  have h2 : 2 ^ 64 ≤ truncInt (dblRound (s * 1000000000)) := by
    unfold truncInt
    rw [if_pos (by linarith)]
    exact Rat.le_floor_iff.2 (by push_cast; exact h1)
  unfold setPreTrig
  simp only
  rw [if_pos (by omega)]

example : setPreTrig (2 ^ 40) = none := C129_large (by norm_num)

/-- The statement is false: 15 ns are returned as 14 ns. -/
theorem C129_false : ¬ C129_Statement := by
  intro h
  have := h (relSeconds 15) (dblRound_isDbl _)
  rw [show preTrigBack (relSeconds 15) = some (getPreTrig 14) by decide +kernel] at this
  have := Option.some.inj this
  revert this
  decide +kernel

end Mdf
