import Verif.Proof.Double

/-!
C58: the times of samples survive storing and reading.

A time is a number of nanoseconds since the start of the measurement.  `relSeconds` is the value stored in a master channel,
`relNanos` the time an observer of sample records calculates from it.
-/

namespace Mdf

/-- The full claim: the time read back is the time stored. -/
def C58_Statement : Prop := ∀ n : ℤ, |n| < 2 ^ 53 → relNanos (relSeconds n) = n

/-- It is false: a sample 15 ns after the start is read back at 14 ns. -/
theorem C58_time_changes : ¬ C58_Statement := by
  intro h
  have := h 15 (by norm_num)
  revert this
  decide +kernel

/-- Rounding is modelled correctly: the result is a `double` and no `double` is nearer to the exact value. -/
theorem C58_rounding (q : ℚ) : Nearest q (dblRound q) := dblRound_nearest q

/-- Up to 2^52 ns (52 days) a time not before the start is read back exactly or one nanosecond too early. -/
theorem C58_time_partial {n : ℤ} (h0 : 0 ≤ n) (h : n < 2 ^ 52) :
    relNanos (relSeconds n) = n ∨ relNanos (relSeconds n) = n - 1 := by
  have herr := abs_le.mp (relSeconds_err (n := n) (by rw [abs_of_nonneg h0]; omega))
  have hq0 : (0 : ℚ) ≤ n := by exact_mod_cast h0
  have hq : (n : ℚ) < 2 ^ 52 := by exact_mod_cast h
  rw [abs_of_nonneg hq0] at herr
  have hsmall : (n : ℚ) / 2 ^ 53 ≤ 1 / 2 := by rw [div_le_iff₀ (by positivity)]; linarith
  have hup : dblRound (relSeconds n * 1000000000) ≤ n + 1 / 2 :=
    dblRound_le (isDbl_half (by rw [abs_of_nonneg (by omega)]; omega)) (by linarith [herr.2])
  unfold relNanos
  by_cases hz : n = 0
  · subst hz; left; decide +kernel
  · have hlo : ((n - 1 : ℤ) : ℚ) ≤ dblRound (relSeconds n * 1000000000) :=
      dblRound_ge (isDbl_int (by rw [abs_of_nonneg (by omega)]; omega)) (by push_cast; linarith [herr.1])
    have := truncInt_bounds (b := n + 1) hlo (by push_cast; linarith) (by omega)
    omega

/-- A time before the start (a sample of the pre-trigger buffer) is read back exactly or one nanosecond too late. -/
theorem C58_time_before_partial {n : ℤ} (h0 : n ≤ 0) (h : -2 ^ 52 < n) :
    relNanos (relSeconds n) = n ∨ relNanos (relSeconds n) = n + 1 := by
  have herr := abs_le.mp (relSeconds_err (n := n) (by rw [abs_of_nonpos h0]; omega))
  have hq0 : (n : ℚ) ≤ 0 := by exact_mod_cast h0
  have hq : -2 ^ 52 < (n : ℚ) := by exact_mod_cast h
  rw [abs_of_nonpos hq0] at herr
  have hsmall : -(n : ℚ) / 2 ^ 53 ≤ 1 / 2 := by rw [div_le_iff₀ (by positivity)]; linarith
  have hlo : ((n - 1 : ℤ) : ℚ) + 1 / 2 ≤ dblRound (relSeconds n * 1000000000) :=
    dblRound_ge (isDbl_half (by rw [abs_of_nonpos (by omega)]; omega)) (by push_cast; linarith [herr.1])
  unfold relNanos
  by_cases hz : n = 0
  · subst hz; left; decide +kernel
  · have hup : dblRound (relSeconds n * 1000000000) ≤ ((n + 1 : ℤ) : ℚ) :=
      dblRound_le (isDbl_int (by rw [abs_of_nonpos (by omega)]; omega)) (by push_cast; linarith [herr.2])
    have := truncInt_bounds_neg (a := n - 1) (by push_cast at hlo ⊢; linarith) hup (by omega)
    omega

example : relNanos (relSeconds 1000002) = 1000002 ∧ relNanos (relSeconds 3600000000007) = 3600000000007 ∧
    relNanos (relSeconds 15) = 15 - 1 ∧ relNanos (relSeconds (-15)) = -15 + 1 := by decide +kernel

/-- A time whose value in seconds is a `double` (whole seconds, halves, quarters, ...) is read back exactly. -/
theorem C58_exact {n : ℤ} (h : |n| < 2 ^ 53) (hd : IsDbl ((n : ℚ) / 1000000000)) : relNanos (relSeconds n) = n := by
  have h1 : relSeconds n = n / 1000000000 := by
    unfold relSeconds
    rw [dblRound_id (isDbl_int h), dblRound_id hd]
  unfold relNanos
  rw [h1, div_mul_cancel₀ _ (by norm_num), dblRound_id (isDbl_int h)]
  unfold truncInt
  split
  · exact Rat.floor_intCast n
  · rw [← Int.cast_neg, Rat.floor_intCast, neg_neg]

example (k : ℤ) (h : |k| < 2 ^ 20) : relNanos (relSeconds (k * 1000000000)) = k * 1000000000 := by
  have hk := abs_lt.mp h
  refine C58_exact (abs_lt.mpr (by omega)) ?_
  have : ((k * 1000000000 : ℤ) : ℚ) / 1000000000 = (k : ℚ) := by push_cast; field_simp
  rw [this]
  exact isDbl_int (by omega)

/-- The time after a file has been sorted `k` times: every sorting reads the time and stores it again. -/
def resort (n : ℤ) : Nat → ℤ
  | 0 => n
  | k + 1 => resort (relNanos (relSeconds n)) k

/-- A time drifts by at most one nanosecond each time the file is sorted, always towards the start. -/
theorem C58_drift_partial {n : ℤ} (h0 : 0 ≤ n) (h : n < 2 ^ 52) (k : Nat) : n - k ≤ resort n k ∧ resort n k ≤ n := by
  induction k generalizing n with
  | zero => simp [resort]
  | succ k ih =>
    show n - (k + 1 : Nat) ≤ resort (relNanos (relSeconds n)) k ∧ resort (relNanos (relSeconds n)) k ≤ n
    rcases C58_time_partial h0 h with h1 | h1
    · rw [h1]; have := ih h0 h; push_cast; omega
    · by_cases hz : n = 0
      · subst hz
        exact absurd h1 (by decide +kernel)
      · rw [h1]; have := ih (n := n - 1) (by omega) (by omega); push_cast; omega

/-- Sorting twice changes a time twice: it does drift. -/
theorem C58_drifts : resort 63 1 = 62 ∧ resort 63 2 = 62 ∧ resort 1915 1 = 1914 ∧ resort 1915 2 = 1913 := by
  decide +kernel

/-- The order of samples is kept: a later sample is not read back as an earlier one. -/
theorem C58_order {n m : ℤ} (hn : 0 ≤ n) (hm : m < 2 ^ 52) (h : n < m) : relNanos (relSeconds n) ≤ relNanos (relSeconds m) := by
  rcases C58_time_partial hn (by omega) with h1 | h1 <;> rcases C58_time_partial (n := m) (by omega) hm with h2 | h2 <;> omega

/-- A master channel that counts nanoseconds with the factor 10^-9 changes more often, and different times become equal: the counters 17
and 18 are both 17 after sorting. -/
theorem C58_counter : ∀ p, p = dblRound (1 / 1000000000) →
    secondsCounter 0 p (relSeconds (relNanos (counterSeconds 0 p 17))) = 17 ∧
    secondsCounter 0 p (relSeconds (relNanos (counterSeconds 0 p 18))) = 17 := by
  rintro p rfl
  decide +kernel

/-- A counter with factor and offset: if the products and sums are numbers a `double` can hold (for example whole seconds, or powers of
two as factor), the counter stands for the value `v * p1 + p0`, and the counter written for this value is `v`. -/
theorem C58_counter_exact {p0 p1 : ℚ} {v : ℕ} (hv : v < 2 ^ 53) (hp : p1 ≠ 0) (h1 : IsDbl (v * p1)) (h2 : IsDbl (v * p1 + p0)) :
    counterSeconds p0 p1 v = v * p1 + p0 ∧ secondsCounter p0 p1 (v * p1 + p0) = v := by
  have hd : IsDbl (v : ℚ) := by
    have := isDbl_int (n := (v : ℤ)) (by rw [abs_of_nonneg (by omega)]; exact_mod_cast hv)
    exact_mod_cast this
  constructor
  · unfold counterSeconds
    rw [dblRound_id hd, dblRound_id h1, dblRound_id h2]
  · unfold secondsCounter
    dsimp only
    rw [add_sub_cancel_right, dblRound_id h1, mul_div_cancel_right₀ _ hp, dblRound_id hd, if_neg (by simp)]
    have hb := truncInt_bounds (q := (v : ℚ)) (a := v) (b := v + 1) (by simp) (by push_cast; linarith) (by omega)
    omega

/-- A time before the first one the counter can hold is stored as counter 0. -/
theorem C58_counter_negative {p0 p1 s : ℚ} (hp : 0 < p1) (hs : s ≤ p0) : secondsCounter p0 p1 s = 0 := by
  have hz : IsDbl 0 := ⟨0, 0, by norm_num, by simp⟩
  have h1 : dblRound (s - p0) ≤ 0 := dblRound_le hz (by linarith)
  have h2 : dblRound (dblRound (s - p0) / p1) ≤ 0 := dblRound_le hz (div_nonpos_of_nonpos_of_nonneg h1 hp.le)
  unfold secondsCounter
  dsimp only
  have h3 : (if dblRound (dblRound (s - p0) / p1) < 0 then 0 else dblRound (dblRound (s - p0) / p1)) = 0 := by
    split
    · rfl
    · exact le_antisymm h2 (not_lt.mp ‹_›)
  rw [h3]
  rfl

example : counterSeconds 5 (1 / 4) 7 = 7 * (1 / 4) + 5 ∧ secondsCounter 5 (1 / 4) (7 * (1 / 4) + 5) = 7 :=
  C58_counter_exact (by norm_num) (by norm_num) ⟨7, -2, by norm_num, by norm_num⟩ ⟨27, -2, by norm_num, by norm_num⟩

example : secondsCounter 5 (1 / 4) 4 = 0 := C58_counter_negative (by norm_num) (by norm_num)

end Mdf
