import Verif.Spec.Md5
import Mathlib.Analysis.Complex.Trigonometric
import Mathlib.Tactic.Linarith
import Mathlib.Tactic.Ring
import Mathlib.Tactic.FieldSimp
import Mathlib.Tactic.NormNum.NatFactorial

/-! The table of RFC 1321 is the integer part of 2^32 |sin(i + 1)|. -/

namespace Mdf

/-- The first 4 k terms of the series of exp(i): real and imaginary part. -/
def taylor : Nat → ℚ × ℚ
  | 0 => (0, 0)
  | k + 1 =>
    ((taylor k).1 + 1 / (4 * k).factorial - 1 / (4 * k + 2).factorial,
     (taylor k).2 + 1 / (4 * k + 1).factorial - 1 / (4 * k + 3).factorial)

theorem taylor_sum (k : Nat) : (∑ m ∈ Finset.range (4 * k), Complex.I ^ m / (m.factorial : ℂ)) =
    (((taylor k).1 : ℚ) : ℂ) + (((taylor k).2 : ℚ) : ℂ) * Complex.I := by
  induction k with
  | zero => simp [taylor]
  | succ k ih =>
    rw [show 4 * (k + 1) = 4 * k + 1 + 1 + 1 + 1 by ring, Finset.sum_range_succ, Finset.sum_range_succ,
      Finset.sum_range_succ, Finset.sum_range_succ, ih]
    have h4 : Complex.I ^ (4 * k) = 1 := by rw [pow_mul, Complex.I_pow_four, one_pow]
    have h5 : Complex.I ^ (4 * k + 1) = Complex.I := by rw [pow_succ, h4, one_mul]
    have h6 : Complex.I ^ (4 * k + 1 + 1) = -1 := by rw [pow_succ, h5, Complex.I_mul_I]
    have h7 : Complex.I ^ (4 * k + 1 + 1 + 1) = -Complex.I := by rw [pow_succ, h6, neg_one_mul]
    rw [h4, h5, h6, h7]
    simp only [taylor]
    push_cast
    ring

/-- 47!, the common denominator. -/
def sinD : Int := 258623241511168180642964355153611979969197632389120000000000

/-- cos 1 and sin 1 times the denominator, nearly. -/
def cosN : Int := 139734733739576959042869744862516503301327074571410005739523
def sinN : Int := 217623953728613149311144167241453835644530575780500769682761

theorem taylor12 : taylor 12 = ((cosN : ℚ) / (sinD : ℚ), (sinN : ℚ) / (sinD : ℚ)) := by
  simp only [taylor, cosN, sinN, sinD, Nat.factorial]
  norm_num

theorem one_near : |Real.cos 1 - (cosN : ℝ) / (sinD : ℝ)| ≤ 1 / 10 ^ 58 ∧ |Real.sin 1 - (sinN : ℝ) / (sinD : ℝ)| ≤ 1 / 10 ^ 58 := by
  have h := Complex.exp_bound (x := Complex.I) (by rw [Complex.norm_I]) (n := 4 * 12) (by norm_num)
  rw [taylor_sum, taylor12, Complex.norm_I] at h
  have hb : (1 : ℝ) ^ (4 * 12) * (((4 * 12 : ℕ).succ : ℝ) * (((4 * 12 : ℕ).factorial : ℝ) * ((4 * 12 : ℕ) : ℝ))⁻¹) ≤ 1 / 10 ^ 58 := by
    norm_num [Nat.factorial]
  have hre := (Complex.abs_re_le_norm _).trans (h.trans hb)
  have him := (Complex.abs_im_le_norm _).trans (h.trans hb)
  have e1 : (Complex.exp Complex.I).re = Real.cos 1 := by
    have := Complex.exp_ofReal_mul_I_re 1
    simpa using this
  have e2 : (Complex.exp Complex.I).im = Real.sin 1 := by
    have := Complex.exp_ofReal_mul_I_im 1
    simpa using this
  constructor
  · simpa [e1] using hre
  · simpa [e2] using him

/-- cos n and sin n times the n-th power of the denominator, nearly. -/
def rot : Nat → Int × Int
  | 0 => (1, 0)
  | n + 1 => ((rot n).1 * cosN - (rot n).2 * sinN, (rot n).2 * cosN + (rot n).1 * sinN)

theorem sinD_pos : (0 : ℝ) < (sinD : ℝ) := by
  norm_num [sinD]

/-- One turn by an angle that is nearly 1. -/
theorem near_step (c s c' s' p q p' q' e d : ℝ) (hc : |c - p| ≤ e) (hs : |s - q| ≤ e) (hc' : |c' - p'| ≤ d)
    (hs' : |s' - q'| ≤ d) (c1 : |c| ≤ 1) (s1 : |s| ≤ 1) (p1 : |p'| ≤ 1) (q1 : |q'| ≤ 1) :
    |(c * c' - s * s') - (p * p' - q * q')| ≤ 2 * d + 2 * e ∧ |(s * c' + c * s') - (q * p' + p * q')| ≤ 2 * d + 2 * e := by
  have h1 : |c * (c' - p')| ≤ d := by
    rw [abs_mul]
    exact (mul_le_mul c1 hc' (abs_nonneg _) zero_le_one).trans (by rw [one_mul])
  have h2 : |s * (s' - q')| ≤ d := by
    rw [abs_mul]
    exact (mul_le_mul s1 hs' (abs_nonneg _) zero_le_one).trans (by rw [one_mul])
  have h3 : |s * (c' - p')| ≤ d := by
    rw [abs_mul]
    exact (mul_le_mul s1 hc' (abs_nonneg _) zero_le_one).trans (by rw [one_mul])
  have h4 : |c * (s' - q')| ≤ d := by
    rw [abs_mul]
    exact (mul_le_mul c1 hs' (abs_nonneg _) zero_le_one).trans (by rw [one_mul])
  have he : 0 ≤ e := (abs_nonneg _).trans hc
  have k1 : |(c - p) * p'| ≤ e := by
    rw [abs_mul]
    exact (mul_le_mul hc p1 (abs_nonneg _) he).trans (by rw [mul_one])
  have k2 : |(s - q) * q'| ≤ e := by
    rw [abs_mul]
    exact (mul_le_mul hs q1 (abs_nonneg _) he).trans (by rw [mul_one])
  have k3 : |(s - q) * p'| ≤ e := by
    rw [abs_mul]
    exact (mul_le_mul hs p1 (abs_nonneg _) he).trans (by rw [mul_one])
  have k4 : |(c - p) * q'| ≤ e := by
    rw [abs_mul]
    exact (mul_le_mul hc q1 (abs_nonneg _) he).trans (by rw [mul_one])
  rw [abs_le] at h1 h2 h3 h4 k1 k2 k3 k4
  rw [abs_le, abs_le]
  refine ⟨⟨?_, ?_⟩, ?_, ?_⟩ <;> linarith

theorem near (n : Nat) : |Real.cos n - ((rot n).1 : ℝ) / (sinD : ℝ) ^ n| ≤ (4 ^ n - 1) / 10 ^ 58 ∧
    |Real.sin n - ((rot n).2 : ℝ) / (sinD : ℝ) ^ n| ≤ (4 ^ n - 1) / 10 ^ 58 := by
  induction n with
  | zero => simp [rot]
  | succ n ih =>
    have h1 := one_near
    have hD := sinD_pos
    have p1 : |(cosN : ℝ) / (sinD : ℝ)| ≤ 1 := by
      norm_num [cosN, sinD, abs_le]
    have q1 : |(sinN : ℝ) / (sinD : ℝ)| ≤ 1 := by
      norm_num [sinN, sinD, abs_le]
    have h := near_step (Real.cos n) (Real.sin n) (Real.cos 1) (Real.sin 1) _ _ _ _ _ _ ih.1 ih.2 h1.1 h1.2
      (Real.abs_cos_le_one _) (Real.abs_sin_le_one _) p1 q1
    have e1 : (((rot (n + 1)).1 : ℤ) : ℝ) / (sinD : ℝ) ^ (n + 1) = ((rot n).1 : ℝ) / (sinD : ℝ) ^ n * ((cosN : ℝ) / (sinD : ℝ)) -
        ((rot n).2 : ℝ) / (sinD : ℝ) ^ n * ((sinN : ℝ) / (sinD : ℝ)) := by
      simp only [rot]
      push_cast
      field_simp
      ring
    have e2 : (((rot (n + 1)).2 : ℤ) : ℝ) / (sinD : ℝ) ^ (n + 1) = ((rot n).2 : ℝ) / (sinD : ℝ) ^ n * ((cosN : ℝ) / (sinD : ℝ)) +
        ((rot n).1 : ℝ) / (sinD : ℝ) ^ n * ((sinN : ℝ) / (sinD : ℝ)) := by
      simp only [rot]
      push_cast
      field_simp
      ring
    have hb : 2 * (1 / 10 ^ 58) + 2 * ((4 ^ n - 1) / 10 ^ 58) ≤ ((4 : ℝ) ^ (n + 1) - 1) / 10 ^ 58 := by
      have h4 : (1 : ℝ) ≤ 4 ^ n := one_le_pow₀ (by norm_num)
      rw [pow_succ (4 : ℝ) n]
      rw [show 2 * (1 / 10 ^ 58) + 2 * (((4 : ℝ) ^ n - 1) / 10 ^ 58) = (2 + 2 * (4 ^ n - 1)) / 10 ^ 58 by ring]
      apply div_le_div_of_nonneg_right _ (by norm_num)
      linarith
    push_cast
    rw [Real.cos_add, Real.sin_add, e1, e2]
    exact ⟨h.1.trans hb, h.2.trans hb⟩

/-- The table entry v fits the turn number n, with room for the error. -/
def fits (v n : Nat) : Bool :=
  decide ((v : Int) * sinD ^ n * 1000 + sinD ^ n ≤ 2 ^ 32 * (rot n).2.natAbs * 1000) &&
  decide ((2 : Int) ^ 32 * (rot n).2.natAbs * 1000 + sinD ^ n ≤ ((v : Int) + 1) * sinD ^ n * 1000)

theorem table_fits : ∀ i < 64, fits (rfcTable.getD i 0).toNat (i + 1) = true := by
  decide +kernel

theorem fits_floor (v n : Nat) (hn : n ≤ 64) (h : fits v n = true) : ⌊(2 : ℝ) ^ 32 * |Real.sin n|⌋ = (v : ℤ) := by
  unfold fits at h
  rw [Bool.and_eq_true, decide_eq_true_eq, decide_eq_true_eq] at h
  obtain ⟨hl, hu⟩ := h
  have hD : (0 : ℝ) < (sinD : ℝ) ^ n := pow_pos sinD_pos n
  have hl' : (v : ℝ) * (sinD : ℝ) ^ n * 1000 + (sinD : ℝ) ^ n ≤ 2 ^ 32 * |((rot n).2 : ℝ)| * 1000 := by
    have : (((v : Int) * sinD ^ n * 1000 + sinD ^ n : Int) : ℝ) ≤ ((2 ^ 32 * (rot n).2.natAbs * 1000 : Int) : ℝ) := by
      exact_mod_cast hl
    push_cast at this
    rw [show (2 : ℝ) ^ 32 = 4294967296 by norm_num]
    simpa [Nat.cast_natAbs] using this
  have hu' : 2 ^ 32 * |((rot n).2 : ℝ)| * 1000 + (sinD : ℝ) ^ n ≤ ((v : ℝ) + 1) * (sinD : ℝ) ^ n * 1000 := by
    have : ((2 ^ 32 * (rot n).2.natAbs * 1000 + sinD ^ n : Int) : ℝ) ≤ ((((v : Int) + 1) * sinD ^ n * 1000 : Int) : ℝ) := by
      exact_mod_cast hu
    push_cast at this
    rw [show (2 : ℝ) ^ 32 = 4294967296 by norm_num]
    simpa [Nat.cast_natAbs] using this
  have he : ((4 : ℝ) ^ n - 1) / 10 ^ 58 ≤ 1 / 10 ^ 18 := by
    have h4 : (4 : ℝ) ^ n ≤ 4 ^ 64 := pow_le_pow_right₀ (by norm_num) hn
    rw [div_le_div_iff₀ (by norm_num) (by norm_num)]
    norm_num at h4 ⊢
    linarith
  have hs := ((near n).2).trans he
  have habs : |(|Real.sin n| - |((rot n).2 : ℝ) / (sinD : ℝ) ^ n|)| ≤ 1 / 10 ^ 18 := (abs_abs_sub_abs_le_abs_sub _ _).trans hs
  rw [abs_div, abs_of_pos hD] at habs
  rw [abs_le] at habs
  have q1 : (v : ℝ) + 1 / 1000 ≤ 2 ^ 32 * (|((rot n).2 : ℝ)| / (sinD : ℝ) ^ n) := by
    rw [← mul_div_assoc, le_div_iff₀ hD]
    linarith
  have q2 : 2 ^ 32 * (|((rot n).2 : ℝ)| / (sinD : ℝ) ^ n) ≤ (v : ℝ) + 1 - 1 / 1000 := by
    rw [← mul_div_assoc, div_le_iff₀ hD]
    linarith
  rw [Int.floor_eq_iff]
  push_cast
  constructor <;> norm_num at * <;> linarith

/-- The table is the one RFC 1321 describes. -/
theorem rfcTable_sine (i : Nat) (hi : i < 64) :
    ((rfcTable.getD i 0).toNat : ℤ) = ⌊(2 : ℝ) ^ 32 * |Real.sin ((i : ℝ) + 1)|⌋ := by
  have := fits_floor _ (i + 1) (by omega) (table_fits i hi)
  push_cast at this
  exact this.symm

end Mdf
