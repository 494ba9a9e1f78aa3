import Verif.Model.Double
import Verif.Spec.Double
import Mathlib.Tactic.Linarith
import Mathlib.Tactic.FieldSimp
import Mathlib.Tactic.Ring
import Mathlib.Algebra.Order.Field.Power
import Mathlib.Data.Rat.Cast.Order

/-! Lemmas about rounding. -/

namespace Mdf

theorem pow2_eq (k : ℤ) : pow2 k = (2 : ℚ) ^ k := by
  cases k with
  | ofNat n => simp [pow2]
  | negSucc n => simp [pow2, zpow_negSucc]

theorem roundEven_half (q : ℚ) : |q - roundEven q| ≤ 1 / 2 := by
  have h1 := Rat.floor_le q
  have h2 := Rat.lt_floor_add_one q
  push_cast at h2
  unfold roundEven
  rw [abs_le]
  split
  · constructor <;> linarith
  · split
    · push_cast; constructor <;> linarith
    · split
      · constructor <;> linarith
      · push_cast; constructor <;> linarith

theorem roundEven_near (q : ℚ) (z : ℤ) : |q - roundEven q| ≤ |q - z| := by
  by_cases hz : z = roundEven q
  · rw [hz]
  · have h := roundEven_half q
    have h1 : (1 : ℚ) ≤ |(roundEven q : ℚ) - z| := by
      rw [← Int.cast_sub, ← Int.cast_abs]
      exact_mod_cast Int.one_le_abs (sub_ne_zero.mpr (Ne.symm hz))
    have h2 : |(roundEven q : ℚ) - z| ≤ |q - roundEven q| + |q - z| := by
      have := abs_sub_le (roundEven q : ℚ) q z
      rwa [abs_sub_comm (roundEven q : ℚ) q] at this
    linarith

theorem binExp_spec {q : ℚ} (h : q ≠ 0) : (2 : ℚ) ^ binExp q ≤ |q| ∧ |q| < (2 : ℚ) ^ (binExp q + 1) := by
  have habs : (if 0 ≤ q then q else -q) = |q| := by
    split
    · rename_i h; exact (abs_of_nonneg h).symm
    · rename_i h; exact (abs_of_neg (lt_of_not_ge h)).symm
  have hn : q.num.natAbs ≠ 0 := by simpa using h
  have ha1 : (2 : ℚ) ^ (q.num.natAbs.log2 : ℤ) ≤ (q.num.natAbs : ℚ) := by
    rw [zpow_natCast]; exact_mod_cast Nat.log2_self_le hn
  have ha2 : (q.num.natAbs : ℚ) < 2 ^ ((q.num.natAbs.log2 : ℤ) + 1) := by
    have : q.num.natAbs < 2 ^ (q.num.natAbs.log2 + 1) := Nat.lt_log2_self
    rw [show (q.num.natAbs.log2 : ℤ) + 1 = ((q.num.natAbs.log2 + 1 : ℕ) : ℤ) by push_cast; rfl, zpow_natCast]
    exact_mod_cast this
  have hb1 : (2 : ℚ) ^ (q.den.log2 : ℤ) ≤ (q.den : ℚ) := by
    rw [zpow_natCast]; exact_mod_cast Nat.log2_self_le q.den_nz
  have hb2 : (q.den : ℚ) < 2 ^ ((q.den.log2 : ℤ) + 1) := by
    have : q.den < 2 ^ (q.den.log2 + 1) := Nat.lt_log2_self
    rw [show (q.den.log2 : ℤ) + 1 = ((q.den.log2 + 1 : ℕ) : ℤ) by push_cast; rfl, zpow_natCast]
    exact_mod_cast this
  have hq : |q| = (q.num.natAbs : ℚ) / q.den := by
    rw [Nat.cast_natAbs, Int.cast_abs]
    conv_lhs => rw [← Rat.num_div_den q]
    rw [abs_div, Nat.abs_cast]
  have hd : (0 : ℚ) < q.den := by exact_mod_cast q.den_pos
  have h20 : (2 : ℚ) ≠ 0 := by norm_num
  unfold binExp
  simp only [habs, pow2_eq]
  generalize q.num.natAbs.log2 = a at *
  generalize q.den.log2 = b at *
  have hlt : |q| < (2 : ℚ) ^ ((a : ℤ) - b + 1) := by
    rw [hq, div_lt_iff₀ hd]
    calc (q.num.natAbs : ℚ) < 2 ^ ((a : ℤ) + 1) := ha2
      _ = 2 ^ ((a : ℤ) - b + 1) * 2 ^ (b : ℤ) := by rw [← zpow_add₀ h20]; congr 1; ring
      _ ≤ _ := mul_le_mul_of_nonneg_left hb1 (by positivity)
  split
  · rename_i hk; exact ⟨hk, hlt⟩
  · rename_i hk
    refine ⟨?_, by rw [show (a : ℤ) - b - 1 + 1 = a - b by ring]; exact lt_of_not_ge hk⟩
    rw [hq, le_div_iff₀ hd]
    calc (2 : ℚ) ^ ((a : ℤ) - b - 1) * q.den ≤ 2 ^ ((a : ℤ) - b - 1) * 2 ^ ((b : ℤ) + 1) :=
          mul_le_mul_of_nonneg_left hb2.le (by positivity)
      _ = 2 ^ (a : ℤ) := by rw [← zpow_add₀ h20]; congr 1; ring
      _ ≤ _ := ha1

/-- The distance to the nearest `double`, for numbers that are not 0. -/
theorem dblRound_dist {q : ℚ} (h : q ≠ 0) :
    q - dblRound q = (q * 2 ^ (52 - binExp q) - roundEven (q * 2 ^ (52 - binExp q))) * 2 ^ (binExp q - 52) := by
  have h20 : (2 : ℚ) ≠ 0 := by norm_num
  unfold dblRound
  rw [if_neg h]
  simp only [pow2_eq]
  rw [sub_mul, mul_assoc, ← zpow_add₀ h20]
  have : (52 - binExp q + (binExp q - 52)) = 0 := by ring
  rw [this, zpow_zero, mul_one]

theorem dblRound_err (q : ℚ) : |q - dblRound q| ≤ |q| / 2 ^ 53 := by
  by_cases h : q = 0
  · subst h; simp [dblRound]
  have h20 : (2 : ℚ) ≠ 0 := by norm_num
  rw [dblRound_dist h, abs_mul, abs_of_pos (by positivity : (0 : ℚ) < 2 ^ (binExp q - 52))]
  have h1 := roundEven_half (q * 2 ^ (52 - binExp q))
  have h2 := (binExp_spec h).1
  have h3 : (2 : ℚ) ^ (binExp q - 52) = 2 ^ binExp q / 2 ^ 52 := by
    rw [zpow_sub₀ h20]; norm_cast
  calc _ ≤ 1 / 2 * 2 ^ (binExp q - 52) := mul_le_mul_of_nonneg_right h1 (by positivity)
    _ = 2 ^ binExp q / 2 ^ 53 := by rw [h3]; ring
    _ ≤ _ := div_le_div_of_nonneg_right h2 (by positivity)

theorem dblRound_isDbl (q : ℚ) : IsDbl (dblRound q) := by
  by_cases h : q = 0
  · subst h; exact ⟨0, 0, by norm_num, by simp [dblRound]⟩
  have h20 : (2 : ℚ) ≠ 0 := by norm_num
  have hs := (binExp_spec h).2
  have hm : |q * 2 ^ (52 - binExp q)| < 2 ^ 53 := by
    rw [abs_mul, abs_of_pos (by positivity : (0 : ℚ) < 2 ^ (52 - binExp q))]
    calc |q| * 2 ^ (52 - binExp q) < 2 ^ (binExp q + 1) * 2 ^ (52 - binExp q) :=
          mul_lt_mul_of_pos_right hs (by positivity)
      _ = 2 ^ 53 := by
          rw [← zpow_add₀ h20, show binExp q + 1 + (52 - binExp q) = (53 : ℕ) by push_cast; ring, zpow_natCast]
  have hr : |(roundEven (q * 2 ^ (52 - binExp q)) : ℚ)| ≤ 2 ^ 53 := by
    have hlo := abs_lt.mp hm
    have hu : (roundEven (q * 2 ^ (52 - binExp q)) : ℚ) < 2 ^ 53 + 1 := by
      have := abs_le.mp (roundEven_half (q * 2 ^ (52 - binExp q)))
      linarith [this.1, hlo.2]
    have hl : -(2 ^ 53 + 1) < (roundEven (q * 2 ^ (52 - binExp q)) : ℚ) := by
      have := abs_le.mp (roundEven_half (q * 2 ^ (52 - binExp q)))
      linarith [this.2, hlo.1]
    have hu' : roundEven (q * 2 ^ (52 - binExp q)) < 2 ^ 53 + 1 := by exact_mod_cast hu
    have hl' : -(2 ^ 53 + 1) < roundEven (q * 2 ^ (52 - binExp q)) := by exact_mod_cast hl
    rw [abs_le]
    constructor
    · exact_mod_cast (by omega : -(2 ^ 53) ≤ roundEven (q * 2 ^ (52 - binExp q)))
    · exact_mod_cast (by omega : roundEven (q * 2 ^ (52 - binExp q)) ≤ 2 ^ 53)
  unfold dblRound
  rw [if_neg h]
  simp only [pow2_eq]
  generalize roundEven (q * 2 ^ (52 - binExp q)) = r at hr
  have hr' : |r| ≤ 2 ^ 53 := by rw [← Int.cast_abs] at hr; exact_mod_cast hr
  rcases lt_or_eq_of_le hr' with hlt | heq
  · exact ⟨r, _, hlt, rfl⟩
  · rcases (abs_eq (by norm_num : (0 : ℤ) ≤ 2 ^ 53)).mp heq with h1 | h1
    · refine ⟨1, binExp q - 52 + 53, by norm_num, ?_⟩
      rw [h1, zpow_add₀ h20]; push_cast; norm_cast; ring
    · refine ⟨-1, binExp q - 52 + 53, by norm_num, ?_⟩
      rw [h1, zpow_add₀ h20, show (2 : ℚ) ^ (53 : ℤ) = 2 ^ 53 by norm_cast]; push_cast; ring

theorem dblRound_nearest (q : ℚ) : Nearest q (dblRound q) := by
  refine ⟨dblRound_isDbl q, ?_⟩
  rintro d ⟨m, k, hm, rfl⟩
  by_cases h : q = 0
  · subst h
    rw [show dblRound 0 = 0 by simp [dblRound], sub_zero, abs_zero]
    exact abs_nonneg _
  have h20 : (2 : ℚ) ≠ 0 := by norm_num
  have hs := (binExp_spec h).1
  rw [dblRound_dist h, abs_mul, abs_of_pos (by positivity : (0 : ℚ) < 2 ^ (binExp q - 52))]
  set e := binExp q with he
  -- a multiple of the unit in the last place
  have key : ∀ z : ℤ, |q * 2 ^ (52 - e) - roundEven (q * 2 ^ (52 - e))| * 2 ^ (e - 52) ≤ |q - z * 2 ^ (e - 52)| := by
    intro z
    have h1 := roundEven_near (q * 2 ^ (52 - e)) z
    have h2 : q - z * 2 ^ (e - 52) = (q * 2 ^ (52 - e) - z) * 2 ^ (e - 52) := by
      rw [sub_mul, mul_assoc, ← zpow_add₀ h20, show 52 - e + (e - 52) = 0 by ring, zpow_zero, mul_one]
    rw [h2, abs_mul, abs_of_pos (by positivity : (0 : ℚ) < 2 ^ (e - 52))]
    exact mul_le_mul_of_nonneg_right h1 (by positivity)
  by_cases hk : e - 52 ≤ k
  · obtain ⟨j, hj⟩ := Int.eq_ofNat_of_zero_le (sub_nonneg.mpr hk)
    have := key (m * 2 ^ j)
    have hd : (m : ℚ) * 2 ^ k = ((m * 2 ^ j : ℤ) : ℚ) * 2 ^ (e - 52) := by
      have : k = (j : ℤ) + (e - 52) := by omega
      rw [this, zpow_add₀ h20]; push_cast; rw [zpow_natCast]; ring
    rw [hd]; exact this
  · have hmq : |(m : ℚ)| < 2 ^ 53 := by rw [← Int.cast_abs]; exact_mod_cast hm
    have hsmall : |(m : ℚ) * 2 ^ k| ≤ 2 ^ e := by
      rw [abs_mul, abs_of_pos (by positivity : (0 : ℚ) < 2 ^ k)]
      calc |(m : ℚ)| * 2 ^ k ≤ 2 ^ 53 * 2 ^ k := mul_le_mul_of_nonneg_right hmq.le (by positivity)
        _ = 2 ^ (53 + k) := by rw [zpow_add₀ h20]; norm_cast
        _ ≤ 2 ^ e := zpow_le_zpow_right₀ (by norm_num) (by omega)
    have hpow : ((2 ^ 52 : ℤ) : ℚ) * 2 ^ (e - 52) = 2 ^ e := by
      rw [show e = 52 + (e - 52) by ring, zpow_add₀ h20]; push_cast; norm_cast; congr 2; ring
    have htri := abs_sub_abs_le_abs_sub q (m * 2 ^ k)
    rcases lt_or_gt_of_ne h with hneg | hpos
    · have := key (-(2 ^ 52))
      have hq : |q - ((-(2 ^ 52) : ℤ) : ℚ) * 2 ^ (e - 52)| = |q| - 2 ^ e := by
        have : ((-(2 ^ 52) : ℤ) : ℚ) * 2 ^ (e - 52) = -(2 ^ e) := by rw [← hpow]; push_cast; ring
        rw [this, sub_neg_eq_add, abs_of_neg hneg] at *
        rw [abs_of_nonpos (by linarith)]; ring
      rw [hq] at this
      linarith
    · have := key (2 ^ 52)
      have hq : |q - ((2 ^ 52 : ℤ) : ℚ) * 2 ^ (e - 52)| = |q| - 2 ^ e := by
        rw [hpow, abs_of_pos hpos] at *
        rw [abs_of_nonneg (by linarith)]
      rw [hq] at this
      linarith

/-- A `double` is not changed by rounding. -/
theorem dblRound_id {d : ℚ} (h : IsDbl d) : dblRound d = d := by
  have := (dblRound_nearest d).2 d h
  rw [sub_self, abs_zero] at this
  have := abs_nonpos_iff.mp this
  linarith

theorem dblRound_ge {q d : ℚ} (hd : IsDbl d) (h : d ≤ q) : d ≤ dblRound q := by
  by_contra hlt
  have hlt := lt_of_not_ge hlt
  have := (dblRound_nearest q).2 d hd
  rw [abs_of_nonneg (by linarith), abs_of_nonneg (by linarith)] at this
  linarith

theorem dblRound_le {q d : ℚ} (hd : IsDbl d) (h : q ≤ d) : dblRound q ≤ d := by
  by_contra hlt
  have hlt := lt_of_not_ge hlt
  have := (dblRound_nearest q).2 d hd
  rw [abs_of_nonpos (by linarith), abs_of_nonpos (by linarith)] at this
  linarith

theorem isDbl_int {n : ℤ} (h : |n| < 2 ^ 53) : IsDbl n := ⟨n, 0, h, by simp⟩

theorem isDbl_half {n : ℤ} (h : |2 * n + 1| < 2 ^ 53) : IsDbl (n + 1 / 2) :=
  ⟨2 * n + 1, -1, h, by push_cast; rw [zpow_neg_one]; ring⟩

theorem truncInt_bounds {q : ℚ} {a b : ℤ} (h1 : (a : ℚ) ≤ q) (h2 : q < b) (ha : 0 ≤ a) : a ≤ truncInt q ∧ truncInt q < b := by
  have : (0 : ℚ) ≤ q := le_trans (by exact_mod_cast ha) h1
  unfold truncInt
  rw [if_pos this]
  exact ⟨Rat.le_floor_iff.mpr h1, Rat.floor_lt_iff.mpr h2⟩

theorem truncInt_bounds_neg {q : ℚ} {a b : ℤ} (h1 : (a : ℚ) < q) (h2 : q ≤ b) (hb : b ≤ 0) : a < truncInt q ∧ truncInt q ≤ b := by
  have hq : q ≤ 0 := le_trans h2 (by exact_mod_cast hb)
  unfold truncInt
  by_cases h0 : 0 ≤ q
  · have : q = 0 := le_antisymm hq h0
    subst this
    have ha : a < 0 := by exact_mod_cast h1
    have hb' : 0 ≤ b := by exact_mod_cast h2
    rw [if_pos (le_refl _), show Rat.floor 0 = 0 from Rat.floor_intCast 0]
    exact ⟨ha, hb'⟩
  · rw [if_neg h0]
    have h3 : -b ≤ (-q).floor := Rat.le_floor_iff.mpr (by push_cast; linarith)
    have h4 : (-q).floor < -a := Rat.floor_lt_iff.mpr (by push_cast; linarith)
    omega

/-- The product read back differs from the time by less than the time over 2^53. -/
theorem relSeconds_err {n : ℤ} (h : |n| < 2 ^ 53) : |relSeconds n * 1000000000 - n| ≤ |(n : ℚ)| / 2 ^ 53 := by
  unfold relSeconds
  rw [dblRound_id (isDbl_int h)]
  have := dblRound_err ((n : ℚ) / 1000000000)
  rw [abs_div, abs_of_pos (by norm_num : (0 : ℚ) < 1000000000)] at this
  have h2 : dblRound ((n : ℚ) / 1000000000) * 1000000000 - n = -(((n : ℚ) / 1000000000 - dblRound (n / 1000000000)) * 1000000000) := by
    field_simp; ring
  rw [h2, abs_neg, abs_mul, abs_of_pos (by norm_num : (0 : ℚ) < 1000000000)]
  calc _ ≤ |(n : ℚ)| / 1000000000 / 2 ^ 53 * 1000000000 := mul_le_mul_of_nonneg_right this (by norm_num)
    _ = _ := by field_simp

end Mdf
