import Verif.Model.ExpLog
import Mathlib.Tactic.FieldSimp
import Mathlib.Tactic.Ring
import Mathlib.Tactic.Linarith

/-! C111: the exponential and logarithmic conversions of MDF 3. -/

namespace Mdf
open Classical

/-- The full claim: a value that is said to be valid is a number. -/
def C111_Statement : Prop := ∀ (P : List ℝ) (x : ℝ), convertLogarithmic P x ≠ .noNumber ∧ convertExponential P x ≠ .noNumber

/-- A logarithmic conversion of the first kind (P4 = 0), all values: the logarithm if there is one, and else a value marked as valid that
is no number. -/
theorem C111_log_first (p1 p2 p3 p5 p6 p7 x : ℝ) (more : List ℝ) (h1 : p1 ≠ 0) (h2 : p2 ≠ 0) :
    convertLogarithmic (p1 :: p2 :: p3 :: 0 :: p5 :: p6 :: p7 :: more) x =
      if 0 < ((x - p7) * p6 - p3) / p1 then .value (Real.log (((x - p7) * p6 - p3) / p1) / p2) else .noNumber := by
  unfold convertLogarithmic convertExpLog
  simp only [List.length_cons, List.getD_cons_zero, List.getD_cons_succ]
  rw [if_neg (by omega), if_pos trivial, if_neg h1]
  unfold expLogOut cLog
  rw [if_neg h2]
  split_ifs <;> rfl

/-- The second kind (P1 = 0). -/
theorem C111_log_second (p2 p3 p4 p5 p6 p7 x : ℝ) (more : List ℝ) (h4 : p4 ≠ 0) (h5 : p5 ≠ 0) (hx : x ≠ p7) :
    convertLogarithmic (0 :: p2 :: p3 :: p4 :: p5 :: p6 :: p7 :: more) x =
      if 0 < (p3 / (x - p7) - p6) / p4 then .value (Real.log ((p3 / (x - p7) - p6) / p4) / p5) else .noNumber := by
  unfold convertLogarithmic convertExpLog
  simp only [List.length_cons, List.getD_cons_zero, List.getD_cons_succ]
  rw [if_neg (by omega), if_neg h4, if_pos trivial, if_neg (sub_ne_zero.mpr hx)]
  unfold expLogOut cLog
  rw [if_neg h5]
  split_ifs <;> rfl

/-- The exponential conversion, both kinds: always a number. -/
theorem C111_exp_first (p1 p2 p3 p5 p6 p7 x : ℝ) (more : List ℝ) (h1 : p1 ≠ 0) (h2 : p2 ≠ 0) :
    convertExponential (p1 :: p2 :: p3 :: 0 :: p5 :: p6 :: p7 :: more) x = .value (Real.exp (((x - p7) * p6 - p3) / p1) / p2) := by
  unfold convertExponential convertExpLog
  simp only [List.length_cons, List.getD_cons_zero, List.getD_cons_succ]
  rw [if_neg (by omega), if_pos trivial, if_neg h1]
  simp [expLogOut, cExp, h2]

theorem C111_exp_second (p2 p3 p4 p5 p6 p7 x : ℝ) (more : List ℝ) (h4 : p4 ≠ 0) (h5 : p5 ≠ 0) (hx : x ≠ p7) :
    convertExponential (0 :: p2 :: p3 :: p4 :: p5 :: p6 :: p7 :: more) x = .value (Real.exp ((p3 / (x - p7) - p6) / p4) / p5) := by
  unfold convertExponential convertExpLog
  simp only [List.length_cons, List.getD_cons_zero, List.getD_cons_succ]
  rw [if_neg (by omega), if_neg h4, if_pos trivial, if_neg (sub_ne_zero.mpr hx)]
  simp [expLogOut, cExp, h5]

/-- With seven numbers, all other cases give `false`: neither P1 nor P4 is zero, or the numbers divided by are. -/
theorem C111_invalid (f : ℝ → Option ℝ) (P : List ℝ) (x : ℝ) : convertExpLog f P x = .invalid ↔
    P.length < 7 ∨ (P.getD 3 0 = 0 ∧ (P.getD 0 0 = 0 ∨ P.getD 1 0 = 0)) ∨
      (P.getD 3 0 ≠ 0 ∧ (P.getD 0 0 ≠ 0 ∨ x = P.getD 6 0 ∨ P.getD 4 0 = 0)) := by
  unfold convertExpLog
  simp only
  have out : ∀ a d : ℝ, expLogOut f a d = .invalid ↔ d = 0 := by
    intro a d
    unfold expLogOut
    by_cases hd : d = 0
    · simp [hd]
    · rw [if_neg hd]; cases f a <;> simp [hd]
  by_cases h7 : P.length < 7
  · simp [h7]
  · rw [if_neg h7]
    by_cases h3 : P.getD 3 0 = 0
    · rw [if_pos h3]
      by_cases h0 : P.getD 0 0 = 0
      · rw [if_pos h0]; simp only [true_iff]; exact .inr (.inl ⟨h3, .inl h0⟩)
      · rw [if_neg h0, out]
        simp only [h7, h3, h0, false_or, true_and, ne_eq, not_true_eq_false, false_and, or_false]
    · rw [if_neg h3]
      by_cases h0 : P.getD 0 0 = 0
      · rw [if_pos h0]
        by_cases hx : x - P.getD 6 0 = 0
        · rw [if_pos hx]
          simp only [true_iff]
          exact .inr (.inr ⟨h3, .inr (.inl (sub_eq_zero.mp hx))⟩)
        · rw [if_neg hx, out]
          have := sub_ne_zero.mp hx
          simp only [h7, h3, h0, this, false_or, false_and, ne_eq, not_true_eq_false, not_false_eq_true, true_and]
      · rw [if_neg h0]
        simp only [true_iff]
        exact .inr (.inr ⟨h3, .inl h0⟩)

/-- C111 is false of the code: the logarithm of a negative number is said to be valid. -/
theorem C111_false : ¬ C111_Statement := by
  intro h
  have h1 := (h (1 :: 1 :: 0 :: 0 :: 0 :: 1 :: 0 :: []) (-1)).1
  rw [C111_log_first 1 1 0 0 1 0 (-1) [] one_ne_zero one_ne_zero] at h1
  rw [if_neg (by norm_num)] at h1
  exact h1 rfl

/-- The exponential conversion never says so.  Missing: the logarithmic one, see `C111_log_first`, `C111_log_second`. -/
theorem C111_exponential_partial (P : List ℝ) (x : ℝ) : convertExponential P x ≠ .noNumber := by
  unfold convertExponential convertExpLog
  simp only [expLogOut, cExp]
  split_ifs <;> simp

/-- The stored value follows from the shown value of a logarithmic conversion (first kind): it is an exponential function of it. -/
theorem C111_log_inverse (p1 p2 p3 p5 p6 p7 x y : ℝ) (more : List ℝ) (h1 : p1 ≠ 0) (h2 : p2 ≠ 0) (h6 : p6 ≠ 0) :
    convertLogarithmic (p1 :: p2 :: p3 :: 0 :: p5 :: p6 :: p7 :: more) x = .value y ↔ x = (p1 * Real.exp (p2 * y) + p3) / p6 + p7 := by
  rw [C111_log_first _ _ _ _ _ _ _ _ h1 h2]
  constructor
  · intro h
    split_ifs at h with hp
    have hy : y = Real.log (((x - p7) * p6 - p3) / p1) / p2 := by injection h with h; exact h.symm
    have e : Real.exp (p2 * y) = ((x - p7) * p6 - p3) / p1 := by
      rw [hy, mul_div_cancel₀ _ h2, Real.exp_log hp]
    rw [e]
    field_simp
    ring
  · intro h
    have e : ((x - p7) * p6 - p3) / p1 = Real.exp (p2 * y) := by
      rw [h]; field_simp; ring
    rw [e, if_pos (Real.exp_pos _), Real.log_exp, mul_div_cancel_left₀ _ h2]

/-- The same for the exponential conversion, for shown values that it can give. -/
theorem C111_exp_inverse (p1 p2 p3 p5 p6 p7 x y : ℝ) (more : List ℝ) (h1 : p1 ≠ 0) (h2 : p2 ≠ 0) (h6 : p6 ≠ 0) :
    convertExponential (p1 :: p2 :: p3 :: 0 :: p5 :: p6 :: p7 :: more) x = .value y ↔
      0 < p2 * y ∧ x = (p1 * Real.log (p2 * y) + p3) / p6 + p7 := by
  rw [C111_exp_first _ _ _ _ _ _ _ _ h1 h2]
  constructor
  · intro h
    have hy : Real.exp (((x - p7) * p6 - p3) / p1) / p2 = y := by injection h
    have e : p2 * y = Real.exp (((x - p7) * p6 - p3) / p1) := by rw [← hy, mul_div_cancel₀ _ h2]
    refine ⟨by rw [e]; exact Real.exp_pos _, ?_⟩
    rw [e, Real.log_exp]
    field_simp
    ring
  · rintro ⟨hp, h⟩
    have e : ((x - p7) * p6 - p3) / p1 = Real.log (p2 * y) := by
      rw [h]; field_simp; ring
    rw [e, Real.exp_log hp, mul_div_cancel_left₀ _ h2]

/-- The second kind of the logarithmic conversion. -/
theorem C111_log_inverse_second (p2 p3 p4 p5 p6 p7 x y : ℝ) (more : List ℝ) (h3 : p3 ≠ 0) (h4 : p4 ≠ 0) (h5 : p5 ≠ 0) (hx : x ≠ p7)
    (hd : p4 * Real.exp (p5 * y) + p6 ≠ 0) :
    convertLogarithmic (0 :: p2 :: p3 :: p4 :: p5 :: p6 :: p7 :: more) x = .value y ↔ x = p3 / (p4 * Real.exp (p5 * y) + p6) + p7 := by
  rw [C111_log_second _ _ _ _ _ _ _ _ h4 h5 hx]
  have hx' : x - p7 ≠ 0 := sub_ne_zero.mpr hx
  constructor
  · intro h
    split_ifs at h with hp
    have hy : y = Real.log ((p3 / (x - p7) - p6) / p4) / p5 := by injection h with h; exact h.symm
    have e : Real.exp (p5 * y) = (p3 / (x - p7) - p6) / p4 := by
      rw [hy, mul_div_cancel₀ _ h5, Real.exp_log hp]
    rw [e, mul_div_cancel₀ _ h4, sub_add_cancel, div_div_cancel₀ h3]
    ring
  · intro h
    have e : (p3 / (x - p7) - p6) / p4 = Real.exp (p5 * y) := by
      have e1 : x - p7 = p3 / (p4 * Real.exp (p5 * y) + p6) := by rw [h]; ring
      rw [e1, div_div_cancel₀ h3, add_sub_cancel_right, mul_div_cancel_left₀ _ h4]
    rw [e, if_pos (Real.exp_pos _), Real.log_exp, mul_div_cancel_left₀ _ h5]

example : convertLogarithmic [2, 1, 0, 0, 0, 1, 5] 7 = .value 0 :=
  (C111_log_inverse 2 1 0 0 1 5 7 0 [] (by norm_num) one_ne_zero one_ne_zero).mpr (by norm_num)

example : convertExponential [2, 1, 0, 0, 0, 1, 5] 5 = .value 1 :=
  (C111_exp_inverse 2 1 0 0 1 5 5 1 [] (by norm_num) one_ne_zero one_ne_zero).mpr (by norm_num)

example : convertLogarithmic [0, 0, 4, 2, 1, 2, 5] 6 = .value 0 :=
  (C111_log_inverse_second 0 4 2 1 2 5 6 0 [] (by norm_num) (by norm_num) one_ne_zero (by norm_num) (by norm_num)).mpr (by norm_num)

end Mdf
