import Verif.Lemmas.Grid
import Mathlib.Analysis.SpecialFunctions.Log.Deriv
import Mathlib.Analysis.Complex.ExponentialBounds

/-!
# The literal `LN10` against `log 10`
-/

namespace Catima

theorem log_two_near : |Real.log 2 - 0.693147180559945309417| ≤ 1e-16 := by
  have h := Real.abs_log_sub_add_sum_range_le (x := 1 / 2) (by norm_num [abs_of_pos]) 60
  have e : Real.log (1 - 1 / 2) = - Real.log 2 := by
    rw [← Real.log_inv]; norm_num
  rw [e, abs_of_pos (by norm_num : (0 : ℝ) < 1 / 2)] at h
  norm_num [Finset.sum_range_succ] at h
  rw [abs_le] at h ⊢
  constructor <;> norm_num <;> linarith [h.1, h.2]

theorem log_five_fourths_near : |Real.log (5 / 4) - 0.223143551314209755766| ≤ 1e-16 := by
  have h := Real.abs_log_sub_add_sum_range_le (x := 1 / 5) (by norm_num [abs_of_pos]) 25
  have e : Real.log (1 - 1 / 5) = - Real.log (5 / 4) := by
    rw [← Real.log_inv]; norm_num
  rw [e, abs_of_pos (by norm_num : (0 : ℝ) < 1 / 5)] at h
  norm_num [Finset.sum_range_succ] at h
  rw [abs_le] at h ⊢
  constructor <;> norm_num <;> linarith [h.1, h.2]

theorem LN10_near : |(LN10 : ℝ) - Real.log 10| ≤ 1e-15 := by
  have e : Real.log 10 = 3 * Real.log 2 + Real.log (5 / 4) := by
    have : (10 : ℝ) = 2 ^ 3 * (5 / 4) := by norm_num
    rw [this, Real.log_mul (by norm_num) (by norm_num), Real.log_pow]; norm_num
  have h2 := abs_le.mp log_two_near
  have h5 := abs_le.mp log_five_fourths_near
  rw [e, abs_le]
  constructor <;> norm_num [LN10] at * <;> linarith [h2.1, h2.2, h5.1, h5.2]

end Catima
