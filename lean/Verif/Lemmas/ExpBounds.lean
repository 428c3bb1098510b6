import Mathlib.Analysis.Complex.Exponential
import Mathlib.Analysis.SpecialFunctions.Log.Basic

/-!
# Numerical bounds of the exponential function
-/

namespace Catima

/-- A Taylor polynomial is a lower bound. -/
theorem exp_ge (n : ℕ) (x c : ℝ) (hx : 0 ≤ x)
    (h : c ≤ ∑ i ∈ Finset.range n, x ^ i / (Nat.factorial i : ℝ)) : c ≤ Real.exp x :=
  h.trans (Real.sum_le_exp_of_nonneg hx n)

/-- An upper bound from the Taylor polynomial of degree 7 at `x / k`. -/
theorem exp_le (k : ℕ) (x c : ℝ) (hk : 0 < k) (hx : 0 ≤ x) (hxk : x ≤ k)
    (h : (∑ i ∈ Finset.range 8, (x / k) ^ i / (Nat.factorial i : ℝ) +
      (x / k) ^ 8 * (8 + 1) / (Nat.factorial 8 * 8 : ℝ)) ^ k ≤ c) : Real.exp x ≤ c := by
  have hk' : (0 : ℝ) < k := by exact_mod_cast hk
  have h1 : Real.exp (x / k) ≤ _ :=
    Real.exp_bound' (n := 8) (by positivity) ((div_le_one hk').mpr hxk) (by norm_num)
  have h2 : Real.exp x = Real.exp (x / k) ^ k := by
    rw [← Real.exp_nat_mul]
    congr 1
    field_simp
  rw [h2]
  refine le_trans (pow_le_pow_left₀ (Real.exp_pos _).le h1 k) ?_
  exact_mod_cast h

theorem log_le_of (n : ℕ) (a b : ℝ) (ha : 0 < a) (hb : 0 ≤ b)
    (h : a ≤ ∑ i ∈ Finset.range n, b ^ i / (Nat.factorial i : ℝ)) : Real.log a ≤ b :=
  (Real.log_le_iff_le_exp ha).mpr (exp_ge n b a hb h)

theorem le_log_of (k : ℕ) (a b : ℝ) (ha : 0 < a) (hk : 0 < k) (hb : 0 ≤ b) (hbk : b ≤ k)
    (h : (∑ i ∈ Finset.range 8, (b / k) ^ i / (Nat.factorial i : ℝ) +
      (b / k) ^ 8 * (8 + 1) / (Nat.factorial 8 * 8 : ℝ)) ^ k ≤ a) : b ≤ Real.log a :=
  (Real.le_log_iff_exp_le ha).mpr (exp_le k b a hk hb hbk h)

end Catima
