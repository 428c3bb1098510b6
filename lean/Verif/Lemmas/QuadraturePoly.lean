import Verif.Lemmas.Quadrature
import Mathlib.MeasureTheory.Integral.IntervalIntegral.FundThmCalculus
import Mathlib.Analysis.SpecialFunctions.Integrals.Basic

/-!
# Helper lemmas: quadrature rules on polynomials
-/

namespace Catima

/-- The error of a rule whose moments below `2n` are right up to `10^-t`. -/
theorem GLData.poly_error (d : GLData) (hd : d.shapeCheck = true) (n t : Nat)
    (hc : d.momentCheck n t = true) (P : Polynomial ℝ) (hP : P.natDegree < 2 * n) (a b : ℝ) :
    |((b - a) / 2 * wsum d.full fun x => P.eval ((b - a) / 2 * x + (b + a) / 2))
      - ∫ x in a..b, P.eval x| ≤ (10 ^ t)⁻¹ * (|b - a| / 2) *
        ∑ k ∈ Finset.range (2 * n),
          |(P.comp (Polynomial.C ((b - a) / 2) * Polynomial.X
            + Polynomial.C ((b + a) / 2))).coeff k| := by
  set p := (b - a) / 2 with hp
  set q := (b + a) / 2 with hq
  set Q := P.comp (Polynomial.C p * Polynomial.X + Polynomial.C q) with hQ
  have hev : ∀ t, P.eval (p * t + q) = Q.eval t := by
    intro t; simp [hQ, Polynomial.eval_comp]
  have hdeg : Q.natDegree < 2 * n := by
    have h1 : (Polynomial.C p * Polynomial.X + Polynomial.C q).natDegree ≤ 1 :=
      Polynomial.natDegree_linear_le
    have h2 : Q.natDegree ≤ P.natDegree * 1 :=
      Polynomial.natDegree_comp_le.trans (Nat.mul_le_mul_left _ h1)
    omega
  have hsum : ∀ t, Q.eval t = ∑ k ∈ Finset.range (2 * n), Q.coeff k * t ^ k := fun t =>
    Polynomial.eval_eq_sum_range' hdeg t
  have hI : ∫ x in a..b, P.eval x = p * ∑ k ∈ Finset.range (2 * n),
      Q.coeff k * ((1 - (-1) ^ (k + 1)) / (k + 1)) := by
    have h1 : p * ∫ t in (-1 : ℝ)..1, P.eval (p * t + q) = ∫ x in a..b, P.eval x := by
      rw [intervalIntegral.mul_integral_comp_mul_add (f := fun x => P.eval x)]
      congr 1 <;> simp only [hp, hq] <;> ring
    rw [← h1]
    congr 1
    simp_rw [hev, hsum]
    rw [intervalIntegral.integral_finsetSum]
    · apply Finset.sum_congr rfl
      intro k _
      rw [intervalIntegral.integral_const_mul, integral_pow, one_pow]
    · intro k _
      exact (by fun_prop : Continuous fun t : ℝ => Q.coeff k * t ^ k).intervalIntegrable _ _
  have hR : (wsum d.full fun x => P.eval (p * x + q)) = ∑ k ∈ Finset.range (2 * n),
      Q.coeff k * wsum d.full (fun x => x ^ k) := by
    simp_rw [hev, hsum]
    rw [wsum_sum]
    apply Finset.sum_congr rfl
    intro k _; rw [wsum_smul]
  rw [hR, hI, ← mul_sub, ← Finset.sum_sub_distrib, abs_mul]
  have hpabs : |p| = |b - a| / 2 := by rw [hp, abs_div]; norm_num
  rw [hpabs, mul_comm ((10 : ℝ) ^ t)⁻¹, mul_assoc]
  apply mul_le_mul_of_nonneg_left _ (by positivity)
  refine (Finset.abs_sum_le_sum_abs _ _).trans ?_
  rw [Finset.mul_sum]
  apply Finset.sum_le_sum
  intro k hk
  have hk : k < 2 * n := Finset.mem_range.mp hk
  rw [← mul_sub, abs_mul, mul_comm ((10 : ℝ) ^ t)⁻¹]
  apply mul_le_mul_of_nonneg_left _ (abs_nonneg _)
  rcases Nat.mod_two_eq_zero_or_one k with h0 | h1
  · obtain ⟨j, rfl⟩ : ∃ j, k = 2 * j := ⟨k / 2, by omega⟩
    have := d.moment_even hd n t hc j (by omega)
    have e : ((1 : ℝ) - (-1) ^ (2 * j + 1)) / ((2 * j : ℕ) + 1) = 2 / (2 * j + 1) := by
      rw [pow_succ, pow_mul]; norm_num
    rw [e]; exact this
  · rw [d.moment_odd hd k h1]
    have e : (-1 : ℝ) ^ (k + 1) = 1 := Even.neg_one_pow (by
      rw [Nat.even_iff]; omega)
    rw [e]
    simp

end Catima
