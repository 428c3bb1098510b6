import Mathlib.Analysis.SpecialFunctions.Trigonometric.Basic

/-!
# Specification: the series of Lindhard and Sørensen

`δ k` is the phase shift of the Coulomb wave with angular quantum number `k`, a non-zero integer.
-/

namespace Catima

/-- The term of order `k` of the correction `ΔL` to the stopping power. -/
noncomputable def lsTerm (eta : ℝ) (δ : ℤ → ℝ) (k : ℕ) : ℝ :=
  k / eta ^ 2 * ((k - 1) / (2 * k - 1) * Real.sin (δ k - δ (k - 1)) ^ 2 +
    (k + 1) / (2 * k + 1) * Real.sin (δ (-k) - δ (-k - 1)) ^ 2 +
    1 / (4 * k ^ 2 - 1) * Real.sin (δ k - δ (-k)) ^ 2) - 1 / k

/-- The term of order `k` of the sum subtracted for the correction to the straggling. -/
noncomputable def lsXTerm (eta : ℝ) (δ : ℤ → ℝ) (k : ℕ) : ℝ :=
  k / eta ^ 2 * ((k - 1) * (k - 2) / ((2 * k - 1) * (2 * k - 3)) * Real.sin (δ k - δ (k - 2)) ^ 2 +
    (k + 1) * (k + 2) / ((2 * k + 1) * (2 * k + 3)) * Real.sin (δ (-k) - δ (-k - 2)) ^ 2 +
    2 * ((k - 1) / ((2 * k - 3) * (4 * k ^ 2 - 1))) * Real.sin (δ k - δ (-k + 1)) ^ 2 +
    (k + 1) / (2 * k + 1) * (1 / (4 * k ^ 2 - 1) + 1 / (4 * (k + 1) ^ 2 - 1)) *
      Real.sin (δ k - δ (-k - 1)) ^ 2) - 2 / k

end Catima
