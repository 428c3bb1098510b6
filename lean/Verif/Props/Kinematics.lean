import Verif.Lemmas.RealScalar
import Verif.Model.Reactions
import Mathlib.Tactic.Linarith
import Mathlib.Tactic.FieldSimp

/-!
# C43: kinematics
-/

namespace Catima

theorem amu_pos : (0 : ℝ) < atomic_mass_unit := by norm_num [atomic_mass_unit]

/-- C43: for `T > 0` the Lorentz factor exceeds 1 and the velocity lies in `(0,1)`. -/
theorem gamma_beta_bounds (T : ℝ) (hT : 0 < T) :
    1 < gamma_from_T T ∧ 0 < beta_from_T T ∧ beta_from_T T < 1 := by
  have hu := amu_pos
  have hg : 1 < gamma_from_T T := by
    unfold gamma_from_T
    have : 0 < T / atomic_mass_unit := by positivity
    norm_num
    linarith
  have hgg : 1 < gamma_from_T T * gamma_from_T T := by nlinarith
  refine ⟨hg, ?_, ?_⟩
  · unfold beta_from_T
    rw [sqrt_real]
    apply Real.sqrt_pos.mpr
    have : (1 : ℝ) / (gamma_from_T T * gamma_from_T T) < 1 := by
      rw [div_lt_one (by linarith)]; exact hgg
    norm_num at this ⊢
    linarith
  · unfold beta_from_T
    rw [sqrt_real, Real.sqrt_lt' (by norm_num)]
    have : (0 : ℝ) < 1 / (gamma_from_T T * gamma_from_T T) := by positivity
    norm_num at this ⊢
    linarith

/-- C43: Lorentz factor and velocity are strictly increasing with the energy. -/
theorem gamma_beta_strictMono (T₁ T₂ : ℝ) (h1 : 0 ≤ T₁) (h : T₁ < T₂) :
    gamma_from_T T₁ < gamma_from_T T₂ ∧ beta_from_T T₁ < beta_from_T T₂ := by
  have hu := amu_pos
  have h0 : (1 : ℝ) ≤ gamma_from_T T₁ := by
    unfold gamma_from_T
    have : 0 ≤ T₁ / atomic_mass_unit := by positivity
    norm_num
    linarith
  have hg : gamma_from_T T₁ < gamma_from_T T₂ := by
    unfold gamma_from_T
    have : T₁ / atomic_mass_unit < T₂ / atomic_mass_unit := div_lt_div_of_pos_right h hu
    linarith
  refine ⟨hg, ?_⟩
  unfold beta_from_T
  rw [sqrt_real, sqrt_real]
  have h2 : gamma_from_T T₁ * gamma_from_T T₁ < gamma_from_T T₂ * gamma_from_T T₂ := by nlinarith
  have h3 : 1 ≤ gamma_from_T T₁ * gamma_from_T T₁ := by nlinarith
  apply Real.sqrt_lt_sqrt
  · have : (1 : ℝ) / (gamma_from_T T₁ * gamma_from_T T₁) ≤ 1 := by
      rw [div_le_one (by linarith)]; exact h3
    norm_num at this ⊢
    linarith
  · have : (1 : ℝ) / (gamma_from_T T₂ * gamma_from_T T₂) <
        1 / (gamma_from_T T₁ * gamma_from_T T₁) := one_div_lt_one_div_of_lt (by linarith) h2
    norm_num at this ⊢
    linarith

/-- C43: the momentum is `γ β M u`, and total energy, momentum and rest mass satisfy the
energy-momentum relation. -/
theorem momentum_relation (T M : ℝ) (hT : 0 ≤ T) :
    p_from_T T M = gamma_from_T T * beta_from_T T * M * atomic_mass_unit ∧
    (T + atomic_mass_unit) ^ 2 * M ^ 2 = p_from_T T M ^ 2 + (atomic_mass_unit * M) ^ 2 := by
  have hu := amu_pos
  unfold p_from_T beta_from_T gamma_from_T
  simp only [sqrt_real]
  generalize (atomic_mass_unit : ℝ) = u at hu
  norm_num
  have hg : 1 ≤ 1 + T / u := by
    have : 0 ≤ T / u := by positivity
    linarith
  have hg0 : 0 < 1 + T / u := by linarith
  constructor
  · have e1 : (1 + T / u) * √(1 - ((1 + T / u) * (1 + T / u))⁻¹) * u =
        √(T * (T + 2 * u)) := by
      have e2 : (1 + T / u) * u = √(((1 + T / u) * u) ^ 2) := (Real.sqrt_sq (by positivity)).symm
      have : (1 + T / u) * √(1 - ((1 + T / u) * (1 + T / u))⁻¹) * u =
          ((1 + T / u) * u) * √(1 - ((1 + T / u) * (1 + T / u))⁻¹) := by ring
      rw [this, e2, ← Real.sqrt_mul (by positivity)]
      congr 1
      field_simp
      ring
    rw [← e1, mul_inv]
    ring
  · rw [mul_pow, Real.sq_sqrt (by positivity)]
    ring

/-- C43: the inline `p_from_T` of reactions.h agrees with the one of calculations.cpp. -/
theorem momentum_definitions_agree (T M : ℝ) : p_from_T_reactions T M = p_from_T T M := by
  unfold p_from_T_reactions p_from_T
  rw [sqrt_real, sqrt_real, mul_comm]
  congr 2
  norm_num
  ring

/-- C43: at rest `γ = 1` and velocity and momentum vanish. -/
theorem kinematics_at_rest (M : ℝ) :
    gamma_from_T (0 : ℝ) = 1 ∧ beta_from_T (0 : ℝ) = 0 ∧ p_from_T 0 M = 0 := by
  unfold p_from_T beta_from_T gamma_from_T
  simp only [sqrt_real]
  norm_num

/-- A uranium ion at 1 GeV/u. -/
example : 0 < beta_from_T (1000 : ℝ) ∧ beta_from_T (1000 : ℝ) < 1 ∧
    p_from_T 1000 238 = gamma_from_T 1000 * beta_from_T 1000 * (238 : ℝ) * atomic_mass_unit :=
  ⟨(gamma_beta_bounds 1000 (by norm_num)).2.1, (gamma_beta_bounds 1000 (by norm_num)).2.2,
    (momentum_relation 1000 238 (by norm_num)).1⟩

end Catima
