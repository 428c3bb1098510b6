import Verif.Lemmas.Steady
import Verif.Props.Kinematics
import Verif.Props.Stopping
import Mathlib.Analysis.Complex.ExponentialBounds

/-!
# Pair production and bremsstrahlung
-/

namespace Catima

/-- The polynomial in `Λ = log γ` that multiplies `1/√γ`; `q = 1/π²`, `l = log 2`. -/
noncomputable def pairPoly (q l L : ℝ) : ℝ :=
  q * (4178 / 81 - 248 / 27 * (L + l) - (28 / 9 * (L + l) - 446 / 27) * L + 14 / 9 * L ^ 2) - 21 / 27

theorem pairPoly_bounds (q l L : ℝ) (q0 : 0.1013 ≤ q) (q1 : q ≤ 0.10133) (l0 : 0.693 ≤ l) (l1 : l ≤ 0.6932) (h0 : 4 ≤ L)
    (h1 : L ≤ 9.4) : -5.5 ≤ pairPoly q l L ∧ pairPoly q l L ≤ 3.6 ∧ (L ≤ 6 → 0 ≤ pairPoly q l L) := by
  have e : pairPoly q l L = q * (4178 / 81 - 248 / 27 * l + (198 / 27 - 28 / 9 * l) * L - 14 / 9 * L ^ 2) - 21 / 27 := by
    unfold pairPoly; ring
  rw [e]
  have a : (4178 / 81 - 248 / 27 * l + (198 / 27 - 28 / 9 * l) * L - 14 / 9 * L ^ 2) ≤ 42 := by
    norm_num at *; nlinarith
  have b : -45 ≤ (4178 / 81 - 248 / 27 * l + (198 / 27 - 28 / 9 * l) * L - 14 / 9 * L ^ 2) := by
    norm_num at *; nlinarith
  refine ⟨?_, ?_, fun h => ?_⟩
  · generalize (4178 / 81 - 248 / 27 * l + (198 / 27 - 28 / 9 * l) * L - 14 / 9 * L ^ 2) = V at *
    norm_num at *; nlinarith
  · generalize (4178 / 81 - 248 / 27 * l + (198 / 27 - 28 / 9 * l) * L - 14 / 9 * L ^ 2) = V at *
    norm_num at *; nlinarith
  · have b : 18 ≤ (4178 / 81 - 248 / 27 * l + (198 / 27 - 28 / 9 * l) * L - 14 / 9 * L ^ 2) := by
      norm_num at *; nlinarith
    generalize (4178 / 81 - 248 / 27 * l + (198 / 27 - 28 / 9 * l) * L - 14 / 9 * L ^ 2) = V at *
    norm_num at *; nlinarith

theorem pairPoly_step (q l L L' : ℝ) (q0 : 0.1013 ≤ q) (q1 : q ≤ 0.10133) (l0 : 0.693 ≤ l) (l1 : l ≤ 0.6932) (h0 : 4 ≤ L)
    (h1 : L' ≤ 9.4) (h2 : L ≤ L') (h3 : L' ≤ L + 0.0393) : |pairPoly q l L' - pairPoly q l L| ≤ 0.1 := by
  have e : pairPoly q l L' - pairPoly q l L = -(q * ((L' - L) * (14 / 9 * (L + L') - (198 / 27 - 28 / 9 * l)))) := by
    unfold pairPoly; ring
  have a : 0 ≤ 14 / 9 * (L + L') - (198 / 27 - 28 / 9 * l) := by norm_num at *; linarith
  have b : 14 / 9 * (L + L') - (198 / 27 - 28 / 9 * l) ≤ 24.5 := by norm_num at *; linarith
  rw [e, abs_neg, abs_of_nonneg (by
    have : 0 ≤ L' - L := by linarith
    have : 0 ≤ q := by norm_num at q0; linarith
    positivity)]
  have h4 : (L' - L) * (14 / 9 * (L + L') - (198 / 27 - 28 / 9 * l)) ≤ 0.0393 * 24.5 :=
    mul_le_mul (by linarith) b a (by norm_num)
  calc _ ≤ 0.10133 * (0.0393 * 24.5) := mul_le_mul q1 h4 (mul_nonneg (by linarith) a) (by norm_num)
    _ ≤ _ := by norm_num

/-- The logarithmic factor of pair production; `Z3` is `183 Z^(-1/3)`. -/
noncomputable def pairFactor (Z3 q l g : ℝ) : ℝ :=
  19 / 9 * Real.log (Z3 / (1 + 25.018803808 * Z3 / g)) + pairPoly q l (Real.log g) * (1 / √g)

theorem exp4_le : Real.exp 4 ≤ 54.6 := by
  have h := Real.exp_one_lt_d9
  rw [show (4 : ℝ) = ((4 : Nat) : ℝ) * 1 by norm_num, Real.exp_nat_mul]
  calc _ ≤ (2.7182818286 : ℝ) ^ 4 := by gcongr
    _ ≤ _ := by norm_num

theorem exp94_ge : 11000 ≤ Real.exp 9.4 := by
  have h := Real.exp_one_gt_d9
  rw [show (9.4 : ℝ) = ((9 : Nat) : ℝ) * 1 + 0.4 by norm_num, Real.exp_add, Real.exp_nat_mul]
  have h2 := Real.quadratic_le_exp_of_nonneg (show (0 : ℝ) ≤ 0.4 by norm_num)
  calc (11000 : ℝ) ≤ (2.7182818283 : ℝ) ^ 9 * 1.48 := by norm_num
    _ ≤ _ := by
      gcongr
      norm_num at h2 ⊢; linarith

theorem pairFactor_step (Z3 q l g g' : ℝ) (q0 : 0.1013 ≤ q) (q1 : q ≤ 0.10133) (l0 : 0.693 ≤ l) (l1 : l ≤ 0.6932) (hZ : 37 ≤ Z3)
    (h0 : 54.6 ≤ g) (h1 : g' ≤ 11000) (h2 : g ≤ g') (h3 : g' ≤ 1.0393 * g) :
    Step 1.1 1.03 (pairFactor Z3 q l g) (pairFactor Z3 q l g') := by
  have g0 : 0 < g := by norm_num at h0; linarith
  have g0' : 0 < g' := by linarith
  have L0 : 4 ≤ Real.log g := by
    rw [Real.le_log_iff_exp_le g0]; exact exp4_le.trans h0
  have L1 : Real.log g' ≤ 9.4 := by
    rw [Real.log_le_iff_le_exp g0']; exact h1.trans exp94_ge
  have L2 : Real.log g ≤ Real.log g' := Real.log_le_log g0 h2
  have L3 : Real.log g' ≤ Real.log g + 0.0393 := by
    have : Real.log g' ≤ Real.log (1.0393 * g) := Real.log_le_log g0' h3
    rw [Real.log_mul (by norm_num) g0.ne'] at this
    have h4 := Real.log_le_sub_one_of_pos (show (0 : ℝ) < 1.0393 by norm_num)
    norm_num at h4 ⊢
    norm_num at this
    linarith
  obtain ⟨P1, P2, P3⟩ := pairPoly_bounds q l _ q0 q1 l0 l1 L0 (L2.trans L1)
  obtain ⟨P1', P2', P3'⟩ := pairPoly_bounds q l _ q0 q1 l0 l1 (L0.trans L2) L1
  have PP := pairPoly_step q l _ _ q0 q1 l0 l1 L0 L1 L2 L3
  -- the square roots
  have s1 : 7.389 ≤ √g := by apply Real.le_sqrt_of_sq_le; norm_num at h0 ⊢; linarith
  have s2 : √g ≤ √g' := Real.sqrt_le_sqrt h2
  have s3 : √g' ≤ 1.0195 * √g := by
    rw [show (1.0195 : ℝ) = √(1.0195 ^ 2) by rw [Real.sqrt_sq (by norm_num)], ← Real.sqrt_mul (by norm_num)]
    apply Real.sqrt_le_sqrt
    norm_num at h3 ⊢; linarith
  have s4 : 6 ≤ Real.log g → 20 ≤ √g := by
    intro h
    rw [Real.le_log_iff_exp_le g0] at h
    apply Real.le_sqrt_of_sq_le
    refine le_trans ?_ h
    rw [show (6 : ℝ) = ((6 : Nat) : ℝ) * 1 by norm_num, Real.exp_nat_mul]
    calc (20 ^ 2 : ℝ) ≤ (2.7182818283 : ℝ) ^ 6 := by norm_num
      _ ≤ _ := by have := Real.exp_one_gt_d9; gcongr
  -- the logarithm
  have y0 : 2 ≤ Z3 / (1 + 25.018803808 * Z3 / g) := by
    have : 25.018803808 * Z3 / g ≤ 25.018803808 * Z3 / 54.6 := by gcongr
    rw [le_div_iff₀ (by positivity)]
    norm_num at this ⊢
    linarith
  have y1 : Z3 / (1 + 25.018803808 * Z3 / g) ≤ Z3 / (1 + 25.018803808 * Z3 / g') := by gcongr
  have y2 : Z3 / (1 + 25.018803808 * Z3 / g') ≤ 1.0393 * (Z3 / (1 + 25.018803808 * Z3 / g)) := by
    have h : 25.018803808 * Z3 / g ≤ 1.0393 * (25.018803808 * Z3 / g') := by
      rw [← mul_div_assoc, div_le_div_iff₀ g0 g0']
      have : 0 ≤ 25.018803808 * Z3 := by positivity
      calc _ ≤ 25.018803808 * Z3 * (1.0393 * g) := by gcongr
        _ = _ := by ring
    rw [← mul_div_assoc, div_le_div_iff₀ (by positivity) (by positivity)]
    have : (1 + 25.018803808 * Z3 / g) ≤ 1.0393 * (1 + 25.018803808 * Z3 / g') := by norm_num at h ⊢; linarith
    calc _ ≤ Z3 * (1.0393 * (1 + 25.018803808 * Z3 / g')) := by gcongr
      _ = _ := by ring
  unfold pairFactor
  generalize Z3 / (1 + 25.018803808 * Z3 / g) = y at *
  generalize Z3 / (1 + 25.018803808 * Z3 / g') = y' at *
  have l0' : 0.693 ≤ Real.log y := by
    have := Real.log_le_log (by norm_num) y0
    have := Real.log_two_gt_d9
    norm_num at this ⊢
    linarith
  have l2' : Real.log y ≤ Real.log y' := Real.log_le_log (by linarith) y1
  have l3' : Real.log y' ≤ Real.log y + 0.0393 := by
    have : Real.log y' ≤ Real.log (1.0393 * y) := Real.log_le_log (by linarith) y2
    rw [Real.log_mul (by norm_num) (by linarith)] at this
    have h4 := Real.log_le_sub_one_of_pos (show (0 : ℝ) < 1.0393 by norm_num)
    norm_num at h4 ⊢
    norm_num at this
    linarith
  generalize Real.log y = M at *
  generalize Real.log y' = M' at *
  generalize pairPoly q l (Real.log g) = P at *
  generalize pairPoly q l (Real.log g') = P' at *
  have d0 : 0 < 1 / √g := by positivity
  have d1 : 1 / √g ≤ 0.1354 := by
    rw [div_le_iff₀ (by linarith)]; norm_num at s1 ⊢; linarith
  have d2 : 1 / √g' ≤ 1 / √g := by gcongr
  have d3 : 0.98 * (1 / √g) ≤ 1 / √g' := by
    rw [mul_one_div, div_le_div_iff₀ (by linarith) (by linarith)]
    norm_num at s3 ⊢; linarith
  have d4 : 6 ≤ Real.log g → 1 / √g ≤ 0.05 := by
    intro h
    have := s4 h
    rw [div_le_iff₀ (by linarith)]; norm_num; linarith
  generalize Real.log g = L at *
  generalize 1 / √g = d at *
  generalize 1 / √g' = d' at *
  have key : |P' * d' - P * d| ≤ 0.029 := by
    have e : P' * d' - P * d = d' * (P' - P) - (d - d') * P := by ring
    rw [e]
    have a1 : |d' * (P' - P)| ≤ 0.1354 * 0.1 := by
      rw [abs_mul, abs_of_nonneg (by linarith)]
      exact mul_le_mul (by linarith) PP (abs_nonneg _) (by norm_num)
    have a2 : |(d - d') * P| ≤ (0.02 * 0.1354) * 5.5 := by
      rw [abs_mul, abs_of_nonneg (by linarith)]
      refine mul_le_mul ?_ (abs_le.mpr ⟨P1, by norm_num at P2 ⊢; linarith⟩) (abs_nonneg _) (by norm_num)
      norm_num at *; linarith
    calc _ ≤ |d' * (P' - P)| + |(d - d') * P| := abs_sub _ _
      _ ≤ _ := by norm_num at a1 a2 ⊢; linarith
  have low : -0.275 ≤ P * d := by
    rcases le_or_gt L 6 with h | h
    · have := mul_nonneg (P3 h) d0.le
      norm_num; linarith
    · have := d4 h.le
      norm_num at *
      nlinarith
  rw [abs_le] at key
  refine ⟨?_, ?_, ?_, ?_⟩ <;> norm_num at * <;> linarith [key.1, key.2]

theorem pairFactor_le (Z3 q l g : ℝ) (q0 : 0.1013 ≤ q) (q1 : q ≤ 0.10133) (l0 : 0.693 ≤ l) (l1 : l ≤ 0.6932) (hZ : 37 ≤ Z3)
    (h0 : 54.6 ≤ g) (h1 : g ≤ 57) : pairFactor Z3 q l g ≤ 2.4 := by
  have g0 : 0 < g := by norm_num at h0; linarith
  have L0 : 4 ≤ Real.log g := by
    rw [Real.le_log_iff_exp_le g0]; exact exp4_le.trans h0
  have L1 : Real.log g ≤ 9.4 := by
    rw [Real.log_le_iff_le_exp g0]; exact (h1.trans (by norm_num)).trans exp94_ge
  obtain ⟨P1, P2, P3⟩ := pairPoly_bounds q l _ q0 q1 l0 l1 L0 L1
  have s1 : 7.389 ≤ √g := by apply Real.le_sqrt_of_sq_le; norm_num at h0 ⊢; linarith
  have y1 : Z3 / (1 + 25.018803808 * Z3 / g) ≤ 2.2785 := by
    rw [div_le_iff₀ (by positivity)]
    have : 25.018803808 * Z3 / 57 ≤ 25.018803808 * Z3 / g := by gcongr
    norm_num at this ⊢
    linarith
  have y0 : 0 < Z3 / (1 + 25.018803808 * Z3 / g) := by positivity
  have l1' : Real.log (Z3 / (1 + 25.018803808 * Z3 / g)) ≤ 0.86 := by
    rw [Real.log_le_iff_le_exp y0]
    refine y1.trans ?_
    have h := Real.exp_one_gt_d9
    have e : Real.exp 0.86 = Real.exp 1 * Real.exp (-0.14) := by rw [← Real.exp_add]; norm_num
    rw [e]
    have := Real.one_sub_le_exp_neg (0.14 : ℝ)
    calc (2.2785 : ℝ) ≤ 2.7182818283 * (1 - 0.14) := by norm_num
      _ ≤ _ := by gcongr
  have d0 : 0 < 1 / √g := by positivity
  have d1 : 1 / √g ≤ 0.1354 := by
    rw [div_le_iff₀ (by linarith)]; norm_num at s1 ⊢; linarith
  unfold pairFactor
  have : pairPoly q l (Real.log g) * (1 / √g) ≤ 3.6 * 0.1354 := by
    calc _ ≤ 3.6 * (1 / √g) := by gcongr
      _ ≤ _ := by gcongr
  norm_num at *
  linarith

/-- The value of pair production. -/
theorem pair_value (p : Projectile ℝ) (t : Target ℝ) (hT : 0 < p.T) (tA : 0 < t.A) (tZ : 1 ≤ t.Z)
    (hA : 0 < pairFactor (183 * Real.exp (Real.log t.Z * (-1 / 3))) (1 / (PI * PI)) (Real.log 2) (1 + p.T / atomic_mass_unit)) :
    pair_production p t = 0.25 * dedx_constant * fine_structure ^ 2 * p.Z ^ 2 * ((t.Z : ℝ) * (t.Z + 1) / t.A) *
      ((1 + p.T / atomic_mass_unit) *
        pairFactor (183 * Real.exp (Real.log t.Z * (-1 / 3))) (1 / (PI * PI)) (Real.log 2) (1 + p.T / atomic_mass_unit)) := by
  have hu := amu_pos
  have e1 : (1.0 : ℝ) = 1 := by norm_num
  have tz : (0 : ℝ) < t.Z := by have : 0 < t.Z := by omega
                                exact_mod_cast this
  have hpi : (0 : ℝ) < PI := by norm_num [PI]
  have hd : (0 : ℝ) < dedx_constant := by norm_num [dedx_constant]
  unfold pair_production power
  simp only [exp_real, log_real, sqrt_real, ofInt_real, lt_real]
  rw [e1]
  have hg : (0 : ℝ) < 1 + p.T / atomic_mass_unit := by positivity
  generalize (1 : ℝ) + p.T / atomic_mass_unit = g at hg hA ⊢
  have k1 : Real.log (1 / √g * (1 / √g)) = -Real.log g := by
    rw [show (1 / √g * (1 / √g)) = g⁻¹ by
      rw [div_mul_div_comm, Real.mul_self_sqrt hg.le]; norm_num, Real.log_inv]
  have k2 : Real.log (2.0 * g) = Real.log g + Real.log 2 := by
    rw [show (2.0 : ℝ) = 2 by norm_num, Real.log_mul (by norm_num) hg.ne']; ring
  rw [k1, k2]
  have k3 : (-1 : ℝ) / 3.0 = -1 / 3 := by norm_num
  rw [k3, show (183.0 : ℝ) = 183 by norm_num]
  have key : (19.0 / 9.0) * Real.log (183 * Real.exp (Real.log t.Z * (-1 / 3)) /
        (1 + 25.018803808 * (183 * Real.exp (Real.log t.Z * (-1 / 3))) / g)) +
      (4178.0 / (81.0 * PI * PI) - 21.0 / 27.0 - 248.0 * (Real.log g + Real.log 2) / (27.0 * PI * PI) +
        (28.0 * (Real.log g + Real.log 2) / 9.0 - 446.0 / 27.0) * -Real.log g / (PI * PI) +
        14.0 * -Real.log g * -Real.log g / (9.0 * PI * PI)) * (1 / √g) =
      pairFactor (183 * Real.exp (Real.log t.Z * (-1 / 3))) (1 / (PI * PI)) (Real.log 2) g := by
    unfold pairFactor pairPoly
    generalize Real.log (183 * Real.exp (Real.log t.Z * (-1 / 3)) /
        (1 + 25.018803808 * (183 * Real.exp (Real.log t.Z * (-1 / 3))) / g)) = Y
    generalize Real.log g = L
    generalize Real.log 2 = l
    generalize (1 : ℝ) / √g = d
    generalize (PI : ℝ) = w at hpi
    norm_num
    field_simp
    left
    ring
  have e9 : ∀ k F : ℝ, k * p.Z * p.Z * (t.Z : ℝ) * t.Z * g * (1 + 1 / (t.Z : ℝ)) * F / t.A =
      k * p.Z ^ 2 * ((t.Z : ℝ) * (t.Z + 1) / t.A) * (g * F) := by
    intro k F; field_simp
  have e8 : (0.25 * dedx_constant * fine_structure * fine_structure : ℝ) = 0.25 * dedx_constant * fine_structure ^ 2 := by ring
  rw [key, e9, e8]
  rw [if_neg]
  rw [not_lt]
  have hf : (0 : ℝ) < fine_structure := by norm_num [fine_structure]
  generalize pairFactor (183 * Real.exp (Real.log t.Z * (-1 / 3))) (1 / (PI * PI)) (Real.log 2) g = F at *
  generalize (t.Z : ℝ) = tz' at *
  norm_num
  positivity

theorem pi_bounds : (0.1013 : ℝ) ≤ 1 / (PI * PI) ∧ 1 / ((PI : ℝ) * PI) ≤ 0.10133 := by
  constructor <;> norm_num [PI]

theorem log2_bounds : (0.693 : ℝ) ≤ Real.log 2 ∧ Real.log 2 ≤ 0.6932 := by
  have h1 := Real.log_two_gt_d9
  have h2 := Real.log_two_lt_d9
  constructor <;> norm_num at * <;> linarith

theorem zt13_ge (z : Int) (h1 : 1 ≤ z) (h2 : z ≤ 120) : 37 ≤ 183 * Real.exp (Real.log z * (-1 / 3)) := by
  have z0 : (1 : ℝ) ≤ z := by exact_mod_cast h1
  have z1 : (z : ℝ) ≤ 120 := by exact_mod_cast h2
  have e : Real.exp (Real.log z * (-1 / 3)) = (Real.exp (Real.log z * (1 / 3)))⁻¹ := by
    rw [← Real.exp_neg]; congr 1; ring
  rw [e]
  have h3 : Real.exp (Real.log z * (1 / 3)) ≤ 4.94 := by
    apply le_of_pow_le_pow_left₀ (n := 3) (by norm_num) (by norm_num)
    rw [← Real.exp_nat_mul, show ((3 : Nat) : ℝ) * (Real.log z * (1 / 3)) = Real.log z by push_cast; ring,
      Real.exp_log (by linarith)]
    norm_num; linarith
  rw [← div_eq_mul_inv, le_div_iff₀ (Real.exp_pos _)]
  norm_num at h3 ⊢
  linarith

/-- The argument of the logarithm of bremsstrahlung divided by `γ`. -/
noncomputable def bremsK (p : Projectile ℝ) (t : Target ℝ) : ℝ :=
  2.0 * 0.1 * hbar * c_light / atomic_mass_unit /
    (1.18 * (Real.exp (Real.log p.A * (1 / 3)) + Real.exp (Real.log t.A * (1 / 3)))) / p.A

theorem brems_value (p : Projectile ℝ) (t : Target ℝ) :
    bremsstrahlung p t = 16 * dedx_constant * fine_structure * (electron_mass / atomic_mass_unit) / (12 * PI) *
      (p.Z ^ 4 / p.A * ((t.Z : ℝ) ^ 2 / t.A)) *
      ((1 + p.T / atomic_mass_unit) * Real.log (1 + bremsK p t * (1 + p.T / atomic_mass_unit))) := by
  have e1 : (1.0 : ℝ) = 1 := by norm_num
  unfold bremsstrahlung power bremsK
  simp only [exp_real, log_real, log1p_real, ofInt_real]
  rw [e1, show (1 : ℝ) / 3.0 = 1 / 3 by norm_num]
  generalize (1 : ℝ) + p.T / atomic_mass_unit = g
  generalize 1.18 * (Real.exp (Real.log p.A * (1 / 3)) + Real.exp (Real.log t.A * (1 / 3))) = R
  have e2 : 2.0 * g * 0.1 * hbar * c_light / atomic_mass_unit / R / p.A =
      2.0 * 0.1 * hbar * c_light / atomic_mass_unit / R / p.A * g := by
    generalize (2.0 : ℝ) = k1
    generalize (0.1 : ℝ) = k2
    generalize (hbar : ℝ) = k3
    generalize (c_light : ℝ) = k4
    generalize (atomic_mass_unit : ℝ) = k5
    simp only [div_eq_mul_inv]; ring
  rw [e2]
  generalize Real.log (1 + 2.0 * 0.1 * hbar * c_light / atomic_mass_unit / R / p.A * g) = Y
  generalize (PI : ℝ) = w
  generalize (dedx_constant : ℝ) = k1
  generalize (fine_structure : ℝ) = k2
  generalize (electron_mass : ℝ) / atomic_mass_unit = k3
  rw [show (16.0 : ℝ) = 16 by norm_num, show t.A * p.A * 3.0 * 4.0 * w = t.A * p.A * (12 * w) by
    rw [show (3.0 : ℝ) = 3 by norm_num, show (4.0 : ℝ) = 4 by norm_num]; ring]
  simp only [div_eq_mul_inv, mul_inv]
  generalize (12 : ℝ)⁻¹ = j
  generalize w⁻¹ = w'
  generalize (t.A)⁻¹ = a'
  generalize (p.A)⁻¹ = a''
  ring

end Catima
