import Verif.Lemmas.Steady

/-!
# Bounds for ratios
-/

namespace Catima

theorem ion_core (z ζ n Z Br P R C : ℝ) (n0 : 0 < n) (z0 : 0 < z) (z1 : z ≤ n) (ζ0 : 0.8639 ≤ ζ) (hR : (ζ * n) ^ 2 ≤ R * z ^ 2) (hZ : 1 ≤ Z)
    (hC : C ≤ Br) (hP : R * P ≤ 3.29 * (Z * C)) (hB : (Br ≤ 13.61 ∧ 3.66 * Z ≤ P) ∨ (Br ≤ 9.834 ∧ 2.65 * Z ≤ P)) :
    z ^ 2 * Z * Br ≤ 4.99 * ((ζ * n) ^ 2 * P) ∧ (ζ * n) ^ 2 * P ≤ 3.29 * (z ^ 2 * Z * Br) := by
  have P0 : 0 ≤ P := by rcases hB with h | h <;> exact le_trans (by positivity) h.2
  constructor
  · have k1 : z ^ 2 ≤ n ^ 2 := pow_le_pow_left₀ z0.le z1 2
    have k2 : 0.74632 * n ^ 2 ≤ (ζ * n) ^ 2 := by
      rw [mul_pow]
      refine mul_le_mul_of_nonneg_right ?_ (by positivity)
      norm_num at ζ0 ⊢
      nlinarith
    have k3 : Z * Br ≤ 3.724 * P := by
      rcases hB with ⟨h1, h2⟩ | ⟨h1, h2⟩
      · have := mul_le_mul_of_nonneg_left h1 (show 0 ≤ Z by linarith)
        norm_num at *; linarith
      · have := mul_le_mul_of_nonneg_left h1 (show 0 ≤ Z by linarith)
        norm_num at *; linarith
    calc z ^ 2 * Z * Br = z ^ 2 * (Z * Br) := by ring
      _ ≤ z ^ 2 * (3.724 * P) := mul_le_mul_of_nonneg_left k3 (by positivity)
      _ ≤ n ^ 2 * (3.724 * P) := mul_le_mul_of_nonneg_right k1 (by positivity)
      _ ≤ 4.99 * (0.74632 * n ^ 2 * P) := by
        have : 0 ≤ n ^ 2 * P := by positivity
        norm_num; nlinarith
      _ ≤ _ := by gcongr
  · calc (ζ * n) ^ 2 * P ≤ R * z ^ 2 * P := mul_le_mul_of_nonneg_right hR P0
      _ = z ^ 2 * (R * P) := by ring
      _ ≤ z ^ 2 * (3.29 * (Z * C)) := mul_le_mul_of_nonneg_left hP (by positivity)
      _ ≤ z ^ 2 * (3.29 * (Z * Br)) := by
        have : Z * C ≤ Z * Br := mul_le_mul_of_nonneg_left hC (by linarith)
        gcongr
      _ = _ := by ring

theorem bracket_bounds (F K l D : ℝ) (F0 : 2.64 ≤ F) (K0 : 0 ≤ K) (K1 : K ≤ 0.486) (D0 : -0.46 ≤ D) (D1 : D ≤ 0.14) (l1 : l ≤ 0.004) :
    F + l - 0.07 ≤ F * (1 + K) + l - D / 2 ∧ F * (1 + K) + l - D / 2 ≤ 1.486 * F + 0.234 := by
  have Fp : 0 ≤ F := le_trans (by norm_num) F0
  have k1 : F * K ≤ F * 0.486 := mul_le_mul_of_nonneg_left K1 Fp
  have k0 : 0 ≤ F * K := mul_nonneg Fp K0
  rw [mul_add, mul_one]
  generalize F * K = W at *
  constructor <;> norm_num at * <;> linarith

theorem charge_ratio (ζ n z ζ' a R : ℝ) (n0 : 0 ≤ n) (h0 : 0 ≤ ζ) (h : ζ ≤ ζ') (ha : 0 ≤ a) (hz : a * n ≤ z) (hR0 : 0 ≤ R) (hR : ζ' ^ 2 ≤ R * a ^ 2) :
    (ζ * n) ^ 2 ≤ R * z ^ 2 := by
  have k1 : (ζ * n) ^ 2 ≤ (ζ' * n) ^ 2 := pow_le_pow_left₀ (by positivity) (mul_le_mul_of_nonneg_right h n0) 2
  have k2 : (a * n) ^ 2 ≤ z ^ 2 := pow_le_pow_left₀ (by positivity) hz 2
  calc (ζ * n) ^ 2 ≤ (ζ' * n) ^ 2 := k1
    _ = ζ' ^ 2 * n ^ 2 := by ring
    _ ≤ R * a ^ 2 * n ^ 2 := mul_le_mul_of_nonneg_right hR (by positivity)
    _ = R * (a * n) ^ 2 := by ring
    _ ≤ _ := mul_le_mul_of_nonneg_left k2 hR0

end Catima
