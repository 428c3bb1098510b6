import Verif.Props.Stopping
import Verif.Lemmas.BetheStep

/-!
# C44: the Barkas correction as a function of the velocity

The reduced velocity of calculations.cpp is `v = η / (α √zt)`.
-/

namespace Catima

/-- C44: below the reduced velocity 1 there is no Barkas correction; from 1 on it decreases with the
velocity, not faster than the inverse cube of the velocity (up to the step of 2.3 % where the table
ends at 4), and is at most `1 + 0.66 z/√zt`. -/
theorem barkas_decreasing (z zt eta eta' : ℝ) (hz : 0 ≤ z) (hzt : 0 < zt) (h0 : 0 < eta) (h : eta ≤ eta') :
    (eta < fine_structure * √zt → bethek_barkas z eta zt = 1) ∧
    (fine_structure * √zt ≤ eta →
      bethek_barkas z eta' zt ≤ bethek_barkas z eta zt ∧
      (bethek_barkas z eta zt - 1) * eta ^ 3 ≤ 1.0223 * ((bethek_barkas z eta' zt - 1) * eta' ^ 3) ∧
      bethek_barkas z eta zt ≤ 1 + 0.66 * z / √zt) := by
  have hf : (0 : ℝ) < fine_structure := by norm_num [fine_structure]
  have hs : 0 < √zt := Real.sqrt_pos.mpr hzt
  have hw : 0 < fine_structure * √zt := mul_pos hf hs
  constructor
  · intro hlt
    have hv : eta / (fine_structure * √zt) < 1 := by rw [div_lt_one hw]; exact hlt
    unfold bethek_barkas
    simp only [sqrt_real]
    generalize eta / (fine_structure * √zt) = v at *
    rw [if_neg (by rw [le_real]; norm_num; linarith), if_neg (by
      rw [Bool.and_eq_true, le_real, lt_real]; norm_num; intro h1; linarith)]
    norm_num
  · intro hle
    have hv : 1 ≤ eta / (fine_structure * √zt) := by rw [one_le_div hw]; exact hle
    have hvv : eta / (fine_structure * √zt) ≤ eta' / (fine_structure * √zt) :=
      div_le_div_of_nonneg_right h hw.le
    rw [barkas_eq z eta zt hv, barkas_eq z eta' zt (hv.trans hvv)]
    have e1 : eta = eta / (fine_structure * √zt) * (fine_structure * √zt) := by field_simp
    have e2 : eta' = eta' / (fine_structure * √zt) * (fine_structure * √zt) := by field_simp
    have hF : barkasF (eta / (fine_structure * √zt)) ≤ 0.33 := by
      have h1 := (barkasF_step 1 _ (le_refl _) hv).2.1
      have : barkasF 1 = 0.33 := by unfold barkasF; norm_num
      linarith
    obtain ⟨f0, f1, f2⟩ := barkasF_step _ _ hv hvv
    generalize fine_structure * √zt = w at *
    generalize √zt = s at *
    generalize eta / w = v at *
    generalize eta' / w = v' at *
    have v0 : 0 < v := by linarith
    have v0' : 0 < v' := by linarith
    generalize barkasF v = F at *
    generalize barkasF v' = F' at *
    refine ⟨?_, ?_, ?_⟩
    · have : 2 * z * F' / (v' * v' * s) ≤ 2 * z * F / (v * v * s) := by
        apply div_le_div₀ (by nlinarith) (by nlinarith) (by positivity)
        apply mul_le_mul_of_nonneg_right _ hs.le
        nlinarith
      linarith
    · rw [e1, e2]
      have k1 : (1 + 2 * z * F / (v * v * s) - 1) * (v * w) ^ 3 = 2 * z * w ^ 3 / s * (v * F) := by
        field_simp; ring
      have k2 : 1.0223 * ((1 + 2 * z * F' / (v' * v' * s) - 1) * (v' * w) ^ 3) = 2 * z * w ^ 3 / s * (1.0223 * (v' * F')) := by
        field_simp; ring
      rw [k1, k2]
      exact mul_le_mul_of_nonneg_left f2 (by positivity)
    · have : 2 * z * F / (v * v * s) ≤ 0.66 * z / s := by
        rw [div_le_div_iff₀ (by positivity) hs]
        have q1 : 2 * z * F ≤ 0.66 * z := by norm_num at hF ⊢; nlinarith
        have q2 : 0.66 * z * 1 ≤ 0.66 * z * (v * v) := by
          apply mul_le_mul_of_nonneg_left (by nlinarith) (by positivity)
        nlinarith
      linarith

/-- Hypotheses met: charge 6 in lead at `η = 0.15` and `0.5` (reduced velocities 2.3 and 7.6). -/
example : bethek_barkas 6 0.5 82 ≤ bethek_barkas (6 : ℝ) 0.15 82 := by
  refine ((barkas_decreasing 6 82 0.15 0.5 (by norm_num) (by norm_num) (by norm_num) (by norm_num)).2 ?_).1
  have h : √(82 : ℝ) ≤ 10 := by
    rw [show (10 : ℝ) = √100 by rw [show (100 : ℝ) = 10 ^ 2 by norm_num, Real.sqrt_sq (by norm_num)]]
    exact Real.sqrt_le_sqrt (by norm_num)
  unfold fine_structure
  nlinarith

end Catima
