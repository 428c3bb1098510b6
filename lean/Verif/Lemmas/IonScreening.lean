import Verif.Lemmas.IonLevel
import Mathlib.Analysis.SpecialFunctions.Log.Deriv
import Mathlib.Analysis.Convex.SpecificFunctions.Basic

/-!
# Helper lemmas: the screening length and the screening part of the charge of heavy ions
-/

namespace Catima

/-- The largest screening length. -/
noncomputable def bL (pz iz : ℝ) : ℝ := min 0.43 (max 0.32 (0.12 + 0.025 * pz)) * iz

theorem bL_bounds (pz iz : ℝ) (hi : 0 < iz) : 0.32 * iz ≤ bL pz iz ∧ bL pz iz ≤ 0.43 * iz ∧ 0 < bL pz iz := by
  have h1 : (0.32 : ℝ) ≤ min 0.43 (max 0.32 (0.12 + 0.025 * pz)) := le_min (by norm_num) (le_max_left _ _)
  have h2 : min 0.43 (max 0.32 (0.12 + 0.025 * pz)) ≤ (0.43 : ℝ) := min_le_left _ _
  unfold bL
  refine ⟨mul_le_mul_of_nonneg_right h1 hi.le, mul_le_mul_of_nonneg_right h2 hi.le, ?_⟩
  have : (0 : ℝ) < min 0.43 (max 0.32 (0.12 + 0.025 * pz)) := lt_of_lt_of_le (by norm_num) h1
  positivity

theorem hiL1_real (pZ : Int) (iz q : ℝ) : hiL1 (pZ : ℝ) q iz =
    if q < 0.2 then 0 else if q < max 0 (0.9 - 0.025 * (pZ : ℝ)) then bL pZ iz * (q - 0.2) / |max 0 (0.9 - 0.025 * (pZ : ℝ)) - 0.2000001|
    else if q < 1 - 0.025 * min 16 (pZ : ℝ) then bL pZ iz else bL pZ iz * (1 - q) / (0.025 * min 16 (pZ : ℝ)) := by
  have e16 : (16.0 : ℝ) = 16 := by norm_num
  have e0 : (0.0 : ℝ) = 0 := by norm_num
  have e1 : (1.0 : ℝ) = 1 := by norm_num
  have t : max 0 (1 - 0.025 * min 16 (pZ : ℝ)) = 1 - 0.025 * min 16 (pZ : ℝ) := by
    apply max_eq_right
    have := min_le_left 16 (pZ : ℝ)
    norm_num
    linarith
  unfold hiL1
  simp only [smin_real, smax_real, lt_real, e16, e0, e1, t, fabs_real]
  rfl

/-- The pieces of the screening length for integer charges. -/
theorem ramp_end (pZ : Int) (h : (0.2 : ℝ) < max 0 (0.9 - 0.025 * (pZ : ℝ))) : pZ ≤ 27 ∧
    max 0 (0.9 - 0.025 * (pZ : ℝ)) = 0.9 - 0.025 * (pZ : ℝ) ∧ 0.225 ≤ 0.9 - 0.025 * (pZ : ℝ) := by
  have h1 : (0.2 : ℝ) < 0.9 - 0.025 * (pZ : ℝ) := by
    rcases lt_max_iff.mp h with h | h
    · norm_num at h
    · exact h
  have h2 : (pZ : ℝ) < 28 := by norm_num at h1; linarith
  have h3 : pZ ≤ 27 := by
    have : pZ < 28 := by exact_mod_cast h2
    omega
  have h4 : (pZ : ℝ) ≤ 27 := by exact_mod_cast h3
  refine ⟨h3, max_eq_right (by norm_num; linarith), by norm_num; linarith⟩

theorem hiL1_bounds (pZ : Int) (h3 : 3 ≤ pZ) (iz q : ℝ) (hi : 0 < iz) (hq : q ≤ 1) :
    0 ≤ hiL1 (pZ : ℝ) q iz ∧ hiL1 (pZ : ℝ) q iz ≤ 1.00001 * bL pZ iz := by
  obtain ⟨b0, b1, b2⟩ := bL_bounds pZ iz hi
  have m3 : 3 ≤ min 16 (pZ : ℝ) := le_min (by norm_num) (by exact_mod_cast h3)
  rw [hiL1_real]
  split
  · exact ⟨le_rfl, by positivity⟩
  rename_i hq2
  rw [not_lt] at hq2
  split
  · rename_i hq3
    obtain ⟨-, e, g⟩ := ramp_end pZ (lt_of_le_of_lt hq2 hq3)
    rw [e] at hq3 ⊢
    have d0 : 0.0249 ≤ 0.9 - 0.025 * (pZ : ℝ) - 0.2000001 := by norm_num at g ⊢; linarith
    rw [abs_of_pos (lt_of_lt_of_le (by norm_num) d0)]
    have d1 : 0 < 0.9 - 0.025 * (pZ : ℝ) - 0.2000001 := lt_of_lt_of_le (by norm_num) d0
    refine ⟨div_nonneg (mul_nonneg b2.le (by linarith)) d1.le, ?_⟩
    rw [div_le_iff₀ d1, mul_comm (1.00001 : ℝ), mul_assoc]
    refine mul_le_mul_of_nonneg_left ?_ b2.le
    norm_num at *
    linarith
  split
  · exact ⟨b2.le, by norm_num; linarith⟩
  · rename_i hq4
    rw [not_lt] at hq4
    have d1 : 0 < 0.025 * min 16 (pZ : ℝ) := by positivity
    refine ⟨div_nonneg (mul_nonneg b2.le (by linarith)) d1.le, ?_⟩
    rw [div_le_iff₀ d1]
    have : bL pZ iz * (1 - q) ≤ bL pZ iz * (0.025 * min 16 (pZ : ℝ)) := mul_le_mul_of_nonneg_left (by linarith) b2.le
    have h5 : 0 ≤ bL pZ iz * (0.025 * min 16 (pZ : ℝ)) := by positivity
    norm_num at *
    linarith

/-- Where the screening length `l1` grows. -/
theorem hiL1_up (pZ : Int) (h3 : 3 ≤ pZ) (iz q q' : ℝ) (hi : 0 < iz) (hq : q ≤ q') (h1 : q' ≤ 1) (hq2 : 0.2 ≤ q)
    (hl : hiL1 (pZ : ℝ) q iz < hiL1 (pZ : ℝ) q' iz) :
    pZ ≤ 27 ∧ q < 0.9 - 0.025 * (pZ : ℝ) ∧ hiL1 (pZ : ℝ) q' iz - hiL1 (pZ : ℝ) q iz ≤ bL pZ iz * (q' - q) / (0.9 - 0.025 * (pZ : ℝ) - 0.2000001) := by
  obtain ⟨b0, b1, b2⟩ := bL_bounds pZ iz hi
  have m3 : 3 ≤ min 16 (pZ : ℝ) := le_min (by norm_num) (by exact_mod_cast h3)
  have md : 0 < 0.025 * min 16 (pZ : ℝ) := by positivity
  have n1 : ¬ q < 0.2 := not_lt.mpr hq2
  have n2 : ¬ q' < 0.2 := not_lt.mpr (hq2.trans hq)
  rw [hiL1_real, hiL1_real, if_neg n1, if_neg n2] at hl
  rw [hiL1_real, hiL1_real, if_neg n1, if_neg n2]
  by_cases c1 : q < max 0 (0.9 - 0.025 * (pZ : ℝ))
  · obtain ⟨p27, e, g⟩ := ramp_end pZ (lt_of_le_of_lt hq2 c1)
    rw [if_pos c1, e]
    rw [e] at c1
    have d0 : 0.0249 ≤ 0.9 - 0.025 * (pZ : ℝ) - 0.2000001 := by norm_num at g ⊢; linarith
    have d1 : 0 < 0.9 - 0.025 * (pZ : ℝ) - 0.2000001 := lt_of_lt_of_le (by norm_num) d0
    rw [abs_of_pos d1]
    refine ⟨p27, c1, ?_⟩
    have key : (if q' < 0.9 - 0.025 * (pZ : ℝ) then bL pZ iz * (q' - 0.2) / (0.9 - 0.025 * (pZ : ℝ) - 0.2000001)
        else if q' < 1 - 0.025 * min 16 (pZ : ℝ) then bL pZ iz else bL pZ iz * (1 - q') / (0.025 * min 16 (pZ : ℝ))) ≤
        bL pZ iz * (q' - 0.2) / (0.9 - 0.025 * (pZ : ℝ) - 0.2000001) := by
      split
      · exact le_rfl
      · rename_i c2
        have : bL pZ iz ≤ bL pZ iz * (q' - 0.2) / (0.9 - 0.025 * (pZ : ℝ) - 0.2000001) := by
          rw [le_div_iff₀ d1]
          refine mul_le_mul_of_nonneg_left ?_ b2.le
          norm_num at *
          linarith
        split
        · exact this
        · rename_i c3
          refine le_trans ?_ this
          rw [div_le_iff₀ md]
          exact mul_le_mul_of_nonneg_left (by linarith) b2.le
    refine (sub_le_sub_right key _).trans (le_of_eq ?_)
    rw [← sub_div]
    ring
  · exfalso
    have c1' : ¬ q' < max 0 (0.9 - 0.025 * (pZ : ℝ)) := fun h => c1 (lt_of_le_of_lt hq h)
    rw [if_neg c1, if_neg c1'] at hl
    by_cases c2 : q' < 1 - 0.025 * min 16 (pZ : ℝ)
    · rw [if_pos c2, if_pos (by linarith)] at hl
      exact lt_irrefl _ hl
    · rw [if_neg c2] at hl
      by_cases c3 : q < 1 - 0.025 * min 16 (pZ : ℝ)
      · rw [if_pos c3] at hl
        rw [lt_div_iff₀ md] at hl
        have := lt_of_mul_lt_mul_left hl b2.le
        linarith
      · rw [if_neg c3, div_lt_div_iff_of_pos_right md] at hl
        have := lt_of_mul_lt_mul_left hl b2.le
        linarith

/-- Where the screening length `l1` falls. -/
theorem hiL1_down (pZ : Int) (h3 : 3 ≤ pZ) (iz q q' : ℝ) (hi : 0 < iz) (hq : q ≤ q') (h1 : q' ≤ 1) (hd : q' - q ≤ 0.0078) :
    (q ≤ 0.35 → 0.99999 * hiL1 (pZ : ℝ) q iz ≤ hiL1 (pZ : ℝ) q' iz) ∧
    (1 - q) * (hiL1 (pZ : ℝ) q iz - hiL1 (pZ : ℝ) q' iz) ≤ 0.0087 * bL pZ iz := by
  obtain ⟨b0, b1, b2⟩ := bL_bounds pZ iz hi
  have m3 : 3 ≤ min 16 (pZ : ℝ) := le_min (by norm_num) (by exact_mod_cast h3)
  have m16 : min 16 (pZ : ℝ) ≤ 16 := min_le_left _ _
  have mz : min 16 (pZ : ℝ) ≤ pZ := min_le_right _ _
  have md : 0 < 0.025 * min 16 (pZ : ℝ) := by positivity
  obtain ⟨p1, p2⟩ := hiL1_bounds pZ h3 iz q hi (hq.trans h1)
  obtain ⟨p1', p2'⟩ := hiL1_bounds pZ h3 iz q' hi h1
  by_cases c0 : q < 0.2
  · have e : hiL1 (pZ : ℝ) q iz = 0 := by rw [hiL1_real, if_pos c0]
    rw [e]
    refine ⟨fun _ => by linarith, ?_⟩
    have : 0 ≤ (1 - q) * hiL1 (pZ : ℝ) q' iz := mul_nonneg (by linarith) p1'
    have : 0 ≤ 0.0087 * bL pZ iz := by positivity
    linarith
  -- it is enough to have one of two cases
  have two : 0.99999 * hiL1 (pZ : ℝ) q iz ≤ hiL1 (pZ : ℝ) q' iz ∨ 0.58 ≤ q ∧
      (1 - q) * (hiL1 (pZ : ℝ) q iz - hiL1 (pZ : ℝ) q' iz) ≤ 0.0087 * bL pZ iz := by
    rw [not_lt] at c0
    have z3 : (3 : ℝ) ≤ pZ := by exact_mod_cast h3
    have n1 : ¬ q < 0.2 := not_lt.mpr c0
    have n2 : ¬ q' < 0.2 := not_lt.mpr (c0.trans hq)
    by_cases c1 : q < max 0 (0.9 - 0.025 * (pZ : ℝ))
    · left
      obtain ⟨p27, e, g⟩ := ramp_end pZ (lt_of_le_of_lt c0 c1)
      have d0 : 0.0249 ≤ 0.9 - 0.025 * (pZ : ℝ) - 0.2000001 := by norm_num at g ⊢; linarith
      have d1 : 0 < 0.9 - 0.025 * (pZ : ℝ) - 0.2000001 := lt_of_lt_of_le (by norm_num) d0
      rw [hiL1_real, hiL1_real, if_neg n1, if_neg n2, if_pos c1, e, abs_of_pos d1]
      rw [e] at c1
      have first : bL pZ iz * (q - 0.2) / (0.9 - 0.025 * (pZ : ℝ) - 0.2000001) ≤ 1.00001 * bL pZ iz := by
        rw [div_le_iff₀ d1, mul_comm (1.00001 : ℝ), mul_assoc]
        refine mul_le_mul_of_nonneg_left ?_ b2.le
        norm_num at *
        linarith
      have first0 : 0 ≤ bL pZ iz * (q - 0.2) / (0.9 - 0.025 * (pZ : ℝ) - 0.2000001) := div_nonneg (mul_nonneg b2.le (by linarith)) d1.le
      split
      · have : bL pZ iz * (q - 0.2) / (0.9 - 0.025 * (pZ : ℝ) - 0.2000001) ≤ bL pZ iz * (q' - 0.2) / (0.9 - 0.025 * (pZ : ℝ) - 0.2000001) := by
          gcongr
        norm_num at *
        linarith
      · have c3 : q' < 1 - 0.025 * min 16 (pZ : ℝ) := by
          norm_num at hd c1 ⊢
          linarith
        rw [if_pos c3]
        norm_num at *
        linarith
    · have c1' : ¬ q' < max 0 (0.9 - 0.025 * (pZ : ℝ)) := fun h => c1 (lt_of_le_of_lt hq h)
      rw [hiL1_real, hiL1_real, if_neg n1, if_neg n2, if_neg c1, if_neg c1']
      rw [not_lt] at c1
      by_cases c3 : q' < 1 - 0.025 * min 16 (pZ : ℝ)
      · left
        rw [if_pos c3, if_pos (by linarith)]
        norm_num
        linarith
      · right
        rw [if_neg c3]
        rw [not_lt] at c3
        refine ⟨by norm_num at hd c3 ⊢; linarith, ?_⟩
        have d8 : (1 - q) * ((q' - q) / (0.025 * min 16 (pZ : ℝ))) ≤ 0.0087 := by
          rw [← mul_div_assoc, div_le_iff₀ md]
          have k1 : (1 - q) * (q' - q) ≤ (0.025 * min 16 (pZ : ℝ) + 0.0078) * (q' - q) := mul_le_mul_of_nonneg_right (by linarith) (by linarith)
          have k2 : (0.025 * min 16 (pZ : ℝ) + 0.0078) * (q' - q) ≤ (0.025 * min 16 (pZ : ℝ) + 0.0078) * 0.0078 := mul_le_mul_of_nonneg_left hd (by positivity)
          refine k1.trans (k2.trans ?_)
          clear k1 k2 md c1 c1' c3 mz
          generalize min 16 (pZ : ℝ) = m at *
          norm_num
          linarith
        have d9 : (if q < 1 - 0.025 * min 16 (pZ : ℝ) then bL pZ iz else bL pZ iz * (1 - q) / (0.025 * min 16 (pZ : ℝ))) -
            bL pZ iz * (1 - q') / (0.025 * min 16 (pZ : ℝ)) ≤ bL pZ iz * ((q' - q) / (0.025 * min 16 (pZ : ℝ))) := by
          have u : (if q < 1 - 0.025 * min 16 (pZ : ℝ) then bL pZ iz else bL pZ iz * (1 - q) / (0.025 * min 16 (pZ : ℝ))) ≤
              bL pZ iz * (1 - q) / (0.025 * min 16 (pZ : ℝ)) := by
            split
            · rename_i hlt
              rw [le_div_iff₀ md]
              exact mul_le_mul_of_nonneg_left (by linarith) b2.le
            · exact le_rfl
          refine (sub_le_sub_right u _).trans (le_of_eq ?_)
          rw [← sub_div, ← mul_div_assoc]
          ring
        calc _ ≤ (1 - q) * (bL pZ iz * ((q' - q) / (0.025 * min 16 (pZ : ℝ)))) := mul_le_mul_of_nonneg_left d9 (by linarith)
          _ = bL pZ iz * ((1 - q) * ((q' - q) / (0.025 * min 16 (pZ : ℝ)))) := by ring
          _ ≤ bL pZ iz * 0.0087 := mul_le_mul_of_nonneg_left d8 b2.le
          _ = _ := by ring
  rcases two with h | ⟨g, h⟩
  · refine ⟨fun _ => h, ?_⟩
    rw [not_lt] at c0
    have k1 : hiL1 (pZ : ℝ) q iz - hiL1 (pZ : ℝ) q' iz ≤ 0.0001 * bL pZ iz := by norm_num at *; linarith
    have k2 : (1 - q) * (hiL1 (pZ : ℝ) q iz - hiL1 (pZ : ℝ) q' iz) ≤ (1 - q) * (0.0001 * bL pZ iz) := mul_le_mul_of_nonneg_left k1 (by linarith)
    have k3 : (1 - q) * (0.0001 * bL pZ iz) ≤ 1 * (0.0001 * bL pZ iz) := mul_le_mul_of_nonneg_right (by norm_num at c0; linarith) (by positivity)
    norm_num at *
    linarith
  · refine ⟨fun hq => ?_, h⟩
    norm_num at g hq
    linarith

end Catima
