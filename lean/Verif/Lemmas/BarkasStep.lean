import Verif.Lemmas.BetheSteady

/-!
# Steps of the Barkas correction
-/

namespace Catima

/-- The Jackson-McCarthy function of the Barkas correction from `v = 1` on. -/
noncomputable def barkasF (v : ℝ) : ℝ :=
  if 4 ≤ v then 0.45 / √v else if v ≤ 2 then 0.36 - 0.03 * v else if v ≤ 3 then 0.38 - 0.04 * v else 0.35 - 0.03 * v

theorem barkas_eq (z eta zt : ℝ) (hv : 1 ≤ eta / (fine_structure * √zt)) :
    bethek_barkas z eta zt = 1 + 2 * z * barkasF (eta / (fine_structure * √zt)) /
      (eta / (fine_structure * √zt) * (eta / (fine_structure * √zt)) * √zt) := by
  unfold bethek_barkas barkasF
  simp only [sqrt_real]
  generalize eta / (fine_structure * √zt) = v at *
  have e : (if Scalar.le 4.0 v = true then 0.45 / √v
      else if (Scalar.le 1.0 v && Scalar.lt v 4.0) = true then barkasTable v else 0.0) =
      (if 4 ≤ v then 0.45 / √v else if v ≤ 2 then 0.36 - 0.03 * v else if v ≤ 3 then 0.38 - 0.04 * v else 0.35 - 0.03 * v : ℝ) := by
    by_cases h4 : 4 ≤ v
    · rw [if_pos h4, if_pos (by rw [le_real]; norm_num; exact h4)]
    · rw [if_neg h4, if_neg (by rw [le_real]; norm_num; linarith), if_pos (by
        rw [Bool.and_eq_true, le_real, lt_real]; norm_num; exact ⟨hv, by linarith⟩)]
      unfold barkasTable
      by_cases h2 : v ≤ 2
      · rw [if_pos h2, if_pos (by rw [le_real]; norm_num; exact h2)]; norm_num; ring
      · rw [if_neg h2, if_neg (by rw [le_real]; norm_num; linarith)]
        by_cases h3 : v ≤ 3
        · rw [if_pos h3, if_pos (by rw [le_real]; norm_num; exact h3)]; norm_num; ring
        · rw [if_neg h3, if_neg (by rw [le_real]; norm_num; linarith), if_pos (by rw [le_real]; norm_num; linarith)]
          norm_num; ring
  rw [e]
  norm_num

theorem barkasF_step (v v' : ℝ) (h1 : 1 ≤ v) (h : v ≤ v') :
    0 < barkasF v' ∧ barkasF v' ≤ barkasF v ∧ v * barkasF v ≤ 1.0223 * (v' * barkasF v') := by
  have root : ∀ w : ℝ, 4 ≤ w → 2 ≤ √w ∧ w * (0.45 / √w) = 0.45 * √w := fun w hw => by
    refine ⟨Real.le_sqrt_of_sq_le (by norm_num; exact hw), ?_⟩
    have := Real.mul_self_sqrt (show 0 ≤ w by linarith)
    have h0 : 0 < √w := Real.sqrt_pos.mpr (by linarith)
    nth_rewrite 1 [← this]
    field_simp
  unfold barkasF
  by_cases h4' : 4 ≤ v'
  · rw [if_pos h4']
    obtain ⟨r1, r2⟩ := root v' h4'
    have h0 : 0 < √v' := by linarith
    rw [r2]
    have p1 : 0.45 / √v' ≤ 0.225 := by
      rw [div_le_iff₀ h0]; norm_num; linarith
    refine ⟨by positivity, ?_⟩
    by_cases h4 : 4 ≤ v
    · rw [if_pos h4]
      obtain ⟨q1, q2⟩ := root v h4
      rw [q2]
      have hs := Real.sqrt_le_sqrt h
      have h0' : 0 < √v := by linarith
      refine ⟨by gcongr, ?_⟩
      norm_num; linarith
    · rw [if_neg h4]
      rw [not_le] at h4
      split_ifs with h2 h3
      · constructor <;> norm_num at p1 ⊢ <;> nlinarith
      · rw [not_le] at h2
        constructor <;> norm_num at p1 ⊢ <;> nlinarith
      · rw [not_le] at h2 h3
        constructor <;> norm_num at p1 ⊢ <;> nlinarith
  · have h4 : ¬ 4 ≤ v := fun h5 => h4' (h5.trans h)
    rw [if_neg h4', if_neg h4]
    rw [not_le] at h4 h4'
    split_ifs with a1 a2 a3 a4 a5 a6 a7 <;> norm_num at * <;>
      first
      | (exfalso; linarith)
      | (refine ⟨?_, ?_, ?_⟩ <;> nlinarith)

/-- The Barkas correction over a step; the effective charge grows at most as the velocity. -/
theorem barkas_step (z z' s s' zt : ℝ) (h0 : 0 < s) (h : s ≤ s') (h2 : s' ≤ 1.080145 * s) (hy : s⁻¹ ≤ 46.6) (hz : 0 < z)
    (hzz : z ≤ z') (hzb : z' * √s ≤ z * √s') (hzt : 1 ≤ zt) (hzt' : zt ≤ 120) :
    0 < bethek_barkas z (√s) zt - 1 ∧ 0 < bethek_barkas z' (√s') zt - 1 ∧
    bethek_barkas z' (√s') zt - 1 ≤ bethek_barkas z (√s) zt - 1 ∧
    bethek_barkas z (√s) zt - 1 ≤ 1.148 * (bethek_barkas z' (√s') zt - 1) ∧
    (s' ≤ 1.0406 * s → bethek_barkas z (√s) zt - 1 ≤ 1.0853 * (bethek_barkas z' (√s') zt - 1)) := by
  have hs' : 0 < s' := by linarith
  have ha : (0 : ℝ) < fine_structure := by norm_num [fine_structure]
  have w0 : 0 < √zt := Real.sqrt_pos.mpr (by linarith)
  have vpos : ∀ q, s ≤ q → 1 ≤ √q / (fine_structure * √zt) := by
    intro q hq
    rw [le_div_iff₀ (by positivity), one_mul]
    apply le_of_pow_le_pow_left₀ (n := 2) (by norm_num) (by positivity)
    rw [mul_pow, Real.sq_sqrt (by linarith), Real.sq_sqrt (by linarith)]
    have h3 : 1 / 46.6 ≤ s := by
      rw [one_div, inv_le_comm₀ (by norm_num) h0]; exact hy
    have h4 : (fine_structure : ℝ) ^ 2 ≤ 1 / 18769 := by norm_num [fine_structure]
    calc (fine_structure : ℝ) ^ 2 * zt ≤ 1 / 18769 * 120 := by gcongr
      _ ≤ 1 / 46.6 := by norm_num
      _ ≤ q := h3.trans hq
  have ev : √s' / (fine_structure * √zt) * √s = √s / (fine_structure * √zt) * √s' := by ring
  have v1 := vpos s le_rfl
  have v1' := vpos s' h
  rw [barkas_eq z _ _ v1, barkas_eq z' _ _ v1']
  have s0 : 0 < √s := Real.sqrt_pos.mpr h0
  have s0' : 0 < √s' := Real.sqrt_pos.mpr hs'
  have vv : √s / (fine_structure * √zt) ≤ √s' / (fine_structure * √zt) := by
    have := Real.sqrt_le_sqrt h
    gcongr
  have vq : ∀ q : ℝ, s' ≤ q * s → (√s' / (fine_structure * √zt)) ^ 2 ≤ q * (√s / (fine_structure * √zt)) ^ 2 := by
    intro q hq
    rw [div_pow, div_pow, Real.sq_sqrt hs'.le, Real.sq_sqrt h0.le, ← mul_div_assoc]
    gcongr
  have zv : z' * (√s / (fine_structure * √zt)) ≤ z * (√s' / (fine_structure * √zt)) := by
    rw [← mul_div_assoc, ← mul_div_assoc]
    gcongr
  have vq1 := vq _ h2
  have vq2 := fun hh => vq 1.0406 hh
  generalize √s / (fine_structure * √zt) = v at *
  generalize √s' / (fine_structure * √zt) = v' at *
  clear vpos vq
  obtain ⟨f0, f1, f2⟩ := barkasF_step v v' v1 vv
  have f0' : 0 < barkasF v := by linarith
  generalize barkasF v = F at *
  generalize barkasF v' = F' at *
  generalize √zt = w at *
  have hv : 0 < v := by linarith
  have hv' : 0 < v' := by linarith
  have hz' : 0 < z' := by linarith
  have low : ∀ q : ℝ, v' ≤ q * v → 0 ≤ q → z * F / (v * v) ≤ 1.0223 * q ^ 3 * (z' * F' / (v' * v')) := by
    intro q hq q0
    rw [← mul_div_assoc, div_le_div_iff₀ (by positivity) (by positivity)]
    have e1 : z * F * (v' * v') ≤ z' * F * (v' * v') := by gcongr
    refine e1.trans ?_
    have e2 : z' * F * (v' * v') * v ≤ z' * (v' * v') * (1.0223 * (v' * F')) := by
      have : z' * F * (v' * v') * v = z' * (v' * v') * (v * F) := by ring
      rw [this]
      gcongr
    have e3 : v' ^ 3 ≤ (q * v) ^ 3 := pow_le_pow_left₀ hv'.le hq 3
    have e4 : z' * (v' * v') * (1.0223 * (v' * F')) = 1.0223 * z' * F' * v' ^ 3 := by ring
    have e5 : 1.0223 * z' * F' * v' ^ 3 ≤ 1.0223 * z' * F' * (q * v) ^ 3 := by
      apply mul_le_mul_of_nonneg_left e3
      positivity
    rw [e4] at e2
    have e6 : z' * F * (v' * v') * v ≤ 1.0223 * q ^ 3 * (z' * F') * (v * v) * v := by
      refine (e2.trans e5).trans (le_of_eq (by ring))
    exact le_of_mul_le_mul_right e6 hv
  have root : ∀ q a : ℝ, v' ^ 2 ≤ q * v ^ 2 → 0 ≤ a → q ≤ a ^ 2 → v' ≤ a * v := by
    intro q a h1 ha h2
    apply le_of_pow_le_pow_left₀ (n := 2) (by norm_num) (by positivity)
    rw [mul_pow]
    exact h1.trans (mul_le_mul_of_nonneg_right h2 (by positivity))
  have ediv : ∀ z F v : ℝ, 2 * z * F / (v * v * w) = 2 / w * (z * F / (v * v)) := fun z F v => by
    rw [div_mul_div_comm]; congr 1 <;> ring
  simp only [add_sub_cancel_left]
  rw [ediv, ediv]
  have hk : 0 < 2 / w := by positivity
  have g0 : 0 < z * F / (v * v) := by positivity
  have g0' : 0 < z' * F' / (v' * v') := by positivity
  have up : z' * F' / (v' * v') ≤ z * F / (v * v) := by
    rw [div_le_div_iff₀ (by positivity) (by positivity)]
    calc z' * F' * (v * v) = (z' * v) * F' * v := by ring
      _ ≤ (z * v') * F * v' := by gcongr
      _ = z * F * (v' * v') := by ring
  have r1 := root _ 1.03931 vq1 (by norm_num) (by norm_num)
  have l1 := low _ r1 (by norm_num)
  have l2 : s' ≤ 1.0406 * s → z * F / (v * v) ≤ 1.0853 * (z' * F' / (v' * v')) := fun hh => by
    refine (low 1.0201 (root _ _ (vq2 hh) (by norm_num) (by norm_num)) (by norm_num)).trans ?_
    exact mul_le_mul_of_nonneg_right (by norm_num) g0'.le
  generalize z * F / (v * v) = G at *
  generalize z' * F' / (v' * v') = G' at *
  have l1' : G ≤ 1.148 * G' := l1.trans (mul_le_mul_of_nonneg_right (by norm_num) g0'.le)
  refine ⟨by positivity, by positivity, by gcongr, ?_, fun hh => ?_⟩
  · rw [mul_left_comm]; gcongr
  · rw [mul_left_comm]; exact mul_le_mul_of_nonneg_left (l2 hh) hk.le

end Catima
