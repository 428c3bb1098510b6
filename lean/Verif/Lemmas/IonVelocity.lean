import Verif.Lemmas.ProtonSteady

/-!
# Helper lemmas: the relative velocity of heavy ions, and the stopping of slow protons
-/

namespace Catima

/-- The relative velocity of the ion (in units of the Fermi velocity). -/
noncomputable def relV (v : ℝ) : ℝ := if 1 ≤ v then v * (1 + 0.2 / (v * v)) else 3 / 4 * (1 + v * v * (2 / 3 - v * v / 15))

/-- The polynomial used for slow ions. -/
noncomputable def relP (v : ℝ) : ℝ := 3 / 4 * (1 + v * v * (2 / 3 - v * v / 15))

theorem relV_fast (v : ℝ) (h : 1 ≤ v) : relV v = v + 0.2 / v := by
  rw [relV, if_pos h]
  have : v ≠ 0 := by positivity
  field_simp

theorem relV_slow (v : ℝ) (h : v < 1) : relV v = relP v := by rw [relV, if_neg (not_le.mpr h), relP]

theorem relP_one : relP 1 = 1.2 := by norm_num [relP]
theorem relV_one : relV 1 = 1.2 := by rw [relV_fast 1 le_rfl]; norm_num

theorem relP_mono (v v' : ℝ) (h0 : 0 ≤ v) (h : v ≤ v') (h1 : v' ≤ 1.5) : relP v ≤ relP v' := by
  have h2 : v * v ≤ v' * v' := mul_self_le_mul_self h0 h
  have h3 : v' * v' ≤ 2.25 := by norm_num at h1 ⊢; nlinarith
  unfold relP
  norm_num at h3 ⊢
  nlinarith [mul_self_nonneg v]

theorem fast_mono (v v' : ℝ) (h0 : 1 ≤ v) (h : v ≤ v') : v + 0.2 / v ≤ v' + 0.2 / v' := by
  have p : 0 < v := by linarith
  have p' : 0 < v' := by linarith
  have e : v' + 0.2 / v' - (v + 0.2 / v) = (v' - v) * (1 - 0.2 / (v * v')) := by field_simp; ring
  have : 0.2 / (v * v') ≤ 1 := by
    rw [div_le_one (by positivity)]
    norm_num
    nlinarith
  nlinarith [mul_nonneg (sub_nonneg.mpr h) (sub_nonneg.mpr this)]

theorem relV_mono (v v' : ℝ) (h0 : 0 ≤ v) (h : v ≤ v') : relV v ≤ relV v' := by
  by_cases c : 1 ≤ v
  · rw [relV_fast v c, relV_fast v' (c.trans h)]
    exact fast_mono v v' c h
  · rw [not_le] at c
    rw [relV_slow v c]
    by_cases c' : 1 ≤ v'
    · refine (relP_mono v 1 h0 c.le (by norm_num)).trans ?_
      rw [relP_one, ← relV_one, relV_fast 1 le_rfl, relV_fast v' c']
      exact fast_mono 1 v' le_rfl c'
    · rw [not_le] at c'
      rw [relV_slow v' c']
      exact relP_mono v v' h0 h (by norm_num; linarith)

theorem relV_scale_slow (v v' : ℝ) (h0 : 0 < v) (h : v ≤ v') (h1 : v' ≤ 1) : v * relP v' ≤ v' * relP v := by
  have e : v' * relP v - v * relP v' = 3 / 4 * (v' - v) * (1 - v * v' * (2 / 3) + v * v' * (v ^ 2 + v * v' + v' ^ 2) / 15) := by
    unfold relP; ring
  have h2 : v * v' ≤ 1 := by nlinarith
  have h3 : 0 ≤ v * v' * (v ^ 2 + v * v' + v' ^ 2) / 15 := by
    have : 0 < v' := by linarith
    positivity
  have h4 : 0 ≤ 1 - v * v' * (2 / 3) + v * v' * (v ^ 2 + v * v' + v' ^ 2) / 15 := by linarith
  have : 0 ≤ 3 / 4 * (v' - v) * (1 - v * v' * (2 / 3) + v * v' * (v ^ 2 + v * v' + v' ^ 2) / 15) :=
    mul_nonneg (mul_nonneg (by norm_num) (by linarith)) h4
  linarith

theorem relV_scale (v v' : ℝ) (h0 : 0 < v) (h : v ≤ v') : v * relV v' ≤ v' * relV v := by
  have fast : ∀ a b : ℝ, 1 ≤ a → a ≤ b → a * (b + 0.2 / b) ≤ b * (a + 0.2 / a) := fun a b ha hb => by
    have pa : 0 < a := by linarith
    have pb : 0 < b := by linarith
    have e : b * (a + 0.2 / a) - a * (b + 0.2 / b) = 0.2 * (b - a) * (b + a) / (a * b) := by field_simp; ring
    have : 0 ≤ 0.2 * (b - a) * (b + a) / (a * b) := div_nonneg (mul_nonneg (mul_nonneg (by norm_num) (by linarith)) (by linarith)) (by positivity)
    linarith
  by_cases c : 1 ≤ v
  · rw [relV_fast v c, relV_fast v' (c.trans h)]
    exact fast v v' c h
  · rw [not_le] at c
    rw [relV_slow v c]
    by_cases c' : 1 ≤ v'
    · rw [relV_fast v' c']
      have s1 := relV_scale_slow v 1 h0 c.le le_rfl
      have s2 := fast 1 v' le_rfl c'
      rw [relP_one] at s1
      have s3 : v * (1 * (v' + 0.2 / v')) ≤ v * (v' * (1 + 0.2 / 1)) := mul_le_mul_of_nonneg_left s2 h0.le
      have s4 := mul_le_mul_of_nonneg_left s1 (show 0 ≤ v' by linarith)
      norm_num at s3 s4 ⊢
      linarith
    · rw [not_le] at c'
      rw [relV_slow v' c']
      exact relV_scale_slow v v' h0 h c'.le

theorem relV_low (v : ℝ) (h0 : 0 < v) : v ≤ relV v ∧ (v ≤ 1 → 1.2 * v ≤ relV v) ∧ 0.75 ≤ relV v := by
  have b : v ≤ 1 → 1.2 * v ≤ relV v := fun h => by
    have := relV_scale v 1 h0 h
    rw [relV_one] at this
    linarith
  have c : 0.75 ≤ relV v := by
    by_cases c : 1 ≤ v
    · rw [relV_fast v c]
      have : 0 < 0.2 / v := by positivity
      have h34 : (0.75 : ℝ) ≤ 1 := by norm_num
      linarith
    · rw [not_le] at c
      rw [relV_slow v c]
      unfold relP
      have : 0 ≤ v * v * (2 / 3 - v * v / 15) := mul_nonneg (mul_self_nonneg v) (by nlinarith)
      norm_num
      linarith
  refine ⟨?_, b, c⟩
  by_cases h : 1 ≤ v
  · rw [relV_fast v h]
    have : 0 < 0.2 / v := by positivity
    linarith
  · have := b (not_le.mp h).le
    norm_num at this
    linarith

/-- Below 25 keV/u the stopping of protons is a power of the energy. -/
theorem proton_power (b : Bool) (Z : Int) (hZ : 1 ≤ Z) : ∃ s25 : ℝ, 0 < s25 ∧ ∀ x : ℝ, 0 < x → 1000 * x ≤ 25 →
    (if b then p_se Z else p_se85 Z : ℝ → M ℝ) x = .ok (s25 * (1000 * x / 25) ^ (if Z > 6 then 0.45 else 0.25 : ℝ)) := by
  have gen : ∀ (tab : List (List Dec)), tab.length = 92 → (∀ r ∈ tab, pseRowSteady r = true) → ∃ s25 : ℝ, 0 < s25 ∧ ∀ x : ℝ, 0 < x → 1000 * x ≤ 25 →
      pseGen tab Z x = .ok (s25 * (1000 * x / 25) ^ (if Z > 6 then 0.45 else 0.25 : ℝ)) := by
    intro tab hl hr
    obtain ⟨h0, h92⟩ := srimIdx_range Z hZ
    obtain ⟨k, hk⟩ := Int.eq_ofNat_of_zero_le h0
    have hk' : k < tab.length := by omega
    have hrow := rd_nat tab k hk'
    have hs := hr _ (List.getElem_mem hk')
    generalize tab[k] = row at hrow hs
    obtain ⟨s, _, hs1, -, hst, -⟩ := pseRow_step row hs 25 1 (by norm_num) le_rfl (by norm_num)
    refine ⟨s, hst.pos, fun x hx h => ?_⟩
    unfold pseGen
    have e25 : (25.0 : ℝ) = 25 := by norm_num
    have e1000 : (1000.0 : ℝ) = 1000 := by norm_num
    rw [hk]
    simp only [hrow, bind_ok, pow_real, e25, e1000, if_pos ((le_real _ _).mpr h), hs1]
    split <;> rfl
  cases b
  · exact gen _ proton_ok.1 proton_steady
  · exact gen _ pse_95_ok.1 pse_95_steady

end Catima
