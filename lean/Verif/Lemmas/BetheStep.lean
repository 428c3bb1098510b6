import Verif.Lemmas.DensitySteady
import Verif.Lemmas.BarkasStep

/-!
# Helper lemmas: the Bethe formula over a small step of the energy
-/

namespace Catima

/-! ## Barkas correction -/

/-! ## The bracket -/

theorem bracket_combine (F F' L L' K K' lo u d κ e : ℝ) (hlo : 0 < lo) (h1 : lo ≤ L) (h2 : lo ≤ L') (hF : 2.64 ≤ F) (hF' : 2.64 ≤ F')
    (hup : F' - F ≤ 0.1226) (hdn : F - F' ≤ e) (K0 : 0 ≤ K) (K0' : 0 ≤ K') (hK : K' ≤ K) (hκ : K ≤ κ * K') (κ0 : 0 ≤ κ) (e0 : 0 ≤ e)
    (hu1 : 1.0465 ≤ u) (hu2 : L' - L ≤ (u - 1) * lo) (hd1 : 1 ≤ d) (hd2 : L - L' ≤ (d - 1) * lo) (hd3 : κ * (1 + e / 2.64) ≤ d) :
    Step u d (F * (1 + K) + L - F) (F' * (1 + K') + L' - F') := by
  have e1 : F * (1 + K) + L - F = F * K + L := by ring
  have e2 : F' * (1 + K') + L' - F' = F' * K' + L' := by ring
  rw [e1, e2]
  norm_num at hF hF' hup hu1
  have FK : 0 ≤ F * K := mul_nonneg (by linarith) K0
  have FK' : 0 ≤ F' * K' := mul_nonneg (by linarith) K0'
  refine ⟨by linarith, by linarith, ?_, ?_⟩
  · have a1 : F' ≤ u * F := by nlinarith
    have a2 : F' * K' ≤ u * (F * K) := by
      calc F' * K' ≤ (u * F) * K := mul_le_mul a1 hK K0' (by nlinarith)
        _ = _ := by ring
    have a3 : L' ≤ u * L := by nlinarith
    linarith
  · have a1 : F ≤ (1 + e / 2.64) * F' := by
      have : e ≤ e / 2.64 * F' := by
        rw [div_mul_eq_mul_div, le_div_iff₀ (by norm_num)]
        norm_num
        nlinarith
      linarith
    have a2 : F * K ≤ d * (F' * K') := by
      have h3 : F * K ≤ ((1 + e / 2.64) * F') * (κ * K') := mul_le_mul a1 hκ K0 (mul_nonneg (by positivity) (by linarith))
      have h4 : ((1 + e / 2.64) * F') * (κ * K') = κ * (1 + e / 2.64) * (F' * K') := by ring
      rw [h4] at h3
      exact h3.trans (mul_le_mul_of_nonneg_right hd3 FK')
    have a3 : L ≤ d * L' := by nlinarith
    linarith

set_option maxHeartbeats 2000000 in
/-- The bracket of the Bethe formula over a step of the energy. -/
theorem bethe_bracket_step (x r cc I K K' l l' : ℝ) (f : ℝ → ℝ) (h1 : 1.039 ≤ r) (h2 : r ≤ 1.0393) (hx : 10 ≤ x)
    (s s' : ℝ) (hs : s = (1 + x / 931.4940954) ^ 2 - 1) (hs' : s' = (1 + r * x / 931.4940954) ^ 2 - 1)
    (hc : 0 ≤ cc) (hc' : cc ≤ 0.0115) (hI : 0 < I) (hI' : I ≤ 1170)
    (hK0 : 0 ≤ K) (hK0' : 0 ≤ K') (hKK : K' ≤ K) (hK : K ≤ 1.148 * K') (hK2 : s' ≤ 1.0406 * s → K ≤ 1.0853 * K')
    (hf : ∀ x x', x ≤ x' → -(3 * (x' - x)) - 0.002 ≤ f x' - f x ∧ f x' - f x ≤ 4.6052 * (x' - x) + 0.002)
    (hf2 : ∀ x, x ≤ -0.71 → 0 ≤ f x ∧ f x ≤ 0.0075)
    (hf3 : ∀ q, (q = s ∨ q = s') → (Real.log (√q) / 2.3025851 < 2.2017 ∧ f (Real.log (√q) / 2.3025851) ≤ 0.14) ∨
      (-0.06 ≤ Real.log (√q) / 2.3025851 ∧ f (Real.log (√q) / 2.3025851) ≤ 4.6052 * (Real.log (√q) / 2.3025851) + 0.8))
    (b0 : |l' - l| ≤ 0.86) (b0' : -6.51 ≤ l ∧ -6.51 ≤ l') (b1 : x ≤ 150000 → |l' - l| ≤ 0.0493 ∧ -2.221 ≤ l ∧ -2.221 ≤ l')
    (b2 : x ≤ 16 → |l' - l| ≤ 0.0246) (b3 : 16 ≤ x → x ≤ 150000 → -1.944 ≤ l ∧ -1.944 ≤ l') :
    Step 1.306 1.286 (betheLog cc I s * (1 + K) + l - f (Real.log (√s) / 2.3025851) / 2)
      (betheLog cc I s' * (1 + K') + l' - f (Real.log (√s') / 2.3025851) / 2) ∧
    (x ≤ 31.2 → Step 1.223 1.127 (betheLog cc I s * (1 + K) + l - f (Real.log (√s) / 2.3025851) / 2)
      (betheLog cc I s' * (1 + K') + l' - f (Real.log (√s') / 2.3025851) / 2)) ∧
    (48000 ≤ x → x ≤ 150000 → 6.5 ≤ betheLog cc I s * (1 + K) + l - f (Real.log (√s) / 2.3025851) / 2 ∧
      6.5 ≤ betheLog cc I s' * (1 + K') + l' - f (Real.log (√s') / 2.3025851) / 2 ∧
      Step 1.05 1.17 (betheLog cc I s * (1 + K) + l - f (Real.log (√s) / 2.3025851) / 2)
        (betheLog cc I s' * (1 + K') + l' - f (Real.log (√s') / 2.3025851) / 2)) := by
  obtain ⟨s0, k1, -, k2, k3, -, -, k4, k5, k6⟩ := kinematics x r hx h1 h2
  rw [← hs, ← hs'] at k1 k2 k3
  rw [← hs'] at k6
  rw [← hs] at s0 k4 k5
  have s0' : 0 < s' := by linarith
  have k4' : s'⁻¹ ≤ 46.6 := (inv_anti₀ s0 k1).trans k4
  obtain ⟨F1, F2, F3⟩ := betheLog_step cc I s s' hc hc' hI hI' s0 k1 k2 k4
  have g1 := betheLog_low'' cc I s hc hc' hI hI' s0 k4
  have g1' := betheLog_low'' cc I s' hc hc' hI hI' s0' k4'
  have gA : x ≤ 16 → 2.64 ≤ betheLog cc I s ∧ 2.64 ≤ betheLog cc I s' := fun h =>
    ⟨betheLog_low cc I s hc hc' hI hI' s0 k4 (k1.trans (k6 h)), betheLog_low cc I s' hc hc' hI hI' s0' k4' (k6 h)⟩
  have gB : 16 ≤ x → 2.82 ≤ betheLog cc I s ∧ 2.82 ≤ betheLog cc I s' := fun h =>
    ⟨betheLog_low' cc I s hc hc' hI hI' s0 (k5 h), betheLog_low' cc I s' hc hc' hI hI' s0' ((inv_anti₀ s0 k1).trans (k5 h))⟩
  have d1 := hf3 s (Or.inl rfl)
  have d1' := hf3 s' (Or.inr rfl)
  have eX : ∀ q : ℝ, 0 < q → Real.log q = 4.6051702 * (Real.log (√q) / 2.3025851) := fun q hq => by
    rw [Real.log_sqrt hq.le]; ring
  have X1 := eX s s0
  have X1' := eX s' s0'
  have hXX : Real.log s ≤ Real.log s' := Real.log_le_log s0 k1
  have hXd : ∀ q w : ℝ, s' ≤ q * s → q ≤ 1 + w + w ^ 2 / 2 → 0 ≤ w → Real.log s' - Real.log s ≤ w := by
    intro q w h3 h4 h5
    rw [← Real.log_div s0'.ne' s0.ne', Real.log_le_iff_le_exp (by positivity)]
    refine le_trans ?_ (Real.quadratic_le_exp_of_nonneg h5)
    rw [div_le_iff₀ s0]
    nlinarith
  have hX1 := hXd _ 0.0772 k2 (by norm_num) (by norm_num)
  have hX2 : x ≤ 50 → Real.log s' - Real.log s ≤ 0.04 := fun h => hXd _ 0.04 (k3 h) (by norm_num) (by norm_num)
  have lowX : x ≤ 16 → Real.log s' ≤ -3.27 := by
    intro h
    have h3 := k6 h
    rw [Real.log_le_iff_le_exp s0', Real.exp_neg]
    refine h3.trans ?_
    rw [le_inv_comm₀ (by norm_num) (Real.exp_pos _)]
    have h4 := exp_2_9
    have h5 := exp_le_quartic' 0.37 (by norm_num) (by norm_num)
    rw [show (3.27 : ℝ) = 2.9 + 0.37 by norm_num, Real.exp_add]
    have := Real.exp_pos (2.9 : ℝ)
    norm_num at h4 h5 this ⊢
    nlinarith
  have highX : 48000 ≤ x → 7.5 ≤ Real.log s := by
    intro h
    rw [Real.le_log_iff_exp_le s0]
    have g2 : 52.5 ≤ 1 + x / 931.4940954 := by
      have : (48000 : ℝ) / 931.4940954 ≤ x / 931.4940954 := by gcongr
      norm_num at this ⊢
      linarith
    have e : Real.exp (7.5 : ℝ) = Real.exp 1 ^ 7 * Real.exp 0.5 := by
      rw [← Real.exp_nat_mul, ← Real.exp_add]; norm_num
    have h4 := Real.exp_one_lt_d9
    have h5 := exp_le_quartic' 0.5 (by norm_num) (by norm_num)
    rw [e, hs]
    calc Real.exp 1 ^ 7 * Real.exp 0.5 ≤ 2.72 ^ 7 * 1.65 := by
          gcongr
          · norm_num at h4 ⊢; linarith
          · norm_num at h5 ⊢; linarith
      _ ≤ 52.5 ^ 2 - 1 := by norm_num
      _ ≤ _ := by gcongr
  have topX : 150000 ≤ x → 10.14 ≤ Real.log s := by
    intro h
    rw [Real.le_log_iff_exp_le s0]
    have g2 : 162 ≤ 1 + x / 931.4940954 := by
      have : (150000 : ℝ) / 931.4940954 ≤ x / 931.4940954 := by gcongr
      norm_num at this ⊢
      linarith
    have := exp_10_14
    rw [hs]
    norm_num at this ⊢
    nlinarith
  have hs1 : s' ≤ 1.0406 * s → K ≤ 1.0853 * K' := hK2
  have hD := hf (Real.log (√s) / 2.3025851) (Real.log (√s') / 2.3025851)
  have hA1 := hf2 (Real.log (√s) / 2.3025851)
  have hA2 := hf2 (Real.log (√s') / 2.3025851)
  clear hf hf2 hf3 hK2 hXd eX
  generalize betheLog cc I s = F at *
  generalize betheLog cc I s' = F' at *
  generalize Real.log (√s) / 2.3025851 = X at *
  generalize Real.log (√s') / 2.3025851 = X' at *
  generalize f X = D at *
  generalize f X' = D' at *
  have eL : ∀ F K l D : ℝ, F * (1 + K) + l - D / 2 = F * (1 + K) + (F + l - D / 2) - F := fun F K l D => by ring
  have hXX' : X ≤ X' := by norm_num at X1 X1'; linarith
  have hD := hD hXX'
  rw [abs_le] at b0 b1 b2
  have hF : 2.64 ≤ F ∧ 2.64 ≤ F' := by
    rcases le_total x 16 with h | h
    · exact gA h
    · have := gB h
      norm_num at this ⊢
      constructor <;> linarith
  -- from 16 to 150000
  have loB : 16 ≤ x → x ≤ 150000 → 0.806 ≤ F + l - D / 2 ∧ 0.806 ≤ F' + l' - D' / 2 := by
    intro h3 h4
    have := gB h3
    have := b3 h3 h4
    norm_num at *
    constructor
    · rcases d1 with h | h <;> linarith
    · rcases d1' with h | h <;> linarith
  rw [eL, eL F']
  refine ⟨?_, ?_, ?_⟩
  · rcases le_total x 16 with h | h
    · -- from 10 to 16
      have := lowX h
      have := hA1 (by norm_num at *; linarith)
      have := hA2 (by norm_num at *; linarith)
      have := b1 (by linarith)
      have := b2 h
      have := F3 (k3 (by linarith))
      refine bracket_combine F F' _ _ K K' 0.415 _ _ 1.148 0.0454 (by norm_num) ?_ ?_ hF.1 hF.2 F1 F2 hK0 hK0' hKK hK (by norm_num)
        (by norm_num) (by norm_num) ?_ (by norm_num) ?_ (by norm_num)
      · norm_num at *; linarith
      · norm_num at *; linarith
      · norm_num at *; linarith
      · norm_num at *; linarith
    rcases le_total x 150000 with h' | h'
    · have hl := loB h h'
      have := b1 h'
      refine bracket_combine F F' _ _ K K' 0.806 _ _ 1.148 0.0454 (by norm_num) hl.1 hl.2 hF.1 hF.2 F1 F2 hK0 hK0' hKK hK (by norm_num)
        (by norm_num) (by norm_num) ?_ (by norm_num) ?_ (by norm_num)
      · norm_num at *; linarith
      · norm_num at *; linarith
    · have := topX h'
      refine bracket_combine F F' _ _ K K' 3.309 _ _ 1.148 0.0454 (by norm_num) ?_ ?_ hF.1 hF.2 F1 F2 hK0 hK0' hKK hK (by norm_num)
        (by norm_num) (by norm_num) ?_ (by norm_num) ?_ (by norm_num)
      · norm_num at *
        rcases d1 with h | h <;> linarith
      · norm_num at *
        rcases d1' with h | h <;> linarith
      · norm_num at *; linarith
      · norm_num at *; linarith
  · intro hx3
    norm_num at hx3
    have hK3 := hs1 (k3 (by linarith))
    have hF3 := F3 (k3 (by linarith))
    have := hX2 (by linarith)
    have := b1 (by linarith)
    rcases le_total x 16 with h | h
    · have := lowX h
      have := hA1 (by norm_num at *; linarith)
      have := hA2 (by norm_num at *; linarith)
      have := b2 h
      refine bracket_combine F F' _ _ K K' 0.415 _ _ 1.0853 0.024 (by norm_num) ?_ ?_ hF.1 hF.2 F1 hF3.2 hK0 hK0' hKK hK3 (by norm_num)
        (by norm_num) (by norm_num) ?_ (by norm_num) ?_ (by norm_num)
      · norm_num at *; linarith
      · norm_num at *; linarith
      · norm_num at *; linarith
      · norm_num at *; linarith
    · have hl := loB h (by linarith)
      refine bracket_combine F F' _ _ K K' 0.806 _ _ 1.0853 0.024 (by norm_num) hl.1 hl.2 hF.1 hF.2 F1 hF3.2 hK0 hK0' hKK hK3 (by norm_num)
        (by norm_num) (by norm_num) ?_ (by norm_num) ?_ (by norm_num)
      · norm_num at *; linarith
      · norm_num at *; linarith
  · intro h3 h4
    have := highX h3
    have := b3 (by linarith) h4
    have q1 : 0 ≤ F * K := mul_nonneg (by linarith [hF.1]) hK0
    have q1' : 0 ≤ F' * K' := mul_nonneg (by linarith [hF.2]) hK0'
    have w1 : 6.5 ≤ F + l - D / 2 := by
      norm_num at *
      rcases d1 with h | h <;> linarith
    have w1' : 6.5 ≤ F' + l' - D' / 2 := by
      norm_num at *
      rcases d1' with h | h <;> linarith
    have hb := b1 h4
    refine ⟨?_, ?_, ?_⟩
    · have e1 : F * (1 + K) + (F + l - D / 2) - F = F * K + (F + l - D / 2) := by ring
      rw [e1]; linarith
    · have e2 : F' * (1 + K') + (F' + l' - D' / 2) - F' = F' * K' + (F' + l' - D' / 2) := by ring
      rw [e2]; linarith
    · refine bracket_combine F F' _ _ K K' 6.5 _ _ 1.148 0.0454 (by norm_num) w1 w1' hF.1 hF.2 F1 F2 hK0 hK0' hKK hK (by norm_num)
        (by norm_num) (by norm_num) ?_ (by norm_num) ?_ (by norm_num)
      · norm_num at *; linarith
      · norm_num at *; linarith

end Catima
