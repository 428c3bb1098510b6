import Verif.Lemmas.Steady
import Verif.Lemmas.BetheBounds

/-!
# Helper lemmas: small steps of the terms of the Bethe formula
-/

namespace Catima

/-! ## Shell correction -/

/-- The shell correction as a polynomial in `y = eta⁻²`. -/
theorem shell_poly (eta I z : ℝ) (he : 0 < eta) :
    shellCor eta I / z = I ^ 2 / z / 1000000 * (0.422377 * (eta ^ 2)⁻¹ + 0.0304043 * (eta ^ 2)⁻¹ ^ 2 - 0.00038106 * (eta ^ 2)⁻¹ ^ 3 +
      I / 1000 * (3.858019 * (eta ^ 2)⁻¹ - 0.1667989 * (eta ^ 2)⁻¹ ^ 2 + 0.00157955 * (eta ^ 2)⁻¹ ^ 3)) := by
  have hp2 : eta ^ (-2.0 : ℝ) = (eta ^ 2)⁻¹ := by
    rw [show (-2.0 : ℝ) = -((2 : Nat) : ℝ) by norm_num, Real.rpow_neg he.le, Real.rpow_natCast]
  have hp4 : eta ^ (-4.0 : ℝ) = (eta ^ 2)⁻¹ ^ 2 := by
    rw [show (-4.0 : ℝ) = -((4 : Nat) : ℝ) by norm_num, Real.rpow_neg he.le, Real.rpow_natCast]
    rw [inv_pow, ← pow_mul]
  have hp6 : eta ^ (-6.0 : ℝ) = (eta ^ 2)⁻¹ ^ 3 := by
    rw [show (-6.0 : ℝ) = -((6 : Nat) : ℝ) by norm_num, Real.rpow_neg he.le, Real.rpow_natCast]
    rw [inv_pow, ← pow_mul]
  have hi2 : I ^ (2.0 : ℝ) = I ^ 2 := by
    rw [show (2.0 : ℝ) = ((2 : Nat) : ℝ) by norm_num, Real.rpow_natCast]
  have hi3 : I ^ (3.0 : ℝ) = I ^ 2 * I := by
    rw [show (3.0 : ℝ) = ((3 : Nat) : ℝ) by norm_num, Real.rpow_natCast]; ring
  unfold shellCor
  simp only [pow_real]
  rw [hp2, hp4, hp6, hi2, hi3]
  generalize (eta ^ 2)⁻¹ = y
  norm_num
  ring

/-- The polynomial of the shell correction, `t` the mean excitation energy in keV. -/
noncomputable def shellPoly (t y : ℝ) : ℝ :=
  0.422377 * y + 0.0304043 * y ^ 2 - 0.00038106 * y ^ 3 + t * (3.858019 * y - 0.1667989 * y ^ 2 + 0.00157955 * y ^ 3)

theorem shellPoly_step_0 (y p : ℝ) (hy : 0 ≤ y) (hy' : y ≤ 46.6) (hp : 0.9258 ≤ p) (hp' : p ≤ 1) :
    -53 ≤ 0.422377 * y + 0.0304043 * y ^ 2 * (1 + p) - 0.00038106 * y ^ 3 * (1 + p + p ^ 2) ∧
    0.422377 * y + 0.0304043 * y ^ 2 * (1 + p) - 0.00038106 * y ^ 3 * (1 + p + p ^ 2) ≤ 53 := by
  norm_num at *
  have a1 : 0 ≤ y * (233 / 5 - y) := mul_nonneg hy (by linarith)
  have a2 : 0 ≤ y ^ 2 * (233 / 5 - y) := mul_nonneg (by positivity) (by linarith)
  have b1 : 0 ≤ y ^ 2 * (1 - p) := mul_nonneg (by positivity) (by linarith)
  have b2 : 0 ≤ y ^ 2 * (p - 4629 / 5000) := mul_nonneg (by positivity) (by linarith)
  have b3 : 0 ≤ y ^ 3 * (1 - p) := mul_nonneg (by positivity) (by linarith)
  have b4 : 0 ≤ y ^ 3 * (p - 4629 / 5000) := mul_nonneg (by positivity) (by linarith)
  have b5 : 0 ≤ y ^ 3 * ((p - 4629 / 5000) * p) := mul_nonneg (by positivity) (by nlinarith)
  have b6 : 0 ≤ y ^ 3 * ((1 - p) * p) := mul_nonneg (by positivity) (by nlinarith)
  have c1 := mul_nonneg hy (sq_nonneg (y - 44))
  constructor
  · nlinarith
  · nlinarith

theorem shellPoly_step_1 (y p : ℝ) (hy : 0 ≤ y) (hy' : y ≤ 46.6) (hp : 0.9258 ≤ p) (hp' : p ≤ 1) :
    -53 ≤ 4.93625923 * y - 0.164750413 * y ^ 2 * (1 + p) + 0.0014670135 * y ^ 3 * (1 + p + p ^ 2) ∧
    4.93625923 * y - 0.164750413 * y ^ 2 * (1 + p) + 0.0014670135 * y ^ 3 * (1 + p + p ^ 2) ≤ 53 := by
  norm_num at *
  have a1 : 0 ≤ y * (233 / 5 - y) := mul_nonneg hy (by linarith)
  have a2 : 0 ≤ y ^ 2 * (233 / 5 - y) := mul_nonneg (by positivity) (by linarith)
  have a3 : 0 ≤ y ^ 3 := by positivity
  have b1 : 0 ≤ y ^ 2 * (1 - p) := mul_nonneg (by positivity) (by linarith)
  have b2 : 0 ≤ y ^ 2 * (p - 4629 / 5000) := mul_nonneg (by positivity) (by linarith)
  have b3 : 0 ≤ y ^ 3 * (1 - p) := mul_nonneg (by positivity) (by linarith)
  have b4 : 0 ≤ y ^ 3 * (p - 4629 / 5000) := mul_nonneg (by positivity) (by linarith)
  have b6 : 0 ≤ y ^ 3 * ((1 - p) * (p - 4629 / 5000)) := mul_nonneg (by positivity) (mul_nonneg (by linarith) (by linarith))
  have b7 : 0 ≤ y ^ 3 * ((1 - p) * (1 - p)) := mul_nonneg (by positivity) (mul_nonneg (by linarith) (by linarith))
  have b8 : 0 ≤ y ^ 2 * (233 / 5 - y) * (1 - p) := mul_nonneg a2 (by linarith)
  have c1 := mul_nonneg hy (sq_nonneg (y - 41))
  have c2 := mul_nonneg hy (sq_nonneg (y - 11))
  have c3 : 0 ≤ (233 / 5 - y) * (y - 11) ^ 2 := mul_nonneg (by linarith) (sq_nonneg _)
  have c4 : 0 ≤ (233 / 5 - y) * (y - 41) ^ 2 := mul_nonneg (by linarith) (sq_nonneg _)
  have c5 : 0 ≤ y * (y - 41) ^ 2 * (1 - p) := mul_nonneg c1 (by linarith)
  have c6 : 0 ≤ y * (y - 41) ^ 2 * (p - 4629 / 5000) := mul_nonneg c1 (by linarith)
  constructor
  · nlinarith
  · nlinarith

/-- Change of the polynomial of the shell correction. -/
theorem shellPoly_step (t y p : ℝ) (ht : 0 ≤ t) (ht' : t ≤ 1.17) (hy : 0 ≤ y) (hy' : y ≤ 46.6) (hp : 0.9258 ≤ p) (hp' : p ≤ 1) :
    |shellPoly t (p * y) - shellPoly t y| ≤ 53 * (1 - p) := by
  have h0 := shellPoly_step_0 y p hy hy' hp hp'
  have h1 := shellPoly_step_1 y p hy hy' hp hp'
  have e : shellPoly t (p * y) - shellPoly t y = -(1 - p) * ((1 - t / 1.17) *
      (0.422377 * y + 0.0304043 * y ^ 2 * (1 + p) - 0.00038106 * y ^ 3 * (1 + p + p ^ 2)) + t / 1.17 *
      (4.93625923 * y - 0.164750413 * y ^ 2 * (1 + p) + 0.0014670135 * y ^ 3 * (1 + p + p ^ 2))) := by
    unfold shellPoly
    norm_num
    ring
  rw [e, abs_mul, abs_neg, abs_of_nonneg (by linarith), mul_comm 53]
  refine mul_le_mul_of_nonneg_left ?_ (by linarith)
  generalize 0.422377 * y + 0.0304043 * y ^ 2 * (1 + p) - 0.00038106 * y ^ 3 * (1 + p + p ^ 2) = u at *
  generalize 4.93625923 * y - 0.164750413 * y ^ 2 * (1 + p) + 0.0014670135 * y ^ 3 * (1 + p + p ^ 2) = v at *
  have hw : 0 ≤ t / 1.17 := by positivity
  have hw' : t / 1.17 ≤ 1 := by rw [div_le_one (by norm_num)]; exact ht'
  generalize t / 1.17 = w at *
  rw [abs_le]
  constructor <;> nlinarith

/-! ## Kinematics -/

/-- `s = eta²`, `beta² = s/(1+s)` over a step of the energy; `τ` is the energy in units of the rest energy. -/
theorem kinematics (T r : ℝ) (hT : 10 ≤ T) (h1 : 1.039 ≤ r) (h2 : r ≤ 1.0393) :
    let s := (1 + T / 931.4940954) ^ 2 - 1
    let s' := (1 + r * T / 931.4940954) ^ 2 - 1
    0 < s ∧ s ≤ s' ∧ 1.039 * s ≤ s' ∧ s' ≤ 1.080145 * s ∧ (T ≤ 50 → s' ≤ 1.0406 * s) ∧ s / (1 + s) ≤ s' / (1 + s') ∧
      s' / (1 + s') ≤ r * (s / (1 + s)) ∧ s⁻¹ ≤ 46.6 ∧ (16 ≤ T → s⁻¹ ≤ 28.95) ∧ (T ≤ 16 → s' ≤ 0.0365) := by
  intro s s'
  have e : ∃ τ, T / 931.4940954 = τ := ⟨_, rfl⟩
  obtain ⟨τ, hτ⟩ := e
  have hs : s = τ * (2 + τ) := by simp only [s, hτ]; ring
  have hs' : s' = r * τ * (2 + r * τ) := by
    simp only [s', mul_div_assoc, hτ]; ring
  have t0 : 0.010735 ≤ τ := by
    rw [← hτ, le_div_iff₀ (by norm_num)]; norm_num; linarith
  have t1 : 16 ≤ T → 0.017176 ≤ τ := fun h => by
    rw [← hτ, le_div_iff₀ (by norm_num)]; norm_num; linarith
  have t2 : T ≤ 16 → τ ≤ 0.017177 := fun h => by
    rw [← hτ, div_le_iff₀ (by norm_num)]; norm_num; linarith
  have t3 : T ≤ 50 → τ ≤ 0.053678 := fun h => by
    rw [← hτ, div_le_iff₀ (by norm_num)]; norm_num; linarith
  clear_value s s'
  subst hs hs'
  norm_num at h1 h2 t0 t1 t2 t3 ⊢
  have τ0 : 0 < τ := by linarith
  have sp : 0 < τ * (2 + τ) := by positivity
  have rs : r * (τ * (2 + τ)) ≤ r * τ * (2 + r * τ) := by
    have : r * τ * (2 + r * τ) - r * (τ * (2 + τ)) = r * τ * ((r - 1) * τ) := by ring
    have : 0 ≤ r * τ * ((r - 1) * τ) := by
      have : 0 ≤ r - 1 := by linarith
      positivity
    linarith
  have a1 : 1039 / 1000 * (τ * (2 + τ)) ≤ r * τ * (2 + r * τ) := le_trans (by nlinarith) rs
  have a0 : τ * (2 + τ) ≤ r * τ * (2 + r * τ) := by nlinarith
  have a2 : r * τ * (2 + r * τ) ≤ 216029 / 200000 * (τ * (2 + τ)) := by
    have h5 : r * r ≤ 216029 / 200000 := by nlinarith
    have h3 : r * (2 + r * τ) ≤ 216029 / 200000 * (2 + τ) := by nlinarith [mul_le_mul_of_nonneg_right h5 τ0.le]
    nlinarith
  refine ⟨sp, a0, a1, a2, ?_, ?_, ?_, ?_, ?_, ?_⟩
  · intro h
    have h3 := t3 h
    have h5 : r * r ≤ 216029 / 200000 := by nlinarith
    have h4 : r * (2 + r * τ) ≤ 5203 / 5000 * (2 + τ) := by nlinarith [mul_le_mul_of_nonneg_right h5 τ0.le]
    nlinarith
  · rw [div_le_div_iff₀ (by positivity) (by positivity)]
    nlinarith
  · have r0 : 0 < r := by linarith
    rw [← mul_div_assoc, div_le_div_iff₀ (by positivity) (by positivity)]
    have h3 : 0 ≤ r * τ * τ * (r - 1) := by
      have : 0 ≤ r - 1 := by linarith
      positivity
    have h4 : 0 ≤ r * τ * (r - 1) * τ * (τ * (2 + τ)) := by
      have : 0 ≤ r - 1 := by linarith
      positivity
    have e : r * (τ * (2 + τ)) * (1 + r * τ * (2 + r * τ)) - r * τ * (2 + r * τ) * (1 + τ * (2 + τ)) =
        r * τ * τ * (r - 1) * ((2 + τ) * (2 + r * τ) - 1) := by ring
    have h5 : 0 ≤ (2 + τ) * (2 + r * τ) - 1 := by nlinarith [mul_pos r0 τ0]
    nlinarith [mul_nonneg h3 h5]
  · rw [← mul_inv, mul_comm, inv_le_comm₀ sp (by norm_num)]
    norm_num; nlinarith
  · intro h
    have := t1 h
    rw [← mul_inv, mul_comm, inv_le_comm₀ sp (by norm_num)]
    norm_num; nlinarith
  · intro h
    have := t2 h
    have h3 : r * τ ≤ 0.017853 := by norm_num; nlinarith
    norm_num at h3
    nlinarith [mul_pos (show 0 < r by linarith) τ0]

/-! ## The logarithm of the Bethe formula -/

/-- The logarithm with the shell correction and the relativistic terms; `s = eta²`, `I` in eV, `c` the factor of the shell
correction. -/
noncomputable def betheLog (c I s : ℝ) : ℝ :=
  Real.log (1021997.856 / I) + Real.log s - s / (1 + s) - c * shellPoly (I / 1000) s⁻¹

/-- `log` does not change by more than `beta²` less than it increases. -/
theorem log_sub_mono (s s' : ℝ) (h0 : 0 < s) (h : s ≤ s') :
    s' / (1 + s') - s / (1 + s) ≤ Real.log s' - Real.log s := by
  have hs' : 0 < s' := by linarith
  rw [← Real.log_div (by linarith) h0.ne']
  have h1 := Real.one_sub_inv_le_log_of_pos (show 0 < s' / s by positivity)
  refine le_trans ?_ h1
  rw [inv_div]
  have e : 1 - s / s' - (s' / (1 + s') - s / (1 + s)) = (s' - s) * ((1 + s) * (1 + s') - s') / (s' * (1 + s) * (1 + s')) := by
    have : s' ≠ 0 := by linarith
    have : 1 + s' ≠ 0 := by linarith
    have : 1 + s ≠ 0 := by linarith
    field_simp
    ring
  have : 0 ≤ (s' - s) * ((1 + s) * (1 + s') - s') / (s' * (1 + s) * (1 + s')) := by
    have h2 : 0 ≤ s' - s := by linarith
    have h3 : 0 ≤ (1 + s) * (1 + s') - s' := by nlinarith
    have h4 : 0 < s' := by linarith
    positivity
  linarith

/-- Change of the logarithm of the Bethe formula. -/
theorem betheLog_step (c I s s' : ℝ) (hc : 0 ≤ c) (hc' : c ≤ 0.0115) (hI : 0 < I) (hI' : I ≤ 1170) (h0 : 0 < s)
    (h : s ≤ s') (h2 : s' ≤ 1.080145 * s) (hy : s⁻¹ ≤ 46.6) :
    betheLog c I s' - betheLog c I s ≤ 0.1226 ∧ betheLog c I s - betheLog c I s' ≤ 0.0454 ∧
    (s' ≤ 1.0406 * s → betheLog c I s' - betheLog c I s ≤ 0.064 ∧ betheLog c I s - betheLog c I s' ≤ 0.024) := by
  have hs' : 0 < s' := by linarith
  have hp' : s / s' ≤ 1 := by rw [div_le_one hs']; exact h
  have hp : 0.9258 ≤ s / s' := by rw [le_div_iff₀ hs']; norm_num at h2 ⊢; linarith
  have hp2 : s' ≤ 1.0406 * s → 0.9609 ≤ s / s' := fun h => by rw [le_div_iff₀ hs']; norm_num at h ⊢; linarith
  have hsh := shellPoly_step (I / 1000) s⁻¹ (s / s') (by positivity) (by norm_num; linarith) (by positivity) hy hp hp'
  have e : s / s' * s⁻¹ = s'⁻¹ := by field_simp
  rw [e] at hsh
  have hmono := log_sub_mono s s' h0 h
  have hlog : Real.log s' - Real.log s = -Real.log (s / s') := by
    rw [Real.log_div h0.ne' hs'.ne']; ring
  have hb : 0 ≤ s' / (1 + s') - s / (1 + s) := by
    rw [sub_nonneg, div_le_div_iff₀ (by positivity) (by positivity)]; linarith
  have hl1 : ∀ u : ℝ, Real.exp (-u) ≤ s / s' → -Real.log (s / s') ≤ u := fun u hu => by
    rw [neg_le, Real.le_log_iff_exp_le (by positivity)]; exact hu
  have l1 : -Real.log (s / s') ≤ 0.0772 := by
    apply hl1
    rw [Real.exp_neg, inv_le_comm₀ (Real.exp_pos _) (by positivity)]
    have := Real.quadratic_le_exp_of_nonneg (show (0 : ℝ) ≤ 0.0772 by norm_num)
    refine le_trans ?_ this
    rw [inv_le_comm₀ (by positivity) (by norm_num)]
    refine le_trans ?_ hp
    norm_num
  have l2 : s' ≤ 1.0406 * s → -Real.log (s / s') ≤ 0.04 := by
    intro h
    apply hl1
    rw [Real.exp_neg, inv_le_comm₀ (Real.exp_pos _) (by positivity)]
    have := Real.quadratic_le_exp_of_nonneg (show (0 : ℝ) ≤ 0.04 by norm_num)
    refine le_trans ?_ this
    rw [inv_le_comm₀ (by positivity) (by norm_num)]
    refine le_trans ?_ (hp2 h)
    norm_num
  unfold betheLog
  generalize shellPoly (I / 1000) s⁻¹ = w at *
  generalize shellPoly (I / 1000) s'⁻¹ = w' at *
  generalize s / s' = p at *
  have hcw : ∀ B, |w' - w| ≤ B → -(0.0115 * B) ≤ c * w' - c * w ∧ c * w' - c * w ≤ 0.0115 * B := by
    intro B hB
    have hB0 : 0 ≤ B := (abs_nonneg _).trans hB
    rw [abs_le] at hB
    have e : c * w' - c * w = c * (w' - w) := by ring
    rw [e]
    constructor
    · nlinarith
    · nlinarith
  obtain ⟨c1, c2⟩ := hcw _ (hsh.trans (show 53 * (1 - p) ≤ 3.9326 by norm_num at hp ⊢; linarith))
  norm_num at c1 c2 l1 l2 hp2 ⊢
  refine ⟨by linarith, by linarith, fun h => ?_⟩
  have h3 := hp2 h
  obtain ⟨d1, d2⟩ := hcw _ (hsh.trans (show 53 * (1 - p) ≤ 2.0723 by norm_num at h3 ⊢; linarith))
  have h4 := l2 h
  norm_num at d1 d2
  constructor <;> linarith

theorem exp_le_quartic' (x : ℝ) (h0 : 0 ≤ x) (h1 : x ≤ 1) : Real.exp x ≤ 1 + x + x ^ 2 / 2 + x ^ 3 / 6 + x ^ 4 / 16 := by
  have h := Real.exp_bound' h0 h1 (n := 4) (by norm_num)
  simp only [Finset.sum_range_succ, Finset.sum_range_zero, Nat.factorial] at h
  norm_num at h
  have : 0 ≤ x ^ 4 := by positivity
  linarith

theorem shellPoly_le (t y : ℝ) (ht : 0 ≤ t) (ht' : t ≤ 1.17) (hy : 0 ≤ y) (hy' : y ≤ 46.6) : shellPoly t y ≤ 47.3 := by
  have hP : 422377 / 1000000 * y + 304043 / 10000000 * y ^ 2 - 19053 / 50000000 * y ^ 3 ≤ 47.3 := by
    norm_num at hy' ⊢
    nlinarith [mul_nonneg hy (sub_nonneg.mpr hy'), mul_nonneg (mul_nonneg hy hy) (sub_nonneg.mpr hy')]
  have hQ : 422377 / 1000000 * y + 304043 / 10000000 * y ^ 2 - 19053 / 50000000 * y ^ 3
      + 1.17 * (3858019 / 1000000 * y - 1667989 / 10000000 * y ^ 2 + 31591 / 20000000 * y ^ 3) ≤ 47.3 := by
    norm_num at hy' ⊢
    nlinarith [sq_nonneg (y - 20.7), mul_nonneg hy (sq_nonneg (y - 20.7)), mul_nonneg (sub_nonneg.mpr hy') (sq_nonneg (y - 20.7))]
  unfold shellPoly
  have e : ∀ a b : ℝ, a = 422377 / 1000000 * y + 304043 / 10000000 * y ^ 2 - 19053 / 50000000 * y ^ 3 →
      b = 3858019 / 1000000 * y - 1667989 / 10000000 * y ^ 2 + 31591 / 20000000 * y ^ 3 →
      0.422377 * y + 0.0304043 * y ^ 2 - 0.00038106 * y ^ 3 + t * (3.858019 * y - 0.1667989 * y ^ 2 + 0.00157955 * y ^ 3) = a + t * b := by
    intro a b ha hb; rw [ha, hb]; norm_num
  rw [e _ _ rfl rfl]
  generalize 422377 / 1000000 * y + 304043 / 10000000 * y ^ 2 - 19053 / 50000000 * y ^ 3 = P at *
  generalize 3858019 / 1000000 * y - 1667989 / 10000000 * y ^ 2 + 31591 / 20000000 * y ^ 3 = Q at *
  norm_num at *
  rcases le_total 0 Q with h | h <;> nlinarith

theorem log_large (I Y : ℝ) (hI : 0 < I) : Real.log (1021997.856 / (1170 * Y)) + (1 - I / 1170) + Real.log Y ≤ Real.log (1021997.856 / I) ∨ Y ≤ 0 := by
  rcases le_or_gt Y 0 with h | h
  · exact Or.inr h
  · left
    have h1 := Real.log_le_sub_one_of_pos (show 0 < I / 1170 by positivity)
    rw [Real.log_div (by norm_num) (by positivity), Real.log_mul (by norm_num) h.ne', Real.log_div (by norm_num) hI.ne']
    rw [Real.log_div hI.ne' (by norm_num)] at h1
    linarith

/-- The logarithm of the Bethe formula between 10 and 16 MeV/u. -/
theorem betheLog_low (c I s : ℝ) (hc : 0 ≤ c) (hc' : c ≤ 0.0115) (hI : 0 < I) (hI' : I ≤ 1170) (h0 : 0 < s)
    (hy : s⁻¹ ≤ 46.6) (hs : s ≤ 0.0365) : 2.64 ≤ betheLog c I s := by
  have hl : 2.92 ≤ Real.log (1021997.856 / (1170 * 46.6)) := by
    rw [Real.le_log_iff_exp_le (by norm_num)]
    have h := exp_2_9
    have h2 := exp_le_quartic' 0.02 (by norm_num) (by norm_num)
    rw [show (2.92 : ℝ) = 2.9 + 0.02 by norm_num, Real.exp_add]
    have := Real.exp_pos (2.9 : ℝ)
    norm_num at h h2 this ⊢
    nlinarith
  have hL := (log_large I 46.6 hI).resolve_right (by norm_num)
  have y0 : 0 < s⁻¹ := by positivity
  have hls : Real.log s = -Real.log s⁻¹ := by rw [Real.log_inv]; ring
  have hly := Real.log_le_sub_one_of_pos (show 0 < s⁻¹ / 46.6 by positivity)
  rw [Real.log_div y0.ne' (by norm_num)] at hly
  have hb : s / (1 + s) ≤ 0.0353 := by
    rw [div_le_iff₀ (by positivity)]; norm_num at hs ⊢; linarith
  have hw : c * shellPoly (I / 1000) s⁻¹ ≤ (1 - I / 1170) + (1 - s⁻¹ / 46.6) + 0.2385 := by
    generalize s⁻¹ = y at *
    obtain ⟨t, ht⟩ : ∃ t, t = I / 1000 := ⟨_, rfl⟩
    have eI : I / 1170 = t / 1.17 := by rw [ht]; ring
    rw [eI, ← ht]
    have t0 : 0 ≤ t := by rw [ht]; positivity
    have t1 : t ≤ 1.17 := by rw [ht]; norm_num; linarith
    have hr : 0 ≤ (1 - t / 1.17) + (1 - y / 46.6) + 0.2385 := by
      have h3 : t / 1.17 ≤ 1 := by rw [div_le_one (by norm_num)]; exact t1
      have h4 : y / 46.6 ≤ 1 := by rw [div_le_one (by norm_num)]; exact hy
      norm_num at h3 h4 ⊢; linarith
    rcases le_total (shellPoly t y) 0 with h | h
    · nlinarith
    · have h5 : c * shellPoly t y ≤ 0.0115 * shellPoly t y := mul_le_mul_of_nonneg_right hc' h
      refine h5.trans ?_
      have hP : shellPoly 0 y ≤ 47.3 := shellPoly_le 0 y le_rfl (by norm_num) y0.le hy
      have hQ : 0.0115 * shellPoly 1.17 y ≤ (1 - y / 46.6) + 0.2385 := by
        unfold shellPoly
        norm_num at hy ⊢
        nlinarith [mul_nonneg y0.le (sub_nonneg.mpr hy), mul_nonneg (mul_nonneg y0.le y0.le) (sub_nonneg.mpr hy),
          mul_nonneg (sub_nonneg.mpr hy) (sq_nonneg (y - 20)), mul_nonneg (sub_nonneg.mpr hy) (sq_nonneg (y - 25))]
      have e : shellPoly t y = (1 - t / 1.17) * shellPoly 0 y + t / 1.17 * shellPoly 1.17 y := by
        unfold shellPoly; norm_num; ring
      rw [e]
      have w0 : 0 ≤ t / 1.17 := by positivity
      have w1 : t / 1.17 ≤ 1 := by rw [div_le_one (by norm_num)]; exact t1
      have h4 : y / 46.6 ≤ 1 := by rw [div_le_one (by norm_num)]; exact hy
      generalize t / 1.17 = w at *
      generalize shellPoly 0 y = P at *
      generalize shellPoly 1.17 y = Q at *
      generalize y / 46.6 = v at *
      norm_num at *
      nlinarith
  unfold betheLog
  norm_num at *
  linarith

/-- The logarithm of the Bethe formula from 16 MeV/u on. -/
theorem betheLog_low' (c I s : ℝ) (hc : 0 ≤ c) (hc' : c ≤ 0.0115) (hI : 0 < I) (hI' : I ≤ 1170) (h0 : 0 < s)
    (hy : s⁻¹ ≤ 28.95) : 2.82 ≤ betheLog c I s := by
  have hl : 3.4 ≤ Real.log (1021997.856 / (1170 * 28.95)) := by
    rw [Real.le_log_iff_exp_le (by norm_num)]
    have h := exp_2_9
    have h2 := exp_le_quartic' 0.5 (by norm_num) (by norm_num)
    rw [show (3.4 : ℝ) = 2.9 + 0.5 by norm_num, Real.exp_add]
    have := Real.exp_pos (2.9 : ℝ)
    norm_num at h h2 this ⊢
    nlinarith
  have hL := (log_large I 28.95 hI).resolve_right (by norm_num)
  have y0 : 0 < s⁻¹ := by positivity
  have hls : Real.log s = -Real.log s⁻¹ := by rw [Real.log_inv]; ring
  have hly := Real.log_le_sub_one_of_pos (show 0 < s⁻¹ / 28.95 by positivity)
  rw [Real.log_div y0.ne' (by norm_num)] at hly
  have hb : s / (1 + s) ≤ 1 - s⁻¹ / 28.95 + 0.0335 := by
    have e : s / (1 + s) = 1 / (1 + s⁻¹) := by field_simp; ring
    rw [e, div_le_iff₀ (by positivity)]
    generalize s⁻¹ = y at *
    norm_num at hy ⊢
    nlinarith [mul_nonneg y0.le (sub_nonneg.mpr hy)]
  have hw : c * shellPoly (I / 1000) s⁻¹ ≤ 0.545 := by
    have h := shellPoly_le (I / 1000) s⁻¹ (by positivity) (by norm_num; linarith) y0.le (by norm_num at hy ⊢; linarith)
    generalize shellPoly (I / 1000) s⁻¹ = w at *
    norm_num at *
    rcases le_total w 0 with h | h <;> nlinarith
  have hI3 : I / 1170 ≤ 1 := by rw [div_le_one (by norm_num)]; exact hI'
  unfold betheLog
  norm_num at *
  linarith

/-- The logarithm of the Bethe formula in terms of `log s`. -/
theorem betheLog_low'' (c I s : ℝ) (hc : 0 ≤ c) (hc' : c ≤ 0.0115) (hI : 0 < I) (hI' : I ≤ 1170) (h0 : 0 < s)
    (hy : s⁻¹ ≤ 46.6) : 5.15 + Real.log s ≤ betheLog c I s := by
  have hl : 6.7 ≤ Real.log (1021997.856 / I) := by
    rw [Real.le_log_iff_exp_le (by positivity), le_div_iff₀ hI]
    have h := exp_6_7
    have := Real.exp_pos (6.7 : ℝ)
    norm_num at h this ⊢
    nlinarith
  have y0 : 0 < s⁻¹ := by positivity
  have hb : s / (1 + s) ≤ 1 := by rw [div_le_one (by positivity)]; linarith
  have hw : c * shellPoly (I / 1000) s⁻¹ ≤ 0.545 := by
    have h := shellPoly_le (I / 1000) s⁻¹ (by positivity) (by norm_num; linarith) y0.le (by norm_num at hy ⊢; linarith)
    generalize shellPoly (I / 1000) s⁻¹ = w at *
    norm_num at *
    rcases le_total w 0 with h | h <;> nlinarith
  unfold betheLog
  norm_num at *
  linarith

end Catima
