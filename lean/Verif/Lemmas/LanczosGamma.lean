import Verif.Lemmas.Lanczos

/-!
# Helper lemmas: the Lanczos formula approximates the Gamma function
-/

namespace Catima.Lanczos
open Poly Filter Topology

/-- `z (z + 1) … (z + 5)` -/
def rising : List ℤ := [0, 120, 274, 225, 85, 15, 1]

theorem rising_eval (z : ℂ) : pev rising z = z * (z + 1) * (z + 2) * (z + 3) * (z + 4) * (z + 5) := by
  simp only [rising, pev_cons, pev_nil]
  push_cast
  ring

/-- The Lanczos sum as one fraction. -/
noncomputable def lzS (z : ℂ) : ℂ := pev lzP z / (1000000000000000000 * pev rising z)

/-- The Lanczos approximation of `Γ`; `κ` stands for `√(2π)`. -/
noncomputable def lzF (κ : ℝ) (z : ℂ) : ℂ :=
  κ * Complex.exp ((z - 1 / 2) * Complex.log (z + 9 / 2) - (z + 9 / 2)) * lzS z

theorem add_nat_ne (z : ℂ) (hz : 0 < z.re) (n : ℕ) : z + n ≠ 0 :=
  ne_of_re _ (by rw [Complex.add_re, Complex.natCast_re]; positivity)

theorem rising_ne (z : ℂ) (hz : 0 < z.re) : pev rising z ≠ 0 := by
  rw [rising_eval]
  have h0 := add_nat_ne z hz 0
  have h1 := add_nat_ne z hz 1
  have h2 := add_nat_ne z hz 2
  have h3 := add_nat_ne z hz 3
  have h4 := add_nat_ne z hz 4
  have h5 := add_nat_ne z hz 5
  push_cast at h0 h1 h2 h3 h4 h5
  rw [add_zero] at h0
  simp only [ne_eq, mul_eq_zero, not_or]
  exact ⟨⟨⟨⟨⟨h0, h1⟩, h2⟩, h3⟩, h4⟩, h5⟩

theorem lzS_ne (z : ℂ) (hz : 0 < z.re) : lzS z ≠ 0 :=
  div_ne_zero (lzP_ne z hz.le) (mul_ne_zero (by norm_num) (rising_ne z hz))

theorem lzF_ne (κ : ℝ) (hκ : κ ≠ 0) (z : ℂ) (hz : 0 < z.re) : lzF κ z ≠ 0 :=
  mul_ne_zero (mul_ne_zero (by exact_mod_cast hκ) (Complex.exp_ne_zero _)) (lzS_ne z hz)

theorem lzF_succ (κ : ℝ) (z : ℂ) (hz : 0 < z.re) : lzF κ (z + 1) = z * lzF κ z * phi z := by
  have h0 := add_nat_ne z hz 0
  have h1 := add_nat_ne z hz 1
  have h2 := add_nat_ne z hz 2
  have h3 := add_nat_ne z hz 3
  have h4 := add_nat_ne z hz 4
  have h5 := add_nat_ne z hz 5
  have h6 := add_nat_ne z hz 6
  push_cast at h0 h1 h2 h3 h4 h5 h6
  rw [add_zero] at h0
  have hP := lzP_ne z hz.le
  have e1 : (z + 1 - 1 / 2) * Complex.log (z + 1 + 9 / 2) - (z + 1 + 9 / 2) =
      ((z - 1 / 2) * Complex.log (z + 9 / 2) - (z + 9 / 2)) +
      ((z + 1 / 2) * Complex.log (z + 11 / 2) - (z - 1 / 2) * Complex.log (z + 9 / 2) - 1) := by
    rw [show z + 1 + 9 / 2 = z + 11 / 2 by ring]
    ring
  have e2 : lzS (z + 1) = z * lzS z * (pev lzQ z / (pev lzP z * (z + 6))) := by
    rw [lzS, lzS, ← lzQ_eval, rising_eval, rising_eval]
    rw [show z + 1 + 1 = z + 2 by ring, show z + 1 + 2 = z + 3 by ring, show z + 1 + 3 = z + 4 by ring,
      show z + 1 + 4 = z + 5 by ring, show z + 1 + 5 = z + 6 by ring]
    generalize pev lzQ z = Q at *
    generalize pev lzP z = P at *
    field_simp
  rw [lzF, lzF, phi, e1, Complex.exp_add, e2]
  ring

theorem lzF_iterate (κ : ℝ) (z : ℂ) (hz : 0 < z.re) (N : ℕ) :
    lzF κ (z + N) = lzF κ z * (∏ n ∈ Finset.range N, (z + n)) * ∏ n ∈ Finset.range N, phi (z + n) := by
  induction N with
  | zero => simp
  | succ N ih =>
    rw [Finset.prod_range_succ, Finset.prod_range_succ]
    have h := lzF_succ κ (z + N) (by rw [Complex.add_re, Complex.natCast_re]; positivity)
    rw [show z + ((N + 1 : ℕ) : ℂ) = z + N + 1 by push_cast; ring, h, ih]
    ring

theorem prod_phi_bound (z : ℂ) (hz : 0 ≤ z.re) (N : ℕ) :
    ‖∏ n ∈ Finset.range N, (phi (z + n))⁻¹ - 1‖ ≤
      Real.exp (7.2e-8 * (1 / (z.re + 9 / 2) - 1 / (z.re + 9 / 2 + N))) - 1 := by
  induction N with
  | zero => simp
  | succ N ih =>
    rw [Finset.prod_range_succ]
    have hb := phi_bound (z + N) (by rw [Complex.add_re, Complex.natCast_re]; positivity)
    rw [Complex.add_re, Complex.natCast_re] at hb
    set a := ∏ n ∈ Finset.range N, (phi (z + n))⁻¹
    set b := (phi (z + N))⁻¹
    have h1 : a * b - 1 = (a - 1) * (b - 1) + (a - 1) + (b - 1) := by ring
    have h2 : ‖a * b - 1‖ ≤ ‖a - 1‖ * ‖b - 1‖ + ‖a - 1‖ + ‖b - 1‖ := by
      rw [h1]
      refine le_trans (norm_add_le _ _) (add_le_add (le_trans (norm_add_le _ _) (add_le_add ?_ le_rfl)) le_rfl)
      rw [norm_mul]
    set s := 7.2e-8 * (1 / (z.re + 9 / 2) - 1 / (z.re + 9 / 2 + N)) with hs
    set r := 7.2e-8 / (z.re + N + 5) ^ 2 with hr
    have h3 : ‖a * b - 1‖ ≤ Real.exp (s + r) - 1 := by
      rw [Real.exp_add]
      have e1 := norm_nonneg (a - 1)
      have e2 := norm_nonneg (b - 1)
      nlinarith [mul_le_mul ih hb e2 (le_trans e1 ih)]
    refine le_trans h3 ?_
    have hp : 0 < z.re + 9 / 2 + N := by positivity
    have h4 : r ≤ 7.2e-8 * (1 / (z.re + 9 / 2 + N) - 1 / (z.re + 9 / 2 + (N + 1 : ℕ))) := by
      rw [hr, div_eq_mul_one_div]
      apply mul_le_mul_of_nonneg_left _ (by norm_num)
      push_cast
      rw [div_sub_div _ _ hp.ne' (by positivity), div_le_div_iff₀ (by positivity) (by positivity)]
      nlinarith
    have h5 : s + r ≤ 7.2e-8 * (1 / (z.re + 9 / 2) - 1 / (z.re + 9 / 2 + (N + 1 : ℕ))) := by
      rw [hs]; linarith
    linarith [Real.exp_le_exp.mpr h5]

theorem lzS_lim (z : ℂ) :
    Tendsto (fun n : ℕ => lzS (z + n + 1)) atTop (𝓝 1.000000000190015) := by
  have hR : pev rising.reverse 0 = 1 := by
    have : rising.reverse = 1 :: [15, 85, 225, 274, 120, 0] := rfl
    rw [this, pev_zero]; norm_num
  have h := (quot_lim lzP rising rfl (z + 1) (by rw [hR]; norm_num)).div_const 1000000000000000000
  rw [lead_P, hR] at h
  have h2 := h.comp tendsto_natCast_atTop_atTop
  have e : (1000000000190015000 : ℂ) / 1 / 1000000000000000000 = 1.000000000190015 := by norm_num
  rw [e] at h2
  refine h2.congr fun n => ?_
  simp only [Function.comp, lzS]
  rw [div_div, mul_comm, show z + 1 + ((n : ℝ) : ℂ) = z + n + 1 by push_cast; ring]

theorem factorial_stirling (n : ℕ) (hn : n ≠ 0) :
    ((n.factorial : ℕ) : ℂ) = Stirling.stirlingSeq n * (√2 : ℝ) *
      Complex.exp (1 / 2 * Complex.log n + n * Complex.log n - n) := by
  have hn' : (0 : ℝ) < n := by positivity
  have h1 : (n.factorial : ℝ) = Stirling.stirlingSeq n * √2 *
      Real.exp (1 / 2 * Real.log n + n * Real.log n - n) := by
    have e1 : Real.exp (1 / 2 * Real.log n + n * Real.log n - n) = √n * (n / Real.exp 1) ^ n := by
      rw [Real.exp_sub, Real.exp_add, div_pow, mul_div_assoc]
      congr 1
      · rw [mul_comm, Real.exp_mul, Real.exp_log hn', Real.sqrt_eq_rpow]
      · rw [mul_comm, Real.exp_mul, Real.exp_log hn', Real.rpow_natCast, ← Real.exp_nat_mul, mul_one]
    rw [e1, Stirling.stirlingSeq, Real.sqrt_mul (by norm_num)]
    have : √2 * √n * (n / Real.exp 1) ^ n ≠ 0 := by positivity
    field_simp
  have h2 := congrArg (Complex.ofReal) h1
  push_cast at h2
  rw [h2, ← Complex.ofReal_natCast, ← Complex.ofReal_log hn'.le]

theorem log_nat_step (z : ℂ) (hz : 0 ≤ z.re) (n : ℕ) (hn : n ≠ 0) :
    Complex.log (z + n + 11 / 2) = Complex.log n + Complex.log (1 + (z + 11 / 2) / n) := by
  have hn' : (0 : ℝ) < n := by positivity
  have hnc : (n : ℂ) ≠ 0 := by exact_mod_cast hn
  have h : z + n + 11 / 2 = ((n : ℝ) : ℂ) * (1 + (z + 11 / 2) / n) := by
    rw [Complex.ofReal_natCast]
    field_simp
    ring
  have hre : 0 < (1 + (z + 11 / 2) / n : ℂ).re := by
    rw [Complex.add_re, Complex.one_re, Complex.div_natCast_re]
    have : (z + 11 / 2 : ℂ).re = z.re + 11 / 2 := by rw [Complex.add_re]; norm_num
    rw [this]
    positivity
  rw [h, Complex.log_ofReal_mul hn' (ne_of_re _ hre), Complex.ofReal_log hn'.le, Complex.ofReal_natCast]

theorem ratio_lim (κ : ℝ) (z : ℂ) (hz : 0 ≤ z.re) :
    Tendsto (fun n : ℕ => lzF κ (z + n + 1) / ((n : ℂ) ^ z * n.factorial)) atTop
      (𝓝 ((κ / (√Real.pi * √2) : ℝ) * 1.000000000190015)) := by
  have g1 : Tendsto (fun n : ℕ => (n : ℂ) * ((z + 11 / 2) / n)) atTop (𝓝 (z + 11 / 2)) := by
    refine tendsto_const_nhds.congr' ?_
    filter_upwards [eventually_ne_atTop 0] with n hn
    have : (n : ℂ) ≠ 0 := by exact_mod_cast hn
    field_simp
  have g2 := Complex.tendsto_nat_mul_log_one_add_of_tendsto g1
  have g3 : Tendsto (fun n : ℕ => Complex.log (1 + (z + 11 / 2) / n)) atTop (𝓝 0) := by
    have h : Tendsto (fun n : ℕ => (1 : ℂ) + (z + 11 / 2) / n) atTop (𝓝 1) := by
      have := (tendsto_const_div_atTop_nhds_zero_nat (z + 11 / 2)).const_add (1 : ℂ)
      rwa [add_zero] at this
    have := h.clog (by simp)
    simpa using this
  have g4 := ((g2.add (g3.const_mul (z + 1 / 2))).sub_const (z + 11 / 2)).cexp
  rw [mul_zero, add_zero, sub_self, Complex.exp_zero] at g4
  have g5 : Tendsto (fun n : ℕ => ((κ / (Stirling.stirlingSeq n * √2) : ℝ) : ℂ)) atTop
      (𝓝 ((κ / (√Real.pi * √2) : ℝ) : ℂ)) := by
    apply (Complex.continuous_ofReal.tendsto _).comp
    apply tendsto_const_nhds.div (Stirling.tendsto_stirlingSeq_sqrt_pi.mul_const _)
    have := Real.sqrt_pos.mpr Real.pi_pos
    positivity
  have h := (g5.mul g4).mul (lzS_lim z)
  rw [mul_one] at h
  refine h.congr' ?_
  filter_upwards [eventually_ne_atTop 0] with n hn
  have hnc : (n : ℂ) ≠ 0 := by exact_mod_cast hn
  rw [lzF, factorial_stirling n hn, Complex.cpow_def_of_ne_zero hnc,
    show z + n + 1 + 9 / 2 = z + n + 11 / 2 by ring, log_nat_step z hz n hn]
  have e1 : (z + n + 1 - 1 / 2) * (Complex.log n + Complex.log (1 + (z + 11 / 2) / n)) - (z + n + 11 / 2) =
      (n * Complex.log (1 + (z + 11 / 2) / n) + (z + 1 / 2) * Complex.log (1 + (z + 11 / 2) / n) - (z + 11 / 2)) +
      (Complex.log n * z + (1 / 2 * Complex.log n + n * Complex.log n - n)) := by ring
  rw [e1, Complex.exp_add, Complex.exp_add (Complex.log n * z)]
  have n1 := Complex.exp_ne_zero (Complex.log n * z)
  have n2 := Complex.exp_ne_zero (1 / 2 * Complex.log n + n * Complex.log n - n)
  have n3 : (Stirling.stirlingSeq n : ℂ) ≠ 0 := by
    obtain ⟨m, rfl⟩ := Nat.exists_eq_succ_of_ne_zero hn
    have := Stirling.stirlingSeq'_pos m
    exact_mod_cast this.ne'
  have n4 : ((√2 : ℝ) : ℂ) ≠ 0 := by
    have : (√2 : ℝ) ≠ 0 := by positivity
    exact_mod_cast this
  push_cast
  generalize Complex.exp (Complex.log n * z) = E1 at *
  generalize Complex.exp (1 / 2 * Complex.log n + n * Complex.log n - n) = E2 at *
  generalize Complex.exp _ = E3 at *
  generalize (Stirling.stirlingSeq n : ℂ) = st at *
  generalize ((√2 : ℝ) : ℂ) = r2 at *
  field_simp

/-- The relative error of the Lanczos formula in the right half plane, apart from a constant
factor. -/
theorem lzF_Gamma (κ : ℝ) (hκ : 0 < κ) (z : ℂ) (hz : 0 < z.re) :
    ‖lzF κ z / ((κ / (√Real.pi * √2) : ℝ) * 1.000000000190015 * Complex.Gamma z) - 1‖ ≤
      Real.exp (1.6e-8) - 1 := by
  have hΓ := Complex.Gamma_ne_zero_of_re_pos hz
  have hℓ : ((κ / (√Real.pi * √2) : ℝ) : ℂ) * 1.000000000190015 ≠ 0 := by
    have h1 : (κ / (√Real.pi * √2) : ℝ) ≠ 0 := by
      have := Real.sqrt_pos.mpr Real.pi_pos
      positivity
    apply mul_ne_zero (by exact_mod_cast h1)
    norm_num
  have hlim := (tendsto_const_nhds (x := lzF κ z)).div
    ((ratio_lim κ z hz.le).mul (Complex.GammaSeq_tendsto_Gamma z)) (mul_ne_zero hℓ hΓ)
  have hlim2 := (hlim.sub_const 1).norm
  refine le_of_tendsto hlim2 ?_
  filter_upwards [eventually_ne_atTop 0] with n hn
  have hnc : (n : ℂ) ≠ 0 := by exact_mod_cast hn
  have hb := prod_phi_bound z hz.le (n + 1)
  have hit := lzF_iterate κ z hz (n + 1)
  have hprod : ∏ j ∈ Finset.range (n + 1), (z + j) ≠ 0 := Finset.prod_ne_zero_iff.mpr fun j _ => add_nat_ne z hz j
  have hφ : ∏ j ∈ Finset.range (n + 1), phi (z + j) ≠ 0 := Finset.prod_ne_zero_iff.mpr fun j _ =>
    phi_ne _ (by rw [Complex.add_re, Complex.natCast_re]; positivity)
  have hF := lzF_ne κ hκ.ne' z hz
  have hpow : (n : ℂ) ^ z ≠ 0 := by
    rw [Complex.cpow_def_of_ne_zero hnc]; exact Complex.exp_ne_zero _
  have hfac : ((n.factorial : ℕ) : ℂ) ≠ 0 := by exact_mod_cast n.factorial_ne_zero
  have heq : lzF κ z / (lzF κ (z + n + 1) / ((n : ℂ) ^ z * n.factorial) * Complex.GammaSeq z n) =
      ∏ j ∈ Finset.range (n + 1), (phi (z + j))⁻¹ := by
    rw [show z + (n : ℂ) + 1 = z + ((n + 1 : ℕ) : ℂ) by push_cast; ring, hit, Finset.prod_inv_distrib,
      Complex.GammaSeq]
    generalize ∏ j ∈ Finset.range (n + 1), (z + (j : ℂ)) = A at *
    generalize ∏ j ∈ Finset.range (n + 1), phi (z + (j : ℂ)) = B at *
    field_simp
  rw [Pi.div_apply, heq]
  refine le_trans hb ?_
  apply sub_le_sub_right
  apply Real.exp_le_exp.mpr
  have h1 : 1 / (z.re + 9 / 2) ≤ 1 / (9 / 2) := one_div_le_one_div_of_le (by norm_num) (by linarith)
  have h2 : 0 ≤ 1 / (z.re + 9 / 2 + ((n + 1 : ℕ) : ℝ)) := by positivity
  nlinarith

end Catima.Lanczos
