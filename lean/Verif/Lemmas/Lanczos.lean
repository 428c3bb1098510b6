import Verif.Lemmas.LanczosPoly
import Mathlib.Analysis.SpecialFunctions.Gamma.Beta
import Mathlib.Analysis.SpecialFunctions.Stirling
import Mathlib.Analysis.SpecialFunctions.Complex.LogBounds
import Mathlib.Analysis.SpecialFunctions.Complex.LogDeriv
import Mathlib.Analysis.Calculus.MeanValue
import Mathlib.Tactic.FieldSimp

/-!
# Helper lemmas: the Lanczos formula in the right half plane
-/

namespace Catima.Lanczos
open Poly Filter Topology
open scoped ComplexConjugate

theorem norm_lzP (z : ℂ) (hz : 0 ≤ z.re) : 1 ≤ ‖pev lzP z‖ := by
  have h := dominated_spec 1 1 [1] lzP lzP_positive z hz
  simp only [pev_cons, pev_nil] at h
  norm_num at h
  nlinarith [norm_nonneg (pev lzP z)]

theorem lzP_ne (z : ℂ) (hz : 0 ≤ z.re) : pev lzP z ≠ 0 := fun h => by
  have := norm_lzP z hz
  rw [h, norm_zero] at this
  linarith

theorem lzQ_ne (z : ℂ) (hz : 0 ≤ z.re) : pev lzQ z ≠ 0 := by
  rw [lzQ_eval]
  apply lzP_ne
  simp only [Complex.add_re, Complex.one_re]
  linarith

theorem norm_lzQ (z : ℂ) (hz : 0 ≤ z.re) : 1 ≤ ‖pev lzQ z‖ := by
  rw [lzQ_eval]
  apply norm_lzP
  simp only [Complex.add_re, Complex.one_re]
  linarith

theorem add_ne (z : ℂ) (a : ℝ) (h : 0 < z.re + a) : z + a ≠ 0 := fun h0 => by
  have := congrArg Complex.re h0
  simp only [Complex.add_re, Complex.ofReal_re, Complex.zero_re] at this
  linarith

theorem lzDen_eval (z : ℂ) : pev lzDen z =
    (2 * z + 11) ^ 2 * (2 * z + 9) ^ 2 * (z + 6) ^ 2 * (pev lzP z ^ 2 * pev lzQ z ^ 2) := by
  simp only [lzDen, psq, pev_mul, pev_cons, pev_nil]
  push_cast
  ring

theorem lzNum_eval (z : ℂ) : pev lzNum z =
    ((42 + 4 * z) * ((2 * z + 9) ^ 2 * (z + 6) ^ 2) - (38 + 4 * z) * ((2 * z + 11) ^ 2 * (z + 6) ^ 2) +
      (2 * z + 11) ^ 2 * (2 * z + 9) ^ 2) * (pev lzP z ^ 2 * pev lzQ z ^ 2) +
    (2 * z + 11) ^ 2 * (2 * z + 9) ^ 2 * (z + 6) ^ 2 *
      (pev lzP z ^ 2 * (pev (pder (pder lzQ)) z * pev lzQ z - pev (pder lzQ) z ^ 2) -
        pev lzQ z ^ 2 * (pev (pder (pder lzP)) z * pev lzP z - pev (pder lzP) z ^ 2)) := by
  simp only [lzNum, psq, logDer2, pev_mul, pev_add, pev_scale, pev_cons, pev_nil]
  push_cast
  ring

theorem one_le_lin (z : ℂ) (hz : 0 ≤ z.re) (k a : ℝ) (hk : 0 ≤ k) (ha : 1 ≤ a) : 1 ≤ ‖k * z + a‖ := by
  refine le_trans ?_ (Complex.re_le_norm _)
  simp only [Complex.add_re, Complex.mul_re, Complex.ofReal_re, Complex.ofReal_im]
  nlinarith

theorem norm_lzDen (z : ℂ) (hz : 0 ≤ z.re) : 1 ≤ ‖pev lzDen z‖ := by
  have h1 := one_le_lin z hz 2 11 (by norm_num) (by norm_num)
  have h2 := one_le_lin z hz 2 9 (by norm_num) (by norm_num)
  have h3 := one_le_lin z hz 1 6 (by norm_num) (by norm_num)
  push_cast at h1 h2 h3
  rw [one_mul] at h3
  rw [lzDen_eval]
  simp only [norm_mul, norm_pow]
  have a1 := one_le_pow₀ h1 (n := 2)
  have a2 := one_le_pow₀ h2 (n := 2)
  have a3 := one_le_pow₀ h3 (n := 2)
  have a4 := one_le_pow₀ (norm_lzP z hz) (n := 2)
  have a5 := one_le_pow₀ (norm_lzQ z hz) (n := 2)
  exact one_le_mul_of_one_le_of_one_le (one_le_mul_of_one_le_of_one_le
    (one_le_mul_of_one_le_of_one_le a1 a2) a3) (one_le_mul_of_one_le_of_one_le a4 a5)

/-- The logarithmic derivative of `φ`. -/
noncomputable def d1 (z : ℂ) : ℂ :=
  Complex.log (z + 11 / 2) - 5 / (z + 11 / 2) - (Complex.log (z + 9 / 2) - 5 / (z + 9 / 2)) +
    pev (pder lzQ) z / pev lzQ z - pev (pder lzP) z / pev lzP z - 1 / (z + 6)

/-- `F (z + 1) / (z F z)` for the Lanczos approximation `F` of `Γ`. -/
noncomputable def phi (z : ℂ) : ℂ :=
  Complex.exp ((z + 1 / 2) * Complex.log (z + 11 / 2) - (z - 1 / 2) * Complex.log (z + 9 / 2) - 1) *
    (pev lzQ z / (pev lzP z * (z + 6)))

theorem slit (z : ℂ) (hz : 0 ≤ z.re) (a : ℝ) (ha : 0 < a) : z + a ∈ Complex.slitPlane := by
  left
  simp only [Complex.add_re, Complex.ofReal_re]
  linarith

theorem ne55 (z : ℂ) (hz : 0 ≤ z.re) : z + 11 / 2 ≠ 0 := by
  have := add_ne z (11 / 2) (by linarith)
  push_cast at this
  exact this

theorem ne45 (z : ℂ) (hz : 0 ≤ z.re) : z + 9 / 2 ≠ 0 := by
  have := add_ne z (9 / 2) (by linarith)
  push_cast at this
  exact this

theorem ne6 (z : ℂ) (hz : 0 ≤ z.re) : z + 6 ≠ 0 := by
  have := add_ne z 6 (by linarith)
  push_cast at this
  exact this

theorem log_deriv55 (z : ℂ) (hz : 0 ≤ z.re) :
    HasDerivAt (fun z => Complex.log (z + 11 / 2)) (1 / (z + 11 / 2)) z := by
  have h := slit z hz (11 / 2) (by norm_num)
  push_cast at h
  exact HasDerivAt.clog ((hasDerivAt_id z).add_const _) h

theorem log_deriv45 (z : ℂ) (hz : 0 ≤ z.re) :
    HasDerivAt (fun z => Complex.log (z + 9 / 2)) (1 / (z + 9 / 2)) z := by
  have h := slit z hz (9 / 2) (by norm_num)
  push_cast at h
  exact HasDerivAt.clog ((hasDerivAt_id z).add_const _) h

theorem phi_deriv (z : ℂ) (hz : 0 ≤ z.re) : HasDerivAt phi (phi z * d1 z) z := by
  have h55 := ne55 z hz
  have h45 := ne45 z hz
  have h6 := ne6 z hz
  have hP := lzP_ne z hz
  have hQ := lzQ_ne z hz
  have a1 := ((hasDerivAt_id z).add_const (1 / 2 : ℂ)).mul (log_deriv55 z hz)
  have a2 := ((hasDerivAt_id z).sub_const (1 / 2 : ℂ)).mul (log_deriv45 z hz)
  have a3 := ((a1.sub a2).sub_const (1 : ℂ)).cexp
  have a4 := (pev_hasDerivAt lzQ z).div
    ((pev_hasDerivAt lzP z).mul ((hasDerivAt_id z).add_const (6 : ℂ))) (mul_ne_zero hP h6)
  refine HasDerivAt.congr_deriv (a3.mul a4) ?_
  have f1 : (z + 1 / 2) * (1 / (z + 11 / 2)) = 1 - 5 / (z + 11 / 2) := by
    rw [eq_sub_iff_add_eq, mul_one_div, ← add_div, div_eq_one_iff_eq h55]
    ring
  have f2 : (z - 1 / 2) * (1 / (z + 9 / 2)) = 1 - 5 / (z + 9 / 2) := by
    rw [eq_sub_iff_add_eq, mul_one_div, ← add_div, div_eq_one_iff_eq h45]
    ring
  simp only [phi, d1, id, Pi.mul_apply, Pi.sub_apply, f1, f2]
  clear a1 a2 a3 a4 f1 f2
  generalize Complex.log (z + 11 / 2) = l1
  generalize Complex.log (z + 9 / 2) = l2
  generalize 5 / (z + 11 / 2) = u
  generalize 5 / (z + 9 / 2) = v
  generalize Complex.exp _ = E
  generalize pev lzQ z = Q at *
  generalize pev lzP z = P at *
  generalize pev (pder lzQ) z = Q'
  generalize pev (pder lzP) z = P'
  field_simp
  ring

theorem d1_deriv (z : ℂ) (hz : 0 ≤ z.re) : HasDerivAt d1 (pev lzNum z / pev lzDen z) z := by
  have h55 := ne55 z hz
  have h45 := ne45 z hz
  have h6 := ne6 z hz
  have hP := lzP_ne z hz
  have hQ := lzQ_ne z hz
  have a1 := (log_deriv55 z hz).sub ((hasDerivAt_const z (5 : ℂ)).div
    ((hasDerivAt_id z).add_const (11 / 2 : ℂ)) h55)
  have a2 := (log_deriv45 z hz).sub ((hasDerivAt_const z (5 : ℂ)).div
    ((hasDerivAt_id z).add_const (9 / 2 : ℂ)) h45)
  have a3 := (pev_hasDerivAt (pder lzQ) z).div (pev_hasDerivAt lzQ z) hQ
  have a4 := (pev_hasDerivAt (pder lzP) z).div (pev_hasDerivAt lzP z) hP
  have a5 := (hasDerivAt_const z (1 : ℂ)).div ((hasDerivAt_id z).add_const (6 : ℂ)) h6
  refine HasDerivAt.congr_deriv ((((a1.sub a2).add a3).sub a4).sub a5) ?_
  rw [lzNum_eval, lzDen_eval]
  simp only [id]
  have e1 : 2 * z + 11 ≠ 0 := by
    intro h; apply h55; linear_combination h / 2
  have e2 : 2 * z + 9 ≠ 0 := by
    intro h; apply h45; linear_combination h / 2
  have e3 : z + 11 / 2 = (2 * z + 11) / 2 := by ring
  have e4 : z + 9 / 2 = (2 * z + 9) / 2 := by ring
  rw [e3, e4]
  generalize pev lzQ z = Q at *
  generalize pev lzP z = P at *
  generalize pev (pder lzQ) z = Q'
  generalize pev (pder lzP) z = P'
  generalize pev (pder (pder lzQ)) z = Q''
  generalize pev (pder (pder lzP)) z = P''
  field_simp
  ring

theorem d2_bound (z : ℂ) (hz : 0 ≤ z.re) :
    ‖pev lzNum z / pev lzDen z‖ ≤ 4.3e-7 / (z.re + 5) ^ 4 := by
  have h := dominatedI_spec _ _ _ _ _ (by norm_num) lz_dominated norm_lzDen 4.3e-7 (by norm_num) (by norm_num) z hz
  have hD := norm_lzDen z hz
  have h5 : z.re + 5 ≤ ‖z + 5‖ := by
    have := Complex.re_le_norm (z + 5)
    simpa using this
  have e : pev lzNum5 z = pev lzNum z * (z + 5) ^ 4 := by
    simp only [lzNum5, psq, pev_mul, pev_cons, pev_nil]
    push_cast
    ring
  rw [e, norm_mul, norm_pow] at h
  rw [norm_div, div_le_div_iff₀ (by linarith) (by positivity)]
  refine le_trans (mul_le_mul_of_nonneg_left (pow_le_pow_left₀ (by linarith) h5 4) (norm_nonneg _)) h

/-! Limits along a ray to the right. -/

theorem inv_lim (z : ℂ) : Tendsto (fun t : ℝ => (z + t)⁻¹) atTop (𝓝 0) := by
  apply tendsto_inv₀_cobounded.comp
  rw [← tendsto_norm_atTop_iff_cobounded]
  apply tendsto_atTop_mono (f := fun t : ℝ => z.re + t)
  · intro t
    have := Complex.re_le_norm (z + t)
    simpa using this
  · exact tendsto_atTop_add_const_left _ _ tendsto_id

theorem inv_lim_add (z a : ℂ) : Tendsto (fun t : ℝ => (z + t + a)⁻¹) atTop (𝓝 0) := by
  have h := inv_lim (z + a)
  refine h.congr fun t => ?_
  congr 1
  ring

/-- The logarithm of `w + 11/2` in terms of that of `w + 9/2`. -/
theorem log_step (w : ℂ) (hw : 0 ≤ w.re) :
    Complex.log (w + 11 / 2) = Complex.log (w + 9 / 2) + Complex.log (1 + (w + 9 / 2)⁻¹) := by
  have h45 := ne45 w hw
  have h1 : (w + 9 / 2) * (1 + (w + 9 / 2)⁻¹) = w + 11 / 2 := by
    rw [mul_add, mul_inv_cancel₀ h45]; ring
  have hre : 0 < (w + 9 / 2).re := by
    have : (w + 9 / 2).re = w.re + 9 / 2 := by
      rw [Complex.add_re]; norm_num
    rw [this]; linarith
  have hre2 : 0 < (1 + (w + 9 / 2)⁻¹).re := by
    rw [Complex.add_re, Complex.one_re, Complex.inv_re]
    have := div_nonneg hre.le (Complex.normSq_nonneg (w + 9 / 2))
    linarith
  have a1 := abs_lt.mp (Complex.abs_arg_lt_pi_div_two_iff.mpr (Or.inl hre))
  have a2 := abs_lt.mp (Complex.abs_arg_lt_pi_div_two_iff.mpr (Or.inl hre2))
  rw [← h1]
  apply Complex.log_mul h45
  · intro h
    rw [h, Complex.zero_re] at hre2
    exact lt_irrefl _ hre2
  · constructor <;> linarith

theorem pev_reverse_cons (a : ℤ) (l : List ℤ) (v : ℂ) :
    pev (l ++ [a]) v = pev l v + v ^ l.length * a := by
  induction l with
  | nil => simp
  | cons b l ih =>
    rw [List.cons_append, pev_cons, ih, pev_cons, List.length_cons]
    ring

theorem pev_reverse (l : List ℤ) (w : ℂ) (hw : w ≠ 0) :
    w * pev l w = w ^ l.length * pev l.reverse w⁻¹ := by
  induction l with
  | nil => simp
  | cons a l ih =>
    rw [List.reverse_cons, pev_reverse_cons, List.length_reverse, pev_cons, List.length_cons, mul_add, ih]
    rw [pow_succ]
    have : w ^ l.length * w⁻¹ ^ l.length = 1 := by rw [← mul_pow, mul_inv_cancel₀ hw, one_pow]
    linear_combination (-(w * a)) * this

theorem pev_zero (a : ℤ) (l : List ℤ) : pev (a :: l) 0 = a := by rw [pev_cons]; ring

theorem pev_lim (l : List ℤ) (z : ℂ) :
    Tendsto (fun t : ℝ => pev l (z + t)⁻¹) atTop (𝓝 (pev l 0)) :=
  ((pev_differentiable l).continuous.tendsto 0).comp (inv_lim z)

theorem re_add (z : ℂ) (t : ℝ) : (z + t).re = z.re + t := by simp

theorem ne_of_re (z : ℂ) (h : 0 < z.re) : z ≠ 0 := fun h0 => by
  rw [h0, Complex.zero_re] at h
  exact lt_irrefl _ h

/-- The quotient of two polynomials of equal degree. -/
theorem quot_lim (f g : List ℤ) (hl : f.length = g.length) (z : ℂ) (hg : pev g.reverse 0 ≠ 0) :
    Tendsto (fun t : ℝ => pev f (z + t) / pev g (z + t)) atTop (𝓝 (pev f.reverse 0 / pev g.reverse 0)) := by
  refine ((pev_lim f.reverse z).div (pev_lim g.reverse z) hg).congr' ?_
  filter_upwards [eventually_gt_atTop (-z.re)] with t ht
  have hw : z + t ≠ 0 := ne_of_re _ (by rw [re_add]; linarith)
  have h1 := pev_reverse f (z + t) hw
  have h2 := pev_reverse g (z + t) hw
  show pev f.reverse (z + t)⁻¹ / pev g.reverse (z + t)⁻¹ = _
  have hp : (z + t) ^ g.length ≠ 0 := pow_ne_zero _ hw
  rw [← mul_div_mul_left _ _ hp, ← h2, ← hl, ← h1, mul_div_mul_left _ _ hw]

/-- The quotient of polynomials of degrees `n` and `n + 1`. -/
theorem quot_lim_zero (f g : List ℤ) (hl : f.length + 1 = g.length) (z : ℂ) (hg : pev g.reverse 0 ≠ 0) :
    Tendsto (fun t : ℝ => pev f (z + t) / pev g (z + t)) atTop (𝓝 0) := by
  have h := quot_lim (0 :: f) g (by simpa using hl) z hg
  have h2 := (inv_lim z).mul h
  rw [zero_mul] at h2
  refine h2.congr' ?_
  filter_upwards [eventually_gt_atTop (-z.re)] with t ht
  have hw : z + t ≠ 0 := ne_of_re _ (by rw [re_add]; linarith)
  rw [pev_cons, Int.cast_zero, zero_add, mul_div_assoc, inv_mul_cancel_left₀ hw]

theorem lead_P : pev lzP.reverse 0 = 1000000000190015000 := by
  have : lzP.reverse = 1000000000190015000 :: [27458333327020151226, 314042534816107043439,
    1914955976674752939984, 6566207591518191899269, 12004319135963288586498, 9141611007536575200000] := rfl
  rw [this, pev_zero]; norm_num

theorem lead_Q : pev lzQ.reverse 0 = 1000000000190015000 := by
  have : lzQ.reverse = 1000000000190015000 :: [33458333328160241226, 466334201454058024569,
    3465709449213182926000, 14484914063712144717115, 32281064054924600224874, 29969594579836125835416] := rfl
  rw [this, pev_zero]; norm_num

theorem log_step_lim (z : ℂ) :
    Tendsto (fun t : ℝ => Complex.log (1 + (z + t + 9 / 2)⁻¹)) atTop (𝓝 0) := by
  have h := (inv_lim_add z (9 / 2)).const_add (1 : ℂ)
  rw [add_zero] at h
  have := h.clog (by simp)
  simpa using this

theorem d1_lim (z : ℂ) (hz : 0 ≤ z.re) : Tendsto (fun t : ℝ => d1 (z + t)) atTop (𝓝 0) := by
  have a1 := log_step_lim z
  have a2 := (inv_lim_add z (11 / 2)).const_mul 5
  have a3 := (inv_lim_add z (9 / 2)).const_mul 5
  have a4 := quot_lim_zero (pder lzQ) lzQ rfl z (by rw [lead_Q]; norm_num)
  have a5 := quot_lim_zero (pder lzP) lzP rfl z (by rw [lead_P]; norm_num)
  have a6 := inv_lim_add z 6
  have h := ((((a1.sub a2).add a3).add a4).sub a5).sub a6
  simp only [mul_zero, sub_zero, add_zero] at h
  refine h.congr' ?_
  filter_upwards [eventually_ge_atTop (0 : ℝ)] with t ht
  have hw : 0 ≤ (z + t).re := by rw [re_add]; linarith
  rw [d1, log_step _ hw]
  simp only [div_eq_mul_inv]
  ring

theorem phi_lim (z : ℂ) (hz : 0 ≤ z.re) : Tendsto (fun t : ℝ => phi (z + t)) atTop (𝓝 1) := by
  -- `t log (1 + 1 / (z + t + 9/2)) → 1`
  have b1 : Tendsto (fun t : ℝ => (t : ℂ) * (z + t + 9 / 2)⁻¹) atTop (𝓝 1) := by
    have h := ((inv_lim_add z (9 / 2)).const_mul (z + 9 / 2)).const_sub 1
    rw [mul_zero, sub_zero] at h
    refine h.congr' ?_
    filter_upwards [eventually_ge_atTop (0 : ℝ)] with t ht
    have hw := ne45 (z + t) (by rw [re_add]; linarith)
    have := mul_inv_cancel₀ hw
    linear_combination -this
  have b2 := Complex.tendsto_mul_log_one_add_of_tendsto b1
  have b3 := (log_step_lim z).const_mul (z - 1 / 2)
  rw [mul_zero] at b3
  have b4 := ((b2.add b3).sub_const 1).cexp
  have b5 : Tendsto (fun t : ℝ => 1 - (1 / 2) * (z + t + 6)⁻¹) atTop (𝓝 (1 : ℂ)) := by
    have h := ((inv_lim_add z 6).const_mul (1 / 2 : ℂ)).const_sub 1
    rw [mul_zero, sub_zero] at h
    exact h
  have b6 := quot_lim lzQ lzP rfl z (by rw [lead_P]; norm_num)
  rw [lead_P, lead_Q, div_self (by norm_num)] at b6
  have h := (b4.mul b5).mul b6
  simp only [add_zero, sub_self, Complex.exp_zero, mul_one] at h
  refine h.congr' ?_
  filter_upwards [eventually_ge_atTop (0 : ℝ)] with t ht
  have hw : 0 ≤ (z + t).re := by rw [re_add]; linarith
  have h55 := ne55 _ hw
  have h6 := ne6 _ hw
  have hP := lzP_ne _ hw
  have e1 : (z + t + 1 / 2) * Complex.log (z + t + 11 / 2) - (z + t - 1 / 2) * Complex.log (z + t + 9 / 2) - 1 =
      (t * Complex.log (1 + (z + t + 9 / 2)⁻¹) + (z - 1 / 2) * Complex.log (1 + (z + t + 9 / 2)⁻¹) - 1) +
        Complex.log (z + t + 11 / 2) := by
    have := log_step _ hw
    linear_combination (z + t - 1 / 2) * this
  have e2 : (1 : ℂ) - 1 / 2 * (z + t + 6)⁻¹ = (z + t + 11 / 2) * (z + t + 6)⁻¹ := by
    have := mul_inv_cancel₀ h6
    linear_combination -this
  rw [phi, e1, Complex.exp_add, Complex.exp_log h55, e2]
  generalize Complex.exp _ = E
  rw [← div_div]
  simp only [div_eq_mul_inv]
  ring

/-! The estimates. -/

theorem ray_deriv (f f' : ℂ → ℂ) (hf : ∀ z : ℂ, 0 ≤ z.re → HasDerivAt f (f' z) z) (z : ℂ) (hz : 0 ≤ z.re)
    (t : ℝ) (ht : 0 ≤ t) : HasDerivAt (fun t : ℝ => f (z + t)) (f' (z + t)) t := by
  have h1 := hf (z + t) (by rw [re_add]; linarith)
  have h2 : HasDerivAt (fun t : ℝ => z + (t : ℂ)) 1 t := by
    simpa using (Complex.ofRealCLM.hasDerivAt (x := t)).const_add z
  have h3 := HasDerivAt.comp t h1 h2
  rw [mul_one] at h3
  exact h3

theorem inv_pow_deriv (c x : ℝ) (n : ℕ) (t : ℝ) (h : x + t ≠ 0) :
    HasDerivAt (fun t : ℝ => c / (x + t) ^ n) (-(n * c) / (x + t) ^ (n + 1)) t := by
  have h1 : HasDerivAt (fun t : ℝ => (x + t) ^ n) (n * (x + t) ^ (n - 1) * 1) t :=
    ((hasDerivAt_id t).const_add x).pow n
  have h2 := (hasDerivAt_const t c).div h1 (pow_ne_zero n h)
  refine HasDerivAt.congr_deriv h2 ?_
  cases n with
  | zero => simp
  | succ n =>
    rw [Nat.add_sub_cancel]
    field_simp
    ring

theorem d1_bound (z : ℂ) (hz : 0 ≤ z.re) : ‖d1 z‖ ≤ 1.434e-7 / (z.re + 5) ^ 3 := by
  have hx : 0 < z.re + 5 := by linarith
  have key : ∀ T : ℝ, 0 ≤ T → ‖d1 (z + T) - d1 z‖ ≤ 1.434e-7 / (z.re + 5) ^ 3 := by
    intro T hT
    have h := image_norm_le_of_norm_deriv_right_le_deriv_boundary' (a := 0) (b := T)
      (f := fun t : ℝ => d1 (z + t) - d1 z) (f' := fun t : ℝ => pev lzNum (z + t) / pev lzDen (z + t))
      (B := fun t : ℝ => 1.434e-7 / (z.re + 5) ^ 3 - 1.434e-7 / (z.re + 5 + t) ^ 3)
      (B' := fun t : ℝ => -(-((3 : ℕ) * 1.434e-7) / (z.re + 5 + t) ^ (3 + 1)))
      (fun t ht => ((ray_deriv _ _ d1_deriv z hz t ht.1).sub_const _).continuousAt.continuousWithinAt)
      (fun t ht => ((ray_deriv _ _ d1_deriv z hz t ht.1).sub_const _).hasDerivWithinAt)
      (by simp)
      (fun t ht => ((inv_pow_deriv 1.434e-7 (z.re + 5) 3 t (by have := ht.1; linarith)).const_sub
        _).continuousAt.continuousWithinAt)
      (fun t ht => ((inv_pow_deriv 1.434e-7 (z.re + 5) 3 t (by have := ht.1; linarith)).const_sub
        _).hasDerivWithinAt)
      (fun t ht => by
        have hb := d2_bound (z + t) (by rw [re_add]; linarith [ht.1])
        refine le_trans hb ?_
        rw [re_add, neg_div, neg_neg, show z.re + t + 5 = z.re + 5 + t by ring]
        apply div_le_div_of_nonneg_right (by norm_num)
        positivity)
      (Set.right_mem_Icc.mpr hT)
    refine le_trans h ?_
    have : 0 ≤ 1.434e-7 / (z.re + 5 + T) ^ 3 := by positivity
    linarith
  have hlim : Tendsto (fun T : ℝ => ‖d1 (z + T) - d1 z‖) atTop (𝓝 ‖0 - d1 z‖) :=
    ((d1_lim z hz).sub_const _).norm
  rw [zero_sub, norm_neg] at hlim
  exact le_of_tendsto hlim (by filter_upwards [eventually_ge_atTop 0] with T hT using key T hT)

theorem phi_ne (z : ℂ) (hz : 0 ≤ z.re) : phi z ≠ 0 :=
  mul_ne_zero (Complex.exp_ne_zero _) (div_ne_zero (lzQ_ne z hz) (mul_ne_zero (lzP_ne z hz) (ne6 z hz)))

theorem phi_bound (z : ℂ) (hz : 0 ≤ z.re) : ‖(phi z)⁻¹ - 1‖ ≤ Real.exp (7.2e-8 / (z.re + 5) ^ 2) - 1 := by
  have hx : 0 < z.re + 5 := by linarith
  have hφ := phi_ne z hz
  have key : ∀ T : ℝ, 0 ≤ T → ‖phi (z + T) / phi z - 1‖ ≤ Real.exp (7.2e-8 / (z.re + 5) ^ 2) - 1 := by
    intro T hT
    have hB : ∀ t : ℝ, 0 ≤ t → HasDerivAt
        (fun t : ℝ => Real.exp (7.2e-8 / (z.re + 5) ^ 2 - 7.2e-8 / (z.re + 5 + t) ^ 2) - 1)
        (Real.exp (7.2e-8 / (z.re + 5) ^ 2 - 7.2e-8 / (z.re + 5 + t) ^ 2) *
          -(-((2 : ℕ) * 7.2e-8) / (z.re + 5 + t) ^ (2 + 1))) t := fun t ht =>
      (((inv_pow_deriv 7.2e-8 (z.re + 5) 2 t (by linarith)).const_sub _).exp).sub_const 1
    have h := image_norm_le_of_norm_deriv_right_lt_deriv_boundary' (a := 0) (b := T)
      (f := fun t : ℝ => phi (z + t) / phi z - 1) (f' := fun t : ℝ => phi (z + t) * d1 (z + t) / phi z)
      (fun t ht => (((ray_deriv _ _ phi_deriv z hz t ht.1).div_const _).sub_const _).continuousAt.continuousWithinAt)
      (fun t ht => (((ray_deriv _ _ phi_deriv z hz t ht.1).div_const _).sub_const _).hasDerivWithinAt)
      (by simp [div_self hφ])
      (fun t ht => (hB t ht.1).continuousAt.continuousWithinAt)
      (fun t ht => (hB t ht.1).hasDerivWithinAt)
      (fun t ht heq => by
        have hb := d1_bound (z + t) (by rw [re_add]; linarith [ht.1])
        rw [re_add, show z.re + t + 5 = z.re + 5 + t by ring] at hb
        have ht0 := ht.1
        have hpos : 0 < z.re + 5 + t := by linarith
        have hE := Real.exp_pos (7.2e-8 / (z.re + 5) ^ 2 - 7.2e-8 / (z.re + 5 + t) ^ 2)
        have h1 : ‖phi (z + t) / phi z‖ ≤
            Real.exp (7.2e-8 / (z.re + 5) ^ 2 - 7.2e-8 / (z.re + 5 + t) ^ 2) := by
          have := norm_add_le (phi (z + t) / phi z - 1) 1
          rw [sub_add_cancel, norm_one, heq] at this
          linarith
        have h2 : phi (z + t) * d1 (z + t) / phi z = phi (z + t) / phi z * d1 (z + t) := by ring
        rw [h2, norm_mul]
        refine lt_of_le_of_lt (mul_le_mul h1 hb (norm_nonneg _) hE.le) ?_
        apply mul_lt_mul_of_pos_left _ hE
        rw [neg_div, neg_neg]
        apply div_lt_div_of_pos_right _ (by positivity)
        norm_num)
      (Set.right_mem_Icc.mpr hT)
    refine le_trans h ?_
    have : 0 ≤ 7.2e-8 / (z.re + 5 + T) ^ 2 := by positivity
    have := Real.exp_le_exp.mpr (show 7.2e-8 / (z.re + 5) ^ 2 - 7.2e-8 / (z.re + 5 + T) ^ 2 ≤
      7.2e-8 / (z.re + 5) ^ 2 by linarith)
    linarith
  have hlim : Tendsto (fun T : ℝ => ‖phi (z + T) / phi z - 1‖) atTop (𝓝 ‖1 / phi z - 1‖) :=
    (((phi_lim z hz).div_const _).sub_const _).norm
  rw [one_div] at hlim
  exact le_of_tendsto hlim (by filter_upwards [eventually_ge_atTop 0] with T hT using key T hT)

end Catima.Lanczos
