import Verif.Lemmas.Complex
import Verif.Lemmas.Quadrature
import Verif.Lemmas.LanczosGamma
import Verif.Model.LindhardExact
import Mathlib.Analysis.Real.Pi.Bounds

/-!
# C93: `lngamma` is the logarithm of the Gamma function
-/

namespace Catima
open Lanczos

/-- The result of `lngamma` before the reflection (calculations.cpp:866-889), for the arguments
`x`, `y` with which the formula is evaluated. -/
noncomputable def lnCore (x y : ℝ) : Cpx ℝ :=
  let r := Scalar.sqrt ((x + 5.5) * (x + 5.5) + y * y)
  let aterm1 := y * Scalar.log r
  let aterm2 := (x + 0.5) * TrigScalar.atan2 y (x + 5.5) - y
  let lterm1 := (x + 0.5) * Scalar.log r
  let lterm2 := -y * TrigScalar.atan2 y (x + 5.5) - (x + 5.5) + 0.5 * Scalar.log (2.0 * PI)
  let nd := lanczosSum x y
  let num := nd.1 * -y
  let denom := nd.2
  let aterm3 := TrigScalar.atan2 num denom
  let lterm3 := 0.5 * Scalar.log (num * num + denom * denom)
  ⟨lterm1 + lterm2 + lterm3, aterm1 + aterm2 + aterm3⟩

theorem lanczosSum_real (x y : ℝ) (hx : -1 < x) :
    (⟨(lanczosSum x y).2, (lanczosSum x y).1 * -y⟩ : ℂ) = lzS ⟨x + 1, y⟩ := by
  have hp : ∀ j : ℝ, 1 ≤ j → (x + j) * (x + j) + y * y ≠ 0 := fun j hj => by
    have : 0 < x + j := by linarith
    have := mul_pos this this
    have := mul_self_nonneg y
    linarith
  have hterm : ∀ (c j : ℝ), 1 ≤ j → (c : ℂ) / ((⟨x, y⟩ : ℂ) + j) =
      ⟨(x + j) * (c / ((x + j) * (x + j) + y * y)), c / ((x + j) * (x + j) + y * y) * -y⟩ := by
    intro c j hj
    have h := hp j hj
    apply Complex.ext
    · rw [Complex.div_re]
      simp only [Complex.normSq_apply, Complex.add_re, Complex.add_im, Complex.ofReal_re, Complex.ofReal_im]
      rw [add_zero]
      ring
    · rw [Complex.div_im]
      simp only [Complex.normSq_apply, Complex.add_re, Complex.add_im, Complex.ofReal_re, Complex.ofReal_im]
      rw [add_zero]
      ring
  set w : ℂ := ⟨x, y⟩ with hw
  have hw1 : (⟨x + 1, y⟩ : ℂ) = w + 1 := by apply Complex.ext <;> simp [hw]
  have hwre : 0 < (w + 1).re := by rw [← hw1]; show 0 < x + 1; linarith
  have hsum : (⟨(lanczosSum x y).2, (lanczosSum x y).1 * -y⟩ : ℂ) =
      1.000000000190015 + (76.18009172947146 : ℝ) / (w + (1 : ℝ)) + (-86.50532032941677 : ℝ) / (w + (2 : ℝ)) +
      (24.01409824083091 : ℝ) / (w + (3 : ℝ)) + (-1.231739572450155 : ℝ) / (w + (4 : ℝ)) +
      (0.1208650973866179e-2 : ℝ) / (w + (5 : ℝ)) + (-0.5395239384953e-5 : ℝ) / (w + (6 : ℝ)) := by
    rw [hterm _ _ (by norm_num), hterm _ _ (by norm_num), hterm _ _ (by norm_num), hterm _ _ (by norm_num),
      hterm _ _ (by norm_num), hterm _ _ (by norm_num)]
    have c1 : ((76.18009172947146 : Dec).toScalar : ℝ) = 76.18009172947146 := by
      rw [Dec.toScalar_real]; show (((7618009172947146 : ℤ)) : ℝ) / 10 ^ 14 = _; norm_num
    have c2 : ((-86.50532032941677 : Dec).toScalar : ℝ) = -86.50532032941677 := by
      rw [Dec.toScalar_real]; show (((-8650532032941677 : ℤ)) : ℝ) / 10 ^ 14 = _; norm_num
    have c3 : ((24.01409824083091 : Dec).toScalar : ℝ) = 24.01409824083091 := by
      rw [Dec.toScalar_real]; show (((2401409824083091 : ℤ)) : ℝ) / 10 ^ 14 = _; norm_num
    have c4 : ((-1.231739572450155 : Dec).toScalar : ℝ) = -1.231739572450155 := by
      rw [Dec.toScalar_real]; show (((-1231739572450155 : ℤ)) : ℝ) / 10 ^ 15 = _; norm_num
    have c5 : ((0.1208650973866179e-2 : Dec).toScalar : ℝ) = 0.1208650973866179e-2 := by
      rw [Dec.toScalar_real]; show (((1208650973866179 : ℤ)) : ℝ) / 10 ^ 18 = _; norm_num
    have c6 : ((-0.5395239384953e-5 : Dec).toScalar : ℝ) = -0.5395239384953e-5 := by
      rw [Dec.toScalar_real]; show (((-5395239384953 : ℤ)) : ℝ) / 10 ^ 18 = _; norm_num
    simp only [lanczosSum, lanczos_coeff, List.zipIdx_cons, List.zipIdx_nil, List.foldl_cons, List.foldl_nil,
      ofInt_real, c1, c2, c3, c4, c5, c6]
    apply Complex.ext
    · simp only [Complex.add_re]
      norm_num
    · simp only [Complex.add_im]
      norm_num
      ring
  rw [hsum, hw1, lzS, rising_eval]
  have n1 := add_nat_ne _ hwre 0
  have n2 := add_nat_ne _ hwre 1
  have n3 := add_nat_ne _ hwre 2
  have n4 := add_nat_ne _ hwre 3
  have n5 := add_nat_ne _ hwre 4
  have n6 := add_nat_ne _ hwre 5
  push_cast at n1 n2 n3 n4 n5 n6
  have e2 : w + 1 + 1 = w + 2 := by ring
  have e3 : w + 1 + 2 = w + 3 := by ring
  have e4 : w + 1 + 3 = w + 4 := by ring
  have e5 : w + 1 + 4 = w + 5 := by ring
  have e6 : w + 1 + 5 = w + 6 := by ring
  rw [add_zero] at n1
  rw [e2] at n2 ⊢
  rw [e3] at n3 ⊢
  rw [e4] at n4 ⊢
  rw [e5] at n5 ⊢
  rw [e6] at n6 ⊢
  simp only [Poly.lzP, Poly.pev_cons, Poly.pev_nil]
  push_cast
  norm_num
  field_simp
  ring

/-- The formula evaluated by `lngamma` is a logarithm of the Lanczos approximation. -/
theorem lnCore_exp (x y : ℝ) (hx : -1 < x) :
    Complex.exp (lnCore x y).toC = lzF (√(2 * PI)) ⟨x + 1, y⟩ := by
  have e1 : (5.5 : ℝ) = 11 / 2 := by norm_num
  have e2 : (0.5 : ℝ) = 1 / 2 := by norm_num
  have e3 : (2.0 : ℝ) = 2 := by norm_num
  have hPI : (0 : ℝ) < PI := by unfold PI; norm_num
  have hS := lanczosSum_real x y hx
  have hSne := lzS_ne ⟨x + 1, y⟩ (by show 0 < x + 1; linarith)
  set w : ℂ := ⟨x + 1, y⟩ with hw
  have hwx : w + 9 / 2 = ⟨x + 11 / 2, y⟩ := by
    apply Complex.ext
    · rw [Complex.add_re]; norm_num [hw]; ring
    · rw [Complex.add_im]; norm_num [hw]
  have hlog : Complex.log (w + 9 / 2) =
      ⟨Real.log √((x + 11 / 2) * (x + 11 / 2) + y * y), Complex.arg ⟨x + 11 / 2, y⟩⟩ := by
    rw [hwx]
    apply Complex.ext
    · rw [Complex.log_re, Complex.norm_def, Complex.normSq_mk]
    · rw [Complex.log_im]
  have hlogS : Complex.log (lzS w) = ⟨1 / 2 * Real.log ((lanczosSum x y).1 * -y * ((lanczosSum x y).1 * -y) +
      (lanczosSum x y).2 * (lanczosSum x y).2), Complex.arg ⟨(lanczosSum x y).2, (lanczosSum x y).1 * -y⟩⟩ := by
    rw [← hS]
    apply Complex.ext
    · rw [Complex.log_re, Complex.norm_def, Complex.normSq_mk, Real.log_sqrt (add_nonneg (mul_self_nonneg _) (mul_self_nonneg _)), add_comm]
      ring
    · rw [Complex.log_im]
  have hκ : ((1 / 2 * Real.log (2 * PI) : ℝ) : ℂ) = Complex.log ((√(2 * PI) : ℝ) : ℂ) := by
    rw [← Complex.ofReal_log (Real.sqrt_nonneg _), Real.log_sqrt (by positivity)]
    congr 1
    ring
  have hcore : (lnCore x y).toC = (w - 1 / 2) * Complex.log (w + 9 / 2) - (w + 9 / 2) +
      ((1 / 2 * Real.log (2 * PI) : ℝ) : ℂ) + Complex.log (lzS w) := by
    rw [hlog, hlogS, hwx]
    have hw2 : w - 1 / 2 = ⟨x + 1 / 2, y⟩ := by
      apply Complex.ext
      · rw [Complex.sub_re]; norm_num [hw]; ring
      · rw [Complex.sub_im]; norm_num [hw]
    rw [hw2]
    apply Complex.ext
    · simp only [lnCore, Cpx.toC_re, Complex.add_re, Complex.sub_re, Complex.mul_re, Complex.ofReal_re,
        sqrt_real, log_real, e1, e2, e3]
      show _ + (-y * Complex.arg ⟨x + 11 / 2, y⟩ - _ + _) + _ = _
      ring
    · simp only [lnCore, Cpx.toC_im, Complex.add_im, Complex.sub_im, Complex.mul_im, Complex.ofReal_im,
        sqrt_real, log_real, e1, e2]
      show _ + (_ * Complex.arg ⟨x + 11 / 2, y⟩ - y) + Complex.arg ⟨_, _⟩ = _
      ring
  have hsq : ((√(2 * PI) : ℝ) : ℂ) ≠ 0 := by
    have : (√(2 * PI) : ℝ) ≠ 0 := (Real.sqrt_pos.mpr (by positivity)).ne'
    exact_mod_cast this
  rw [hcore, Complex.exp_add, Complex.exp_add, Complex.exp_log hSne, hκ, Complex.exp_log hsq, lzF]
  ring

theorem lngamma_right (z : Cpx ℝ) (hz : 0 < z.re) : lngamma z = lnCore (z.re - 1) z.im := by
  have e0 : (0.0 : ℝ) = 0 := by norm_num
  have e1 : (1.0 : ℝ) = 1 := by norm_num
  have h1 : Scalar.lt (0.0 : ℝ) z.re = true := by rw [lt_real, e0]; exact hz
  have h2 : ¬ Scalar.lt z.re (0.0 : ℝ) = true := by rw [lt_real, e0]; exact not_lt.mpr hz.le
  unfold lngamma
  dsimp only
  rw [if_neg h2]
  simp only [Scalar.gt, h1, if_true, e1]
  rfl

theorem lngamma_left (z : Cpx ℝ) (hz : z.re < 0) :
    lngamma z = (⟨Real.log PI, 0⟩ : Cpx ℝ) - (lnCore (-z.re) (-z.im) + (Cpx.smul PI z).sin.log) := by
  have e0 : (0.0 : ℝ) = 0 := by norm_num
  have h1 : Scalar.lt (0.0 : ℝ) z.re = false := by
    rw [Bool.eq_false_iff, ne_eq, lt_real, e0]; exact not_lt.mpr hz.le
  have h2 : Scalar.lt z.re (0.0 : ℝ) = true := by rw [lt_real, e0]; exact hz
  unfold lngamma
  dsimp only
  rw [if_pos h2]
  simp only [Scalar.gt, h1, if_false, Bool.false_eq_true]
  rw [e0]
  rfl

theorem lngamma_axis (z : Cpx ℝ) (hz : z.re = 0) : lngamma z = lnCore 0 (-z.im) := by
  have e0 : (0.0 : ℝ) = 0 := by norm_num
  have h1 : Scalar.lt (0.0 : ℝ) z.re = false := by
    rw [Bool.eq_false_iff, ne_eq, lt_real, e0, hz]; exact lt_irrefl _
  have h2 : ¬ Scalar.lt z.re (0.0 : ℝ) = true := by rw [lt_real, e0, hz]; exact lt_irrefl _
  unfold lngamma
  dsimp only
  rw [if_neg h2]
  simp only [Scalar.gt, h1, if_false, Bool.false_eq_true]
  rw [hz, neg_zero]
  rfl

/-- The constant of the library for `π`. -/
theorem PI_close : |(PI : ℝ) / Real.pi - 1| ≤ 1e-19 := by
  have h1 := Real.pi_gt_d20
  have h2 := Real.pi_lt_d20
  have hp := Real.pi_pos
  have h3 : (PI : ℝ) = 3.1415926535897932384626433832795 := rfl
  rw [div_sub_one hp.ne', abs_div, abs_of_pos hp, div_le_iff₀ hp, h3, abs_le]
  constructor
  · norm_num at *; linarith
  · norm_num at *; linarith

/-- The relative error of the Lanczos formula. -/
theorem lzF_error (w : ℂ) (hw : 0 < w.re) :
    ‖lzF (√(2 * PI)) w - Complex.Gamma w‖ ≤ 1.7e-8 * ‖Complex.Gamma w‖ := by
  have hPI : (0 : ℝ) < PI := by unfold PI; norm_num
  have hΓ := Complex.Gamma_ne_zero_of_re_pos hw
  have h := lzF_Gamma (√(2 * PI)) (Real.sqrt_pos.mpr (by positivity)) w hw
  set s : ℝ := √(2 * PI) / (√Real.pi * √2) with hs
  have hsv : s = √(PI / Real.pi) := by
    rw [hs, ← Real.sqrt_mul Real.pi_pos.le, ← Real.sqrt_div (by positivity)]
    congr 1
    field_simp
  have hs1 : |s - 1| ≤ 1e-12 := by
    have hc := PI_close
    rw [abs_le] at hc ⊢
    have hpos : 0 ≤ PI / Real.pi := div_nonneg hPI.le Real.pi_pos.le
    have hsq := Real.sq_sqrt hpos
    rw [← hsv] at hsq
    have hs0 : 0 ≤ s := by rw [hsv]; exact Real.sqrt_nonneg _
    constructor
    · nlinarith
    · nlinarith
  have hexp : Real.exp 1.6e-8 - 1 ≤ 1.61e-8 := by
    have := Real.abs_exp_sub_one_sub_id_le (x := 1.6e-8) (by rw [abs_le]; constructor <;> norm_num)
    rw [abs_le] at this
    norm_num at *
    linarith
  set L : ℂ := (s : ℂ) * 1.000000000190015 with hL
  have hs0 : 0.9 ≤ s ∧ s ≤ 1.1 := by
    rw [abs_le] at hs1; constructor <;> norm_num at * <;> linarith
  have hLne : L ≠ 0 := by
    rw [hL]
    apply mul_ne_zero
    · have : s ≠ 0 := by linarith [hs0.1]
      exact_mod_cast this
    · norm_num
  have hL1 : ‖L - 1‖ ≤ 2e-10 := by
    have : L - 1 = ((s * 1.000000000190015 - 1 : ℝ) : ℂ) := by
      rw [hL]; push_cast; ring
    rw [this, Complex.norm_real, Real.norm_eq_abs, abs_le]
    rw [abs_le] at hs1
    constructor <;> norm_num at * <;> linarith
  have hLn : ‖L‖ ≤ 1 + 2e-10 := by
    have := norm_add_le (L - 1) 1
    rw [sub_add_cancel, norm_one] at this
    linarith
  have hq : lzF (√(2 * PI)) w - Complex.Gamma w =
      (L * (lzF (√(2 * PI)) w / (L * Complex.Gamma w) - 1) + (L - 1)) * Complex.Gamma w := by
    field_simp
    ring
  rw [hq, norm_mul]
  apply mul_le_mul_of_nonneg_right _ (norm_nonneg _)
  refine le_trans (norm_add_le _ _) ?_
  rw [norm_mul]
  have h1 := mul_le_mul hLn (le_trans h hexp) (norm_nonneg _) (by norm_num)
  norm_num at *
  linarith

/-- C93, what holds: in the right half plane, `lngamma` is a logarithm of `Γ` up to a relative
error of `1.7e-8`. -/
theorem lngamma_right_partial (z : Cpx ℝ) (hz : 0 < z.re) :
    ‖Complex.exp (lngamma z).toC - Complex.Gamma z.toC‖ ≤ 1.7e-8 * ‖Complex.Gamma z.toC‖ := by
  rw [lngamma_right z hz, lnCore_exp _ _ (by linarith), sub_add_cancel]
  exact lzF_error z.toC hz

/-- C93, what holds, in the left half plane: `exp (lngamma z)` is the reflection
`PI / (Γ (1 - z) sin (PI z))` up to the same error; with the exact `π` in place of the constant `PI` of the
library this is `Γ z`. -/
theorem lngamma_left_partial (z : Cpx ℝ) (hz : z.re < 0) (hsin : Complex.sin ((PI : ℝ) * z.toC) ≠ 0) :
    ‖Complex.exp (lngamma z).toC * Complex.sin ((PI : ℝ) * z.toC) * Complex.Gamma (1 - z.toC) - (PI : ℝ)‖ ≤
      1.8e-8 * PI := by
  have hPI : (0 : ℝ) < PI := by unfold PI; norm_num
  have hw : (⟨-z.re + 1, -z.im⟩ : ℂ) = 1 - z.toC := by
    apply Complex.ext
    · rw [Complex.sub_re, Complex.one_re, Cpx.toC_re]; ring
    · rw [Complex.sub_im, Complex.one_im, Cpx.toC_im]; ring
  have hre : 0 < (1 - z.toC).re := by
    rw [Complex.sub_re, Complex.one_re, Cpx.toC_re]; linarith
  have hE := lzF_error _ hre
  have hF := lzF_ne (√(2 * PI)) (Real.sqrt_pos.mpr (by positivity)).ne' _ hre
  have hΓ := Complex.Gamma_ne_zero_of_re_pos hre
  have h : Complex.exp (lngamma z).toC = (PI : ℝ) / (lzF (√(2 * PI)) (1 - z.toC) * Complex.sin ((PI : ℝ) * z.toC)) := by
    rw [lngamma_left z hz, Cpx.toC_sub, Cpx.toC_add, Complex.exp_sub, Complex.exp_add,
      lnCore_exp _ _ (by linarith), hw, Cpx.toC_log, Cpx.toC_sin, Cpx.toC_smul, Complex.exp_log hsin]
    congr 1
    have : (⟨Real.log PI, 0⟩ : Cpx ℝ).toC = ((Real.log PI : ℝ) : ℂ) := rfl
    rw [this, ← Complex.ofReal_exp, Real.exp_log hPI]
  rw [h]
  generalize Complex.Gamma (1 - z.toC) = G at *
  generalize lzF (√(2 * PI)) (1 - z.toC) = F at *
  have e : (PI : ℝ) / (F * Complex.sin ((PI : ℝ) * z.toC)) * Complex.sin ((PI : ℝ) * z.toC) * G - (PI : ℝ) =
      (PI : ℝ) * (-(F - G) / F) := by
    field_simp
    ring
  rw [e, norm_mul, Complex.norm_real, Real.norm_eq_abs, abs_of_pos hPI, mul_comm]
  apply mul_le_mul_of_nonneg_right _ hPI.le
  rw [norm_div, norm_neg, div_le_iff₀ (norm_pos_iff.mpr hF)]
  have h1 : ‖G‖ ≤ ‖F‖ + ‖F - G‖ := by
    have := norm_sub_le F (F - G)
    rwa [sub_sub_cancel] at this
  have h2 : ‖F - G‖ * (1 - 1.7e-8) ≤ 1.7e-8 * ‖F‖ := by nlinarith
  norm_num at *
  nlinarith [norm_nonneg F]

/-- C93 for real arguments: `lngamma x` is the real number `log (Γ x)` up to `2e-8`. -/
theorem lngamma_real (x : ℝ) (hx : 0 < x) :
    |(lngamma (⟨x, 0⟩ : Cpx ℝ)).re - Real.log (Real.Gamma x)| ≤ 2e-8 := by
  have h := lngamma_right_partial ⟨x, 0⟩ hx
  have hz : (⟨x, 0⟩ : Cpx ℝ).toC = (x : ℂ) := rfl
  rw [hz, Complex.Gamma_ofReal] at h
  have hG := Real.Gamma_pos_of_pos hx
  have hn : ‖((Real.Gamma x : ℝ) : ℂ)‖ = Real.Gamma x := by
    rw [Complex.norm_real, Real.norm_eq_abs, abs_of_pos hG]
  rw [hn] at h
  set E := Complex.exp (lngamma (⟨x, 0⟩ : Cpx ℝ)).toC with hEdef
  have hE : ‖E‖ = Real.exp (lngamma (⟨x, 0⟩ : Cpx ℝ)).re := by rw [hEdef, Complex.norm_exp]; rfl
  have h1 := abs_norm_sub_norm_le E ((Real.Gamma x : ℝ) : ℂ)
  rw [hE, hn] at h1
  set r := (lngamma (⟨x, 0⟩ : Cpx ℝ)).re
  have hr : Real.exp (r - Real.log (Real.Gamma x)) = Real.exp r / Real.Gamma x := by
    rw [Real.exp_sub, Real.exp_log hG]
  have h2 := abs_le.mp (le_trans h1 h)
  have hlo : 1 - 1.7e-8 ≤ Real.exp r / Real.Gamma x := by
    rw [le_div_iff₀ hG]; linarith [h2.1]
  have hhi : Real.exp r / Real.Gamma x ≤ 1 + 1.7e-8 := by
    rw [div_le_iff₀ hG]; linarith [h2.2]
  rw [← hr] at hlo hhi
  have a1 := Real.add_one_le_exp (r - Real.log (Real.Gamma x))
  have a2 := Real.add_one_le_exp (-(r - Real.log (Real.Gamma x)))
  have a3 : Real.exp (r - Real.log (Real.Gamma x)) * Real.exp (-(r - Real.log (Real.Gamma x))) = 1 := by
    rw [← Real.exp_add]; simp
  have hp := Real.exp_pos (-(r - Real.log (Real.Gamma x)))
  rw [abs_le]
  constructor
  · have : Real.exp (-(r - Real.log (Real.Gamma x))) ≤ 1 + 2e-8 := by
      norm_num at *
      nlinarith
    norm_num at *
    linarith
  · norm_num at *
    linarith

/-- C93 is refuted on the imaginary axis, which is treated neither as the right nor as the left half
plane: `lngamma (2i)` is larger than `log (Γ (2i))` by `log 2` up to the error above. -/
theorem lngamma_axis_wrong :
    1.99 * ‖Complex.Gamma (2 * Complex.I)‖ ≤ ‖Complex.exp (lngamma (⟨0, 2⟩ : Cpx ℝ)).toC‖ := by
  rw [lngamma_axis ⟨0, 2⟩ rfl, lnCore_exp _ _ (by norm_num)]
  have hw : (⟨0 + 1, -2⟩ : ℂ) = 1 - 2 * Complex.I := by
    apply Complex.ext <;> simp
  show _ ≤ ‖lzF (√(2 * PI)) ⟨0 + 1, -2⟩‖
  rw [hw]
  have hE := lzF_error (1 - 2 * Complex.I) (by simp)
  have hconj : Complex.Gamma (1 - 2 * Complex.I) = (starRingEnd ℂ) (Complex.Gamma (1 + 2 * Complex.I)) := by
    rw [← Complex.Gamma_conj]
    congr 1
    apply Complex.ext <;> simp
  have hrec : Complex.Gamma (2 * Complex.I + 1) = 2 * Complex.I * Complex.Gamma (2 * Complex.I) :=
    Complex.Gamma_add_one _ (by simp)
  have hn : ‖Complex.Gamma (1 - 2 * Complex.I)‖ = 2 * ‖Complex.Gamma (2 * Complex.I)‖ := by
    rw [hconj, Complex.norm_conj, add_comm, hrec, norm_mul, norm_mul, Complex.norm_I]
    norm_num
  have h1 : ‖Complex.Gamma (1 - 2 * Complex.I)‖ ≤ ‖lzF (√(2 * PI)) (1 - 2 * Complex.I)‖ +
      ‖lzF (√(2 * PI)) (1 - 2 * Complex.I) - Complex.Gamma (1 - 2 * Complex.I)‖ := by
    have := norm_sub_le (lzF (√(2 * PI)) (1 - 2 * Complex.I))
      (lzF (√(2 * PI)) (1 - 2 * Complex.I) - Complex.Gamma (1 - 2 * Complex.I))
    rwa [sub_sub_cancel] at this
  rw [hn] at h1 hE
  have h0 := norm_nonneg (Complex.Gamma (2 * Complex.I))
  generalize ‖Complex.Gamma (2 * Complex.I)‖ = g at *
  generalize ‖lzF (√(2 * PI)) (1 - 2 * Complex.I)‖ = a at *
  generalize ‖lzF (√(2 * PI)) (1 - 2 * Complex.I) - Complex.Gamma (1 - 2 * Complex.I)‖ = b at *
  norm_num at hE ⊢
  linarith

/-- `Γ (2i)` is not zero, so the factor is not vacuous; and an argument of the phase shifts, on the right. -/
example : Complex.Gamma (2 * Complex.I) ≠ 0 := by
  apply Complex.Gamma_ne_zero
  intro m h
  have := congrArg Complex.im h
  simp at this

example : |(lngamma (⟨5, 0⟩ : Cpx ℝ)).re - Real.log 24| ≤ 2e-8 := by
  have h := lngamma_real 5 (by norm_num)
  have : Real.Gamma 5 = 24 := by
    have := Real.Gamma_nat_eq_factorial 4
    rw [show ((4 : ℕ) : ℝ) + 1 = 5 by norm_num] at this
    rw [this]
    norm_num [Nat.factorial]
  rwa [this] at h

end Catima
