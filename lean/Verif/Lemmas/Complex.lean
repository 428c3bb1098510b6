import Verif.Model.Complex
import Verif.Lemmas.RealScalar
import Mathlib.Analysis.SpecialFunctions.Complex.Log
import Mathlib.Analysis.Complex.Trigonometric

/-!
# Helper lemmas: `std::complex<double>` over `ℝ` is `ℂ`
-/

namespace Catima

noncomputable instance : TrigScalar ℝ where
  sin := Real.sin
  cos := Real.cos
  sinh := Real.sinh
  cosh := Real.cosh
  atan2 y x := Complex.arg ⟨x, y⟩

namespace Cpx

/-- The complex number that a pair stands for. -/
def toC (z : Cpx ℝ) : ℂ := ⟨z.re, z.im⟩

@[simp] theorem toC_re (z : Cpx ℝ) : z.toC.re = z.re := rfl
@[simp] theorem toC_im (z : Cpx ℝ) : z.toC.im = z.im := rfl

theorem toC_inj (z w : Cpx ℝ) (h : z.toC = w.toC) : z = w := by
  cases z; cases w
  simp only [toC, Complex.mk.injEq] at h
  rw [h.1, h.2]

theorem toC_add (z w : Cpx ℝ) : (z + w).toC = z.toC + w.toC := rfl

theorem toC_sub (z w : Cpx ℝ) : (z - w).toC = z.toC - w.toC := rfl

theorem toC_mul (z w : Cpx ℝ) : (z * w).toC = z.toC * w.toC := by
  apply Complex.ext
  · rfl
  · rfl

theorem toC_div (z w : Cpx ℝ) : (z / w).toC = z.toC / w.toC := by
  have hn : Complex.normSq w.toC = w.re * w.re + w.im * w.im := rfl
  apply Complex.ext
  · rw [Complex.div_re, hn, ← add_div]; rfl
  · rw [Complex.div_im, hn, ← sub_div]; rfl

theorem toC_smul (x : ℝ) (z : Cpx ℝ) : (smul x z).toC = x * z.toC := by
  apply Complex.ext
  · rw [Complex.re_ofReal_mul]; rfl
  · rw [Complex.im_ofReal_mul]; rfl

theorem toC_sdiv (z : Cpx ℝ) (x : ℝ) : (z.sdiv x).toC = z.toC / x := by
  apply Complex.ext
  · rw [Complex.div_ofReal_re]; rfl
  · rw [Complex.div_ofReal_im]; rfl

theorem abs_real (z : Cpx ℝ) : z.abs = ‖z.toC‖ := by
  rw [Complex.norm_def, Complex.normSq_apply]
  rfl

theorem arg_real (z : Cpx ℝ) : z.arg = Complex.arg z.toC := rfl

theorem toC_exp (z : Cpx ℝ) : z.exp.toC = Complex.exp z.toC := by
  apply Complex.ext
  · rw [Complex.exp_re]; rfl
  · rw [Complex.exp_im]; rfl

theorem toC_log (z : Cpx ℝ) : z.log.toC = Complex.log z.toC := by
  apply Complex.ext
  · rw [Complex.log_re, ← abs_real]; rfl
  · rw [Complex.log_im]; rfl

theorem toC_sin (z : Cpx ℝ) : z.sin.toC = Complex.sin z.toC := by
  have h : z.toC = (z.re : ℂ) + z.im * Complex.I := (Complex.re_add_im z.toC).symm
  rw [h, Complex.sin_add_mul_I]
  apply Complex.ext
  · simp [toC, sin, ← Complex.ofReal_sin, ← Complex.ofReal_cos, ← Complex.ofReal_sinh, ← Complex.ofReal_cosh]
    rfl
  · simp [toC, sin, ← Complex.ofReal_sin, ← Complex.ofReal_cos, ← Complex.ofReal_sinh, ← Complex.ofReal_cosh]
    rfl

end Cpx
end Catima
