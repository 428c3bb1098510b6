import Mathlib.Analysis.Complex.Basic
import Mathlib.Analysis.Calculus.Deriv.Mul
import Mathlib.Analysis.Calculus.Deriv.Add
import Mathlib.Analysis.Calculus.Deriv.Pow
import Mathlib.Tactic.LinearCombination
import Mathlib.Analysis.Complex.PhragmenLindelof

/-!
# Helper lemmas: polynomials with integer coefficients as lists, and a test that decides
`‖f z‖ ≤ C ‖g z‖` for all `z` with non-negative real part
-/

namespace Catima.Poly

/-- The polynomial with the listed coefficients, lowest first. -/
def pev (l : List ℤ) (z : ℂ) : ℂ := l.foldr (fun c r => (c : ℂ) + z * r) 0

def padd : List ℤ → List ℤ → List ℤ
  | [], m => m
  | l, [] => l
  | a :: l, b :: m => (a + b) :: padd l m

def pscale (c : ℤ) (l : List ℤ) : List ℤ := l.map (c * ·)

def pmul : List ℤ → List ℤ → List ℤ
  | [], _ => []
  | a :: l, m => padd (pscale a m) (0 :: pmul l m)

/-- Coefficients of the derivative; `n` is the exponent of the first. -/
def pderAux : ℤ → List ℤ → List ℤ
  | _, [] => []
  | n, a :: l => n * a :: pderAux (n + 1) l

def pder (l : List ℤ) : List ℤ := pderAux 1 l.tail

@[simp] theorem pev_nil (z : ℂ) : pev [] z = 0 := rfl
@[simp] theorem pev_cons (a : ℤ) (l : List ℤ) (z : ℂ) : pev (a :: l) z = a + z * pev l z := rfl

theorem pev_add (l m : List ℤ) (z : ℂ) : pev (padd l m) z = pev l z + pev m z := by
  induction l generalizing m with
  | nil => simp [padd]
  | cons a l ih =>
    cases m with
    | nil => simp [padd]
    | cons b m => simp only [padd, pev_cons, ih]; push_cast; ring

theorem pev_scale (c : ℤ) (l : List ℤ) (z : ℂ) : pev (pscale c l) z = c * pev l z := by
  induction l with
  | nil => simp [pscale]
  | cons a l ih =>
    have : pev (pscale c (a :: l)) z = (c * a : ℤ) + z * pev (pscale c l) z := rfl
    rw [this, ih, pev_cons]; push_cast; ring

theorem pev_mul (l m : List ℤ) (z : ℂ) : pev (pmul l m) z = pev l z * pev m z := by
  induction l with
  | nil => simp [pmul]
  | cons a l ih => simp only [pmul, pev_add, pev_scale, pev_cons, ih]; push_cast; ring

theorem pev_derAux (n : ℕ) (l : List ℤ) (z : ℂ) :
    HasDerivAt (fun z => z ^ (n + 1) * pev l z) (z ^ n * pev (pderAux (n + 1) l) z) z := by
  induction l generalizing n with
  | nil => simpa [pderAux] using hasDerivAt_const z (0 : ℂ)
  | cons a l ih =>
    have h1 : HasDerivAt (fun z : ℂ => z ^ (n + 1) * (a : ℂ)) (((n + 1 : ℕ) : ℂ) * z ^ n * a) z := by
      simpa using (hasDerivAt_pow (n + 1) z).mul_const (a : ℂ)
    have h2 := HasDerivAt.add h1 (ih (n + 1))
    refine HasDerivAt.congr_deriv (HasDerivAt.congr_of_eventuallyEq h2
      (Filter.Eventually.of_forall fun w => ?_)) ?_
    · simp only [pev_cons, Pi.add_apply]; ring
    · simp only [pderAux, pev_cons]; push_cast; ring

theorem pev_hasDerivAt (l : List ℤ) (z : ℂ) : HasDerivAt (pev l) (pev (pder l) z) z := by
  cases l with
  | nil => exact hasDerivAt_const z (0 : ℂ)
  | cons a l =>
    have h := HasDerivAt.const_add (a : ℂ) (pev_derAux 0 l z)
    refine HasDerivAt.congr_deriv (HasDerivAt.congr_of_eventuallyEq h
      (Filter.Eventually.of_forall fun w => ?_)) ?_
    · simp
    · simp [pder]

/-! Polynomials in `x` and `u = y²`: lists of lists. -/

def rev (l : List ℤ) (u : ℝ) : ℝ := l.foldr (fun c r => (c : ℝ) + u * r) 0
def bev (l : List (List ℤ)) (x u : ℝ) : ℝ := l.foldr (fun c r => rev c u + x * r) 0

@[simp] theorem rev_nil (u : ℝ) : rev [] u = 0 := rfl
@[simp] theorem rev_cons (a : ℤ) (l : List ℤ) (u : ℝ) : rev (a :: l) u = a + u * rev l u := rfl
@[simp] theorem bev_nil (x u : ℝ) : bev [] x u = 0 := rfl
@[simp] theorem bev_cons (a : List ℤ) (l : List (List ℤ)) (x u : ℝ) :
    bev (a :: l) x u = rev a u + x * bev l x u := rfl

theorem rev_add (l m : List ℤ) (u : ℝ) : rev (padd l m) u = rev l u + rev m u := by
  induction l generalizing m with
  | nil => simp [padd]
  | cons a l ih =>
    cases m with
    | nil => simp [padd]
    | cons b m => simp only [padd, rev_cons, ih]; push_cast; ring

theorem rev_scale (c : ℤ) (l : List ℤ) (u : ℝ) : rev (pscale c l) u = c * rev l u := by
  induction l with
  | nil => simp [pscale]
  | cons a l ih =>
    have : rev (pscale c (a :: l)) u = (c * a : ℤ) + u * rev (pscale c l) u := rfl
    rw [this, ih, rev_cons]; push_cast; ring

theorem rev_mul (l m : List ℤ) (u : ℝ) : rev (pmul l m) u = rev l u * rev m u := by
  induction l with
  | nil => simp [pmul]
  | cons a l ih => simp only [pmul, rev_add, rev_scale, rev_cons, ih]; push_cast; ring

def badd : List (List ℤ) → List (List ℤ) → List (List ℤ)
  | [], m => m
  | l, [] => l
  | a :: l, b :: m => padd a b :: badd l m

/-- Multiply each coefficient by a polynomial in `u`. -/
def bscale (c : List ℤ) (l : List (List ℤ)) : List (List ℤ) := l.map (pmul c)

def bmul : List (List ℤ) → List (List ℤ) → List (List ℤ)
  | [], _ => []
  | a :: l, m => badd (bscale a m) ([] :: bmul l m)

theorem bev_add (l m : List (List ℤ)) (x u : ℝ) : bev (badd l m) x u = bev l x u + bev m x u := by
  induction l generalizing m with
  | nil => simp [badd]
  | cons a l ih =>
    cases m with
    | nil => simp [badd]
    | cons b m => simp only [badd, bev_cons, ih, rev_add]; ring

theorem bev_scale (c : List ℤ) (l : List (List ℤ)) (x u : ℝ) :
    bev (bscale c l) x u = rev c u * bev l x u := by
  induction l with
  | nil => simp [bscale]
  | cons a l ih =>
    have : bev (bscale c (a :: l)) x u = rev (pmul c a) u + x * bev (bscale c l) x u := rfl
    rw [this, ih, bev_cons, rev_mul]; ring

theorem bev_mul (l m : List (List ℤ)) (x u : ℝ) : bev (bmul l m) x u = bev l x u * bev m x u := by
  induction l with
  | nil => simp [bmul]
  | cons a l ih => simp only [bmul, bev_add, bev_scale, bev_cons, ih, rev_nil]; ring

/-- `f (x + i y) = A x y² + i y B x y²`, by Horner's scheme. -/
def split : List ℤ → List (List ℤ) × List (List ℤ)
  | [] => ([], [])
  | c :: l =>
    let AB := split l
    (badd (badd [[c]] ([] :: AB.1)) (bscale [0, -1] AB.2), badd ([] :: AB.2) AB.1)

theorem split_spec (l : List ℤ) (x y : ℝ) :
    pev l ⟨x, y⟩ = ⟨bev (split l).1 x (y ^ 2), y * bev (split l).2 x (y ^ 2)⟩ := by
  induction l with
  | nil => simp [split, Complex.ext_iff]
  | cons c l ih =>
    rw [pev_cons, ih]
    apply Complex.ext
    · simp only [split, Complex.add_re, Complex.intCast_re, Complex.mul_re, bev_add, bev_cons, bev_nil,
        bev_scale, rev_cons, rev_nil]
      push_cast; ring
    · simp only [split, Complex.add_im, Complex.intCast_im, Complex.mul_im, bev_add, bev_cons,
        rev_nil]
      ring

/-- `‖f (x + i y)‖²` as a polynomial in `x` and `y²`. -/
def nsq (l : List ℤ) : List (List ℤ) :=
  let AB := split l
  badd (bmul AB.1 AB.1) (bscale [0, 1] (bmul AB.2 AB.2))

theorem nsq_spec (l : List ℤ) (z : ℂ) : bev (nsq l) z.re (z.im ^ 2) = ‖pev l z‖ ^ 2 := by
  have h := split_spec l z.re z.im
  have hz : (⟨z.re, z.im⟩ : ℂ) = z := rfl
  rw [hz] at h
  rw [h, ← Complex.normSq_eq_norm_sq, Complex.normSq_mk]
  simp only [nsq, bev_add, bev_mul, bev_scale, rev_cons, rev_nil]
  push_cast; ring

/-- All coefficients are non-negative. -/
def bnonneg (l : List (List ℤ)) : Bool := l.all fun m => m.all fun c => decide (0 ≤ c)

theorem rev_nonneg (l : List ℤ) (h : (l.all fun c => decide (0 ≤ c)) = true) (u : ℝ) (hu : 0 ≤ u) :
    0 ≤ rev l u := by
  induction l with
  | nil => simp
  | cons a l ih =>
    rw [List.all_cons, Bool.and_eq_true, decide_eq_true_iff] at h
    rw [rev_cons]
    have h1 : (0 : ℝ) ≤ a := by exact_mod_cast h.1
    have := mul_nonneg hu (ih h.2)
    linarith

theorem bev_nonneg (l : List (List ℤ)) (h : bnonneg l = true) (x u : ℝ) (hx : 0 ≤ x) (hu : 0 ≤ u) :
    0 ≤ bev l x u := by
  induction l with
  | nil => simp
  | cons a l ih =>
    rw [bnonneg, List.all_cons, Bool.and_eq_true] at h
    rw [bev_cons]
    have := mul_nonneg hx (ih h.2)
    have := rev_nonneg a h.1 u hu
    linarith

/-- `r ‖f z‖² ≤ s ‖g z‖²` holds in the right half plane if all coefficients of the difference are
non-negative. -/
def dominated (r s : ℤ) (f g : List ℤ) : Bool :=
  bnonneg (badd (bscale [s] (nsq g)) (bscale [-r] (nsq f)))

theorem dominated_spec (r s : ℤ) (f g : List ℤ) (h : dominated r s f g = true) (z : ℂ) (hz : 0 ≤ z.re) :
    r * ‖pev f z‖ ^ 2 ≤ s * ‖pev g z‖ ^ 2 := by
  have := bev_nonneg _ h z.re (z.im ^ 2) hz (sq_nonneg _)
  rw [bev_add, bev_scale, bev_scale, nsq_spec, nsq_spec] at this
  simp only [rev_cons, rev_nil] at this
  push_cast at this
  linarith

/-! For polynomials of higher degree: compare them on the imaginary axis, and conclude with the
Phragmén-Lindelöf principle. -/

/-- `f (i y) = A y² + i y B y²` -/
def splitI : List ℤ → List ℤ × List ℤ
  | [] => ([], [])
  | c :: l => let AB := splitI l; (c :: pscale (-1) AB.2, AB.1)

theorem splitI_spec (l : List ℤ) (y : ℝ) :
    pev l (y * Complex.I) = ⟨rev (splitI l).1 (y ^ 2), y * rev (splitI l).2 (y ^ 2)⟩ := by
  induction l with
  | nil => simp [splitI, Complex.ext_iff]
  | cons c l ih =>
    rw [pev_cons, ih]
    apply Complex.ext
    · simp only [splitI, Complex.add_re, Complex.intCast_re, Complex.mul_re, Complex.mul_im, rev_cons,
        rev_scale, Complex.ofReal_re, Complex.ofReal_im, Complex.I_re, Complex.I_im]
      push_cast; ring
    · simp only [splitI, Complex.add_im, Complex.intCast_im, Complex.mul_re, Complex.mul_im,
        Complex.ofReal_re, Complex.ofReal_im, Complex.I_re, Complex.I_im]
      ring

/-- `‖f (i y)‖²` as a polynomial in `y²`. -/
def nsqI (l : List ℤ) : List ℤ :=
  let AB := splitI l
  padd (pmul AB.1 AB.1) (0 :: pmul AB.2 AB.2)

theorem nsqI_spec (l : List ℤ) (y : ℝ) : rev (nsqI l) (y ^ 2) = ‖pev l (y * Complex.I)‖ ^ 2 := by
  rw [splitI_spec, ← Complex.normSq_eq_norm_sq, Complex.normSq_mk]
  simp only [nsqI, rev_add, rev_mul, rev_cons]
  push_cast; ring

def pnonneg (l : List ℤ) : Bool := l.all fun c => decide (0 ≤ c)

/-- The coefficients of `s ‖g (i y)‖² - r ‖f (i y)‖²`, of `K g - f` and of `K g + f` are
non-negative. -/
def dominatedI (r s K : ℤ) (f g : List ℤ) : Bool :=
  pnonneg (padd (pscale s (nsqI g)) (pscale (-r) (nsqI f))) &&
    pnonneg (padd (pscale K g) f) && pnonneg (padd (pscale K g) (pscale (-1) f))

theorem pev_real (l : List ℤ) (x : ℝ) : pev l x = (rev l x : ℝ) := by
  induction l with
  | nil => simp
  | cons a l ih => rw [pev_cons, ih, rev_cons]; push_cast; ring

theorem pev_differentiable (l : List ℤ) : Differentiable ℂ (pev l) := fun z =>
  (pev_hasDerivAt l z).differentiableAt

/-- A polynomial grows at most like the exponential function. -/
theorem pev_growth (l : List ℤ) : ∃ M : ℝ, 0 ≤ M ∧ ∀ z, ‖pev l z‖ ≤ M * Real.exp ‖z‖ := by
  suffices h : ∀ n : ℕ, ∃ M : ℝ, 0 ≤ M ∧ ∀ z, ‖z‖ ^ n * ‖pev l z‖ ≤ M * Real.exp ‖z‖ by
    obtain ⟨M, h0, h⟩ := h 0
    exact ⟨M, h0, fun z => by simpa using h z⟩
  induction l with
  | nil => exact fun n => ⟨0, le_rfl, fun z => by simp⟩
  | cons a l ih =>
    intro n
    obtain ⟨M, h0, h⟩ := ih (n + 1)
    refine ⟨|(a : ℝ)| * n.factorial + M, by positivity, fun z => ?_⟩
    have h1 : ‖z‖ ^ n ≤ n.factorial * Real.exp ‖z‖ := by
      have := Real.pow_div_factorial_le_exp ‖z‖ (norm_nonneg z) n
      rw [div_le_iff₀ (by positivity)] at this
      linarith
    calc ‖z‖ ^ n * ‖pev (a :: l) z‖ ≤ ‖z‖ ^ n * (‖(a : ℂ)‖ + ‖z‖ * ‖pev l z‖) := by
          apply mul_le_mul_of_nonneg_left _ (by positivity)
          rw [pev_cons, ← norm_mul]
          exact norm_add_le _ _
      _ = |(a : ℝ)| * ‖z‖ ^ n + ‖z‖ ^ (n + 1) * ‖pev l z‖ := by
          rw [Complex.norm_intCast]; ring
      _ ≤ |(a : ℝ)| * (n.factorial * Real.exp ‖z‖) + M * Real.exp ‖z‖ :=
          add_le_add (mul_le_mul_of_nonneg_left h1 (abs_nonneg _)) (h z)
      _ = _ := by ring

/-- `‖f z‖ ≤ C ‖g z‖` in the right half plane, from the test on the axes. -/
theorem dominatedI_spec (r s K : ℤ) (f g : List ℤ) (hr : 0 < r) (h : dominatedI r s K f g = true)
    (hg : ∀ z : ℂ, 0 ≤ z.re → 1 ≤ ‖pev g z‖) (C : ℝ) (hC : 0 ≤ C) (hCs : (s : ℝ) ≤ C ^ 2 * r)
    (z : ℂ) (hz : 0 ≤ z.re) : ‖pev f z‖ ≤ C * ‖pev g z‖ := by
  rw [dominatedI, Bool.and_eq_true, Bool.and_eq_true] at h
  obtain ⟨⟨h1, h2⟩, h3⟩ := h
  have hr' : (0 : ℝ) < r := by exact_mod_cast hr
  have hne : ∀ z : ℂ, 0 ≤ z.re → pev g z ≠ 0 := fun z hz h => by
    have := hg z hz
    rw [h, norm_zero] at this
    linarith
  obtain ⟨M, hM0, hM⟩ := pev_growth f
  have key : ‖pev f z / pev g z‖ ≤ C := by
    apply PhragmenLindelof.right_half_plane_of_bounded_on_real (f := fun z => pev f z / pev g z)
    · apply DifferentiableOn.diffContOnCl
      rw [Complex.closure_setOf_lt_re]
      exact (pev_differentiable f).differentiableOn.div (pev_differentiable g).differentiableOn
        (fun w hw => hne w hw)
    · refine ⟨1, by norm_num, 1, Asymptotics.IsBigO.of_bound M ?_⟩
      rw [Filter.eventually_inf_principal]
      refine Filter.Eventually.of_forall fun w hw => ?_
      rw [norm_div, Real.rpow_one, one_mul, Real.norm_eq_abs, Real.abs_exp]
      have hg1 := hg w (le_of_lt hw)
      rw [div_le_iff₀ (by linarith)]
      have := hM w
      have h0 : 0 ≤ M * Real.exp ‖w‖ := by positivity
      nlinarith
    · refine ⟨|(K : ℝ)|, Filter.eventually_map.mpr ?_⟩
      filter_upwards [Filter.eventually_ge_atTop (0 : ℝ)] with x hx
      have e2 := rev_nonneg _ h2 x hx
      have e3 := rev_nonneg _ h3 x hx
      rw [rev_add, rev_scale] at e2 e3
      rw [rev_scale] at e3
      have hg0 : rev g x ≠ 0 := by
        have := hne x (by simpa using hx)
        rw [pev_real] at this
        exact_mod_cast this
      rw [pev_real, pev_real, norm_div, Complex.norm_real, Complex.norm_real, Real.norm_eq_abs,
        Real.norm_eq_abs, div_le_iff₀ (abs_pos.mpr hg0), ← abs_mul]
      push_cast at e2 e3
      rw [abs_le]
      have := le_abs_self ((K : ℝ) * rev g x)
      constructor <;> linarith
    · intro y
      have e1 := rev_nonneg _ h1 (y ^ 2) (sq_nonneg y)
      rw [rev_add, rev_scale, rev_scale, nsqI_spec, nsqI_spec] at e1
      push_cast at e1
      have hg1 := hg (y * Complex.I) (by simp)
      rw [norm_div, div_le_iff₀ (by linarith)]
      apply le_of_sq_le_sq
      · rw [mul_pow]
        have h4 : (s : ℝ) * ‖pev g (y * Complex.I)‖ ^ 2 ≤ C ^ 2 * r * ‖pev g (y * Complex.I)‖ ^ 2 :=
          mul_le_mul_of_nonneg_right hCs (sq_nonneg _)
        have h5 : (r : ℝ) * ‖pev f (y * Complex.I)‖ ^ 2 ≤ r * (C ^ 2 * ‖pev g (y * Complex.I)‖ ^ 2) := by
          nlinarith
        exact le_of_mul_le_mul_left h5 hr'
      · positivity
    · exact hz
  rw [norm_div, div_le_iff₀ (by have := hg z hz; linarith)] at key
  exact key

end Catima.Poly
