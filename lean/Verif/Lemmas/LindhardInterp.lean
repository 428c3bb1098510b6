import Verif.Lemmas.LogTen

/-!
# Steps of piecewise linear functions
-/

namespace Catima

/-- An affine function is bounded by its values at the ends. -/
theorem affine_mid (a d L U s : ℝ) (h1 : L ≤ a - 20 * d) (h2 : L ≤ a + 40 * d) (h3 : a - 20 * d ≤ U) (h4 : a + 40 * d ≤ U)
    (s0 : -20 ≤ s) (s1 : s ≤ 40) : L ≤ a + s * d ∧ a + s * d ≤ U := by
  rcases le_total 0 d with h | h <;> constructor <;> nlinarith

/-- Change of a linear interpolation inside one interval. -/
theorem interp_same (E E1 q r x θ θ' a b D : ℝ) (geo : E1 = q * E) (q1 : 10843 / 10000 ≤ q) (q2 : q ≤ 2169 / 2000)
    (r1 : 1039 / 1000 ≤ r) (r2 : r ≤ 10393 / 10000) (x0 : 10 ≤ x) (hx : x ≤ E1) (hθ : x - E = θ * (E1 - E))
    (hθ' : r * x - E = θ' * (E1 - E)) (hD : |b - a| ≤ D) :
    |a + θ' * (b - a) - (a + θ * (b - a))| ≤ 0.5075 * D := by
  have D0 : 0 ≤ D := (abs_nonneg _).trans hD
  have hE : 0 < E := by nlinarith
  have hw : 0 < E1 - E := by rw [geo]; nlinarith
  have e : a + θ' * (b - a) - (a + θ * (b - a)) = (θ' - θ) * (b - a) := by ring
  rw [e, abs_mul]
  have h3 : (θ' - θ) * (E1 - E) = (r - 1) * x := by rw [sub_mul, ← hθ, ← hθ']; ring
  have h4 : 0 ≤ θ' - θ := by
    by_contra hneg
    have : (θ' - θ) * (E1 - E) < 0 := mul_neg_of_neg_of_pos (by linarith) hw
    nlinarith
  have h5 : (r - 1) * x ≤ 0.5075 * (E1 - E) := by
    have h6 : (r - 1) * x ≤ 393 / 10000 * (q * E) := by
      rw [← geo]
      exact mul_le_mul (by linarith) hx (by linarith) (by norm_num)
    rw [geo]
    norm_num
    nlinarith
  have h6 : θ' - θ ≤ 0.5075 := le_of_mul_le_mul_right (h3.trans_le h5) hw
  rw [abs_of_nonneg h4]
  exact mul_le_mul h6 hD (abs_nonneg _) (by norm_num)

/-- Change of a linear interpolation from one interval to the next. -/
theorem interp_next (E E1 E2 q r x θ θ' a b c D : ℝ) (geo : E1 = q * E) (geo' : E2 = q * E1) (q1 : 10843 / 10000 ≤ q)
    (q2 : q ≤ 2169 / 2000) (r1 : 1039 / 1000 ≤ r) (r2 : r ≤ 10393 / 10000) (x0 : 10 ≤ x) (hx : x ≤ E1)
    (hx' : E1 ≤ r * x + 5 / 2251799813685248) (hθ : x - E = θ * (E1 - E))
    (hθ' : r * x - E1 = θ' * (E2 - E1)) (t1 : θ ≤ 1) (t0 : -1e-12 ≤ θ') (hD : |b - a| ≤ D) (hD' : |c - b| ≤ D) :
    |b + θ' * (c - b) - (a + θ * (b - a))| ≤ 0.5075 * D := by
  have D0 : 0 ≤ D := (abs_nonneg _).trans hD
  have hE : 1 ≤ E := by nlinarith
  have w0 : 0 < E1 - E := by rw [geo]; nlinarith
  have hE2' : E2 - E1 = q * (E1 - E) := by rw [geo', geo]; ring
  have a1 : (1 - θ) * (E1 - E) = E1 - x := by rw [sub_mul, ← hθ]; ring
  have a2 : θ' * (E2 - E1) = r * x - E1 := hθ'.symm
  have t1' : 0 ≤ 1 - θ := by linarith
  have sum : (1 - θ) + max θ' 0 ≤ 0.5074 := by
    have hmax : max θ' 0 * (E1 - E) ≤ max (r * x - E1) 0 := by
      rcases le_total 0 θ' with hh | hh
      · rw [max_eq_left hh]
        have h3 : 0 ≤ r * x - E1 := by rw [← a2, hE2']; exact mul_nonneg hh (mul_nonneg (by linarith) w0.le)
        rw [max_eq_left h3, ← a2, hE2']
        have := mul_nonneg hh w0.le
        nlinarith
      · rw [max_eq_right hh, zero_mul]; exact le_max_right _ _
    have h4 : ((1 - θ) + max θ' 0) * (E1 - E) ≤ (r - 1) * x + 1e-14 := by
      rw [add_mul, a1]
      rcases le_total 0 (r * x - E1) with hh | hh
      · rw [max_eq_left hh] at hmax; norm_num; linarith
      · rw [max_eq_right hh] at hmax; norm_num; linarith
    have h5 : (r - 1) * x + 1e-14 ≤ 0.5074 * (E1 - E) := by
      have h6 : (r - 1) * x ≤ 393 / 10000 * (q * E) := by
        rw [← geo]
        exact mul_le_mul (by linarith) hx (by linarith) (by norm_num)
      rw [geo]
      norm_num
      nlinarith
    exact le_of_mul_le_mul_right (h4.trans h5) w0
  have habs : |θ'| ≤ max θ' 0 + 1e-12 := by
    rcases le_total 0 θ' with hh | hh
    · rw [abs_of_nonneg hh, max_eq_left hh]; norm_num
    · rw [abs_of_nonpos hh, max_eq_right hh]; norm_num at t0 ⊢; linarith
  have e : b + θ' * (c - b) - (a + θ * (b - a)) = (1 - θ) * (b - a) + θ' * (c - b) := by ring
  rw [e]
  calc _ ≤ |(1 - θ) * (b - a)| + |θ' * (c - b)| := abs_add_le _ _
    _ = (1 - θ) * |b - a| + |θ'| * |c - b| := by rw [abs_mul, abs_mul, abs_of_nonneg t1']
    _ ≤ (1 - θ) * D + (max θ' 0 + 1e-12) * D := by gcongr
    _ = ((1 - θ) + max θ' 0 + 1e-12) * D := by ring
    _ ≤ _ := by
      apply mul_le_mul_of_nonneg_right _ D0
      norm_num at sum ⊢; linarith

end Catima
