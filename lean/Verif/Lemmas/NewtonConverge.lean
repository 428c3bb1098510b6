import Verif.Model.Catima
import Verif.Lemmas.Spline
import Mathlib.Analysis.Calculus.Deriv.MeanValue

/-!
# Helper lemmas: convergence of the search for the energy behind a layer
-/

namespace Catima

/-- One step of the search with a slope that agrees with the mean slope up to `-κ` and `+μ`. -/
theorem newton_error (k κ μ D x : ℝ) (h0 : 0 ≤ μ) (h1 : μ ≤ κ) (h2 : κ < 1) (k1 : 1 - κ ≤ k) (k2 : k ≤ 1 + μ)
    (hl : -(μ * D) ≤ x) (hu : x ≤ D) : -(μ * D) ≤ (1 - k) * x ∧ (1 - k) * x ≤ D ∧ |(1 - k) * x| ≤ κ * |x| := by
  have a : |1 - k| ≤ κ := abs_le.mpr ⟨by linarith, by linarith⟩
  refine ⟨?_, ?_, by rw [abs_mul]; exact mul_le_mul_of_nonneg_right a (abs_nonneg x)⟩
  · rcases le_total 0 x with h | h
    · nlinarith [mul_nonneg h (by linarith : 0 ≤ 1 - k + μ), mul_nonneg h0 (by linarith : 0 ≤ D - x)]
    · nlinarith [mul_nonneg (neg_nonneg.mpr h) (by linarith : 0 ≤ κ - (1 - k)), mul_nonneg (neg_nonneg.mpr h) (by linarith : 0 ≤ 1 - κ)]
  · rcases le_total 0 x with h | h
    · nlinarith [mul_nonneg h (by linarith : 0 ≤ κ - (1 - k)), mul_nonneg h (by linarith : 0 ≤ 1 - κ)]
    · have q : 0 ≤ μ * D := by linarith
      have : (1 - k) * x ≤ μ * (μ * D) := by
        nlinarith [mul_nonneg (neg_nonneg.mpr h) (by linarith : 0 ≤ 1 - k + μ), mul_nonneg h0 (by linarith : 0 ≤ μ * D + x)]
      have : μ * (μ * D) ≤ μ * D := by nlinarith
      rcases eq_or_lt_of_le h0 with z | z
      · have x0 : x = 0 := le_antisymm h (by rw [← z] at hl; linarith)
        rw [x0] at hu ⊢
        linarith
      · have : 0 ≤ D := by
          by_contra hn
          nlinarith
        nlinarith

theorem energyOutLoop_converges (debug : Bool) (s : Spline ℝ) (f g : ℝ → ℝ) (T E κ μ gT th : ℝ) (h0 : 0 ≤ μ) (h1 : μ ≤ κ) (h2 : κ < 1)
    (hf : ∀ e, E - μ * (T - E) ≤ e → e ≤ T → s.evaluate e = .ok (f e) ∧ s.deriv e = .ok (g e) ∧ 0 < g e)
    (hm : ∀ e, E - μ * (T - E) ≤ e → e ≤ T → ∃ k, 1 - κ ≤ k ∧ k ≤ 1 + μ ∧ f e - f E = k * g e * (e - E))
    (hT : ∀ e, E - μ * (T - E) ≤ e → e ≤ T → |f e - f E| ≤ (1 + μ) * gT * |e - E|) (hg : 0 < gT)
    (hlow : 1e-3 ≤ E - μ * (T - E)) (hth : th = f T - f E) (hN : (1 + μ) * gT * (κ ^ 101 * (T - E)) < 1e-5)
    (fuel : ℕ) (hfu : fuel ≤ 100) : ∀ (e d : ℝ), E - μ * (T - E) ≤ e → e ≤ T → 0 < d → |e - E| ≤ κ ^ (101 - fuel) * (T - E) →
      (∃ k, 1 - κ ≤ k ∧ k ≤ 1 + μ ∧ (f e - f E) * d = k * (e - E)) →
      ∃ v, energyOutLoop debug s (f T) th (fuel + 1) e d = .ok v ∧ E - μ * (T - E) ≤ v ∧ v ≤ T ∧ |f v - f E| < 1e-5 := by
  have one : (1.0 : ℝ) = 1 := by norm_num
  have κ0 : 0 ≤ κ := h0.trans h1
  have eps : (Eout_th_epsilon : ℝ) = 1e-5 := by unfold Eout_th_epsilon; norm_num
  induction fuel with
  | zero =>
    intro e d he he' hd her hk
    obtain ⟨v1, -, -⟩ := hf e he he'
    have hr : |f e - f E| < 1e-5 := by
      refine lt_of_le_of_lt (hT e he he') (lt_of_le_of_lt ?_ hN)
      exact mul_le_mul_of_nonneg_left her (by positivity)
    refine ⟨e, ?_, he, he', hr⟩
    unfold energyOutLoop
    rw [v1, bind_ok]
    dsimp only
    rw [if_pos]
    · rfl
    · rw [lt_real, fabs_real, hth]
      rw [show f T - f e - (f T - f E) = -(f e - f E) by ring, abs_neg, eps]
      exact hr
  | succ n ih =>
    intro e d he he' hd her hk
    obtain ⟨v1, -, -⟩ := hf e he he'
    obtain ⟨k, k1, k2, hk⟩ := hk
    unfold energyOutLoop
    rw [v1, bind_ok]
    dsimp only
    rw [show f T - f e - th = -(f e - f E) by rw [hth]; ring]
    by_cases hr : |f e - f E| < 1e-5
    · rw [if_pos (by rw [lt_real, fabs_real, abs_neg, eps]; exact hr)]
      exact ⟨e, rfl, he, he', hr⟩
    rw [if_neg (by rw [lt_real, fabs_real, abs_neg, eps]; exact hr)]
    have e2 : e - - -(f e - f E) * d = E + (1 - k) * (e - E) := by
      have : e - - -(f e - f E) * d = e - (f e - f E) * d := by ring
      rw [this, hk]; ring
    rw [e2]
    obtain ⟨b1, b2, b3⟩ := newton_error k κ μ (T - E) (e - E) h0 h1 h2 k1 k2 (by linarith) (by linarith)
    set e' := E + (1 - k) * (e - E) with he'
    have i1 : E - μ * (T - E) ≤ e' := by rw [he']; linarith
    have i2 : e' ≤ T := by rw [he']; linarith
    obtain ⟨-, v2, gp⟩ := hf e' i1 i2
    rw [if_neg (by rw [lt_real]; unfold Ezero; norm_num at hlow ⊢; linarith), v2, bind_ok]
    rw [if_neg (by omega), one]
    refine ih (by omega) e' (1 / g e') i1 i2 (by positivity) ?_ ?_
    · rw [show e' - E = (1 - k) * (e - E) by rw [he']; ring]
      refine b3.trans ((mul_le_mul_of_nonneg_left her κ0).trans (le_of_eq ?_))
      rw [show 101 - n = 101 - (n + 1) + 1 by omega, pow_succ]; ring
    · obtain ⟨k', q1, q2, q3⟩ := hm e' i1 i2
      refine ⟨k', q1, q2, ?_⟩
      rw [q3]; field_simp

/-- If the slopes of the range table at `T` and at each energy `e` agree with the mean slope between `e` and `E` up to `-κ`
and `+μ`, the search from `T` ends at an energy where the range differs from the range at `E` by less than the tolerance. -/
theorem energy_out_spline_converges (debug : Bool) (s : Spline ℝ) (f g : ℝ → ℝ) (T E κ μ th : ℝ) (h0 : 0 ≤ μ) (h1 : μ ≤ κ) (h2 : κ < 1)
    (hET : E ≤ T)
    (hf : ∀ e, E - μ * (T - E) ≤ e → e ≤ T → s.evaluate e = .ok (f e) ∧ s.deriv e = .ok (g e) ∧ 0 < g e)
    (hm : ∀ e, E - μ * (T - E) ≤ e → e ≤ T → ∃ k, 1 - κ ≤ k ∧ k ≤ 1 + μ ∧ f e - f E = k * g e * (e - E))
    (hT : ∀ e, E - μ * (T - E) ≤ e → e ≤ T → ∃ k, 1 - κ ≤ k ∧ k ≤ 1 + μ ∧ f e - f E = k * g T * (e - E))
    (hlow : 1e-3 ≤ E - μ * (T - E)) (hth : th = f T - f E) (hE : 0 < f E) (hN : (1 + μ) * κ ^ 101 * th < (1 - κ) * 1e-5) :
    ∃ v, energy_out_spline debug T th s = .ok v ∧ E - μ * (T - E) ≤ v ∧ v ≤ T ∧ |f v - f E| < 1e-5 := by
  have κ0 : 0 ≤ κ := h0.trans h1
  have one : (1.0 : ℝ) = 1 := by norm_num
  have D0 : 0 ≤ T - E := by linarith
  have lT : E - μ * (T - E) ≤ T := by nlinarith [mul_nonneg h0 D0]
  obtain ⟨v1, v2, gp⟩ := hf T lT le_rfl
  obtain ⟨k, k1, k2, hk⟩ := hT T lT le_rfl
  unfold energy_out_spline
  rw [v1, bind_ok, v2, bind_ok]
  dsimp only
  rw [if_neg (by rw [le_real, hth]; linarith), one]
  have e2 : T - th * (1 / g T) = E + (1 - k) * (T - E) := by
    rw [hth, hk]; field_simp; ring
  rw [e2]
  obtain ⟨b1, b2, b3⟩ := newton_error k κ μ (T - E) (T - E) h0 h1 h2 k1 k2 (by nlinarith [mul_nonneg h0 D0]) le_rfl
  have i1 : E - μ * (T - E) ≤ E + (1 - k) * (T - E) := by linarith
  have i2 : E + (1 - k) * (T - E) ≤ T := by linarith
  refine energyOutLoop_converges debug s f g T E κ μ (g T) th h0 h1 h2 hf hm ?_ gp hlow hth ?_ 100 le_rfl _ (1 / g T) i1 i2 (by positivity) ?_ ?_
  · intro e he he'
    obtain ⟨k, k1, k2, hk⟩ := hT e he he'
    rw [hk, abs_mul, abs_mul, abs_of_pos gp]
    have : |k| ≤ 1 + μ := abs_le.mpr ⟨by linarith, k2⟩
    exact mul_le_mul_of_nonneg_right (mul_le_mul_of_nonneg_right this gp.le) (abs_nonneg _)
  · have q : (1 - κ) * (g T * (T - E)) ≤ th := by
      rw [hth, hk]
      have := mul_le_mul_of_nonneg_right k1 (mul_nonneg gp.le D0)
      linarith
    have q2 := mul_le_mul_of_nonneg_left q (by positivity : 0 ≤ (1 + μ) * κ ^ 101)
    have q3 : (1 - κ) * ((1 + μ) * g T * (κ ^ 101 * (T - E))) < (1 - κ) * 1e-5 := by
      refine lt_of_le_of_lt (le_of_eq ?_) (lt_of_le_of_lt q2 hN)
      ring
    exact lt_of_mul_lt_mul_left q3 (by linarith)
  · rw [show E + (1 - k) * (T - E) - E = (1 - k) * (T - E) by ring, show 101 - 100 = 1 by rfl, pow_one]
    rw [abs_of_nonneg D0] at b3
    exact b3
  · obtain ⟨k', q1, q2, q3⟩ := hT _ i1 i2
    refine ⟨k', q1, q2, ?_⟩
    rw [q3]; field_simp

/-- Next to an energy with a positive slope the mean slopes agree with the slopes. -/
theorem slopes_agree (F G : ℝ → ℝ) (hF : ∀ x, HasDerivAt F (G x) x) (hG : Continuous G) (c δ0 : ℝ) (hδ0 : 0 < δ0) (hc : 0 < G c)
    (hp : 0 < F c) : ∃ E, E < c ∧ c - δ0 < E - 1 / 2 * (c - E) ∧ F c - F E ≤ 1 ∧ ∀ e, E - 1 / 2 * (c - E) ≤ e → e ≤ c → 0 < G e ∧ 0 < F e ∧
      ∀ x, x = e ∨ x = c → ∃ k, 1 / 2 ≤ k ∧ k ≤ 3 / 2 ∧ F e - F E = k * G x * (e - E) := by
  have hFc : ContinuousAt F c := (hF c).continuousAt
  obtain ⟨δ1, d1, h1⟩ := Metric.continuousAt_iff.mp hG.continuousAt (G c / 5) (by linarith)
  obtain ⟨δ2, d2, h2⟩ := Metric.continuousAt_iff.mp hFc (min (F c) 1) (lt_min hp one_pos)
  set δ := min δ0 (min δ1 δ2) with hδ
  have dp : 0 < δ := lt_min hδ0 (lt_min d1 d2)
  have l0 : δ ≤ δ0 := min_le_left _ _
  have l1 : δ ≤ δ1 := (min_le_right _ _).trans (min_le_left _ _)
  have l2 : δ ≤ δ2 := (min_le_right _ _).trans (min_le_right _ _)
  have near : ∀ x, c - 3 / 4 * δ ≤ x → x ≤ c → |G x - G c| < G c / 5 ∧ |F x - F c| < min (F c) 1 := by
    intro x a b
    have dx : dist x c < δ := by rw [Real.dist_eq, abs_lt]; constructor <;> linarith
    exact ⟨h1 (lt_of_lt_of_le dx l1), h2 (lt_of_lt_of_le dx l2)⟩
  have gb : ∀ x, c - 3 / 4 * δ ≤ x → x ≤ c → 4 / 5 * G c ≤ G x ∧ G x ≤ 6 / 5 * G c := by
    intro x a b
    obtain ⟨q1, q2⟩ := abs_lt.mp (near x a b).1
    constructor <;> linarith
  refine ⟨c - δ / 2, by linarith, by linarith, ?_, fun e a b => ?_⟩
  · obtain ⟨q1, q2⟩ := abs_lt.mp (near (c - δ / 2) (by linarith) (by linarith)).2
    linarith [min_le_right (F c) 1]
  have a' : c - 3 / 4 * δ ≤ e := by linarith
  refine ⟨by linarith [(gb e a' b).1], ?_, fun x hx => ?_⟩
  · obtain ⟨q1, q2⟩ := abs_lt.mp (near e a' b).2
    linarith [min_le_left (F c) 1]
  have hx' : c - 3 / 4 * δ ≤ x ∧ x ≤ c := by
    rcases hx with rfl | rfl
    · exact ⟨a', b⟩
    · exact ⟨by linarith, le_rfl⟩
  obtain ⟨g1, g2⟩ := gb x hx'.1 hx'.2
  have gx : 0 < G x := by linarith
  -- the mean slope is a slope in between
  have mv : ∃ ξ, c - 3 / 4 * δ ≤ ξ ∧ ξ ≤ c ∧ F e - F (c - δ / 2) = G ξ * (e - (c - δ / 2)) := by
    rcases lt_trichotomy e (c - δ / 2) with h | h | h
    · obtain ⟨ξ, hξ, he⟩ := exists_hasDerivAt_eq_slope F G h (fun y _ => (hF y).continuousAt.continuousWithinAt) fun y _ => hF y
      refine ⟨ξ, by linarith [hξ.1], by linarith [hξ.2], ?_⟩
      rw [eq_div_iff (by intro z; linarith)] at he
      linear_combination he
    · exact ⟨c, by linarith, le_rfl, by rw [h]; ring⟩
    · obtain ⟨ξ, hξ, he⟩ := exists_hasDerivAt_eq_slope F G h (fun y _ => (hF y).continuousAt.continuousWithinAt) fun y _ => hF y
      refine ⟨ξ, by linarith [hξ.1], by linarith [hξ.2], ?_⟩
      rw [eq_div_iff (by intro z; linarith)] at he
      linear_combination -he
  obtain ⟨ξ, x1, x2, hm⟩ := mv
  obtain ⟨q1, q2⟩ := gb ξ x1 x2
  refine ⟨G ξ / G x, ?_, ?_, ?_⟩
  · rw [le_div_iff₀ gx]; linarith
  · rw [div_le_iff₀ gx]; linarith
  · rw [hm]; field_simp

end Catima
