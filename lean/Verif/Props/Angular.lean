import Verif.Props.CalculateDefined

/-!
# C59: angular and lateral spread of one layer
-/

namespace Catima

/-- Cauchy-Schwarz for a weighted sum. -/
theorem wsum_cauchy (l : List (ℝ × ℝ)) (u g : ℝ → ℝ) (hw : ∀ e ∈ l, 0 ≤ e.2) (hg : ∀ e ∈ l, 0 ≤ g e.1) :
    (wsum l fun x => u x * g x) ^ 2 ≤ (wsum l g) * wsum l fun x => u x ^ 2 * g x := by
  induction l with
  | nil => simp
  | cons e l ih =>
    have ih := ih (fun e he => hw e (by simp [he])) (fun e he => hg e (by simp [he]))
    have h0 : 0 ≤ wsum l g := wsum_nonneg _ _ (fun e he => hw e (by simp [he]))
      fun e he => hg e (by simp [he])
    have h2 : 0 ≤ wsum l fun x => u x ^ 2 * g x := wsum_nonneg _ _ (fun e he => hw e (by simp [he]))
      fun e he => mul_nonneg (sq_nonneg _) (hg e (by simp [he]))
    simp only [wsum_cons]
    have ha : 0 ≤ e.2 * g e.1 := mul_nonneg (hw e (by simp)) (hg e (by simp))
    set S0 := wsum l g
    set S1 := wsum l fun x => u x * g x
    set S2 := wsum l fun x => u x ^ 2 * g x
    have hk : 2 * u e.1 * S1 ≤ S2 + u e.1 ^ 2 * S0 := by
      have h3 : u e.1 ^ 2 * S1 ^ 2 ≤ u e.1 ^ 2 * (S0 * S2) := mul_le_mul_of_nonneg_left ih (sq_nonneg _)
      refine (abs_le_of_sq_le_sq' (?_ : (2 * u e.1 * S1) ^ 2 ≤ (S2 + u e.1 ^ 2 * S0) ^ 2) (by positivity)).2
      nlinarith [sq_nonneg (S2 - u e.1 ^ 2 * S0)]
    nlinarith

theorem Tfr_nonneg (p : Projectile ℝ) : 0 ≤ Tfr p 1.0 1.0 := by
  unfold Tfr
  split
  · norm_num
  · have : ∀ x : ℝ, 0 ≤ (1.0 : ℝ) / (1.0 * (x * x)) := fun x =>
      div_nonneg (by norm_num) (mul_nonneg (by norm_num) (mul_self_nonneg x))
    exact this _

/-- The factor of the differential Highland formula. -/
theorem highland_factor_nonneg (l : ℝ) (h : 1e-8 ≤ l) :
    0 ≤ 0.97 * (1.0 + Real.log l / 20.7) * (1.0 + Real.log l / 22.7) := by
  have hl : -20.7 ≤ Real.log l := by
    rw [Real.le_log_iff_exp_le (lt_of_lt_of_le (by norm_num) h)]
    refine le_trans ?_ h
    have : Real.exp (-20.7) ≤ Real.exp (-(20 : ℕ)) := Real.exp_le_exp.mpr (by norm_num)
    refine this.trans ?_
    rw [Real.exp_neg, ← mul_one ((20 : ℕ) : ℝ), Real.exp_nat_mul]
    have he : (2.7 : ℝ) ≤ Real.exp 1 := by
      have := Real.exp_one_gt_d9
      norm_num at this ⊢
      linarith
    rw [inv_le_comm₀ (by positivity) (by norm_num)]
    calc (1e-8 : ℝ)⁻¹ ≤ 2.7 ^ 20 := by norm_num
      _ ≤ _ := pow_le_pow_left₀ (by norm_num) he _
  apply mul_nonneg
  · apply mul_nonneg (by norm_num)
    norm_num at hl ⊢
    linarith
  · norm_num at hl ⊢
    linarith

/-- C59 (Rossi, ATIMA tables' formula and any unknown choice; differential Highland for layers of at
least 1e-6 radiation lengths): the three moments are defined, non-negative and satisfy the
Cauchy-Schwarz inequality.  Missing: Gottschalk's formula and thinner layers with differential
Highland, for which it is refuted (`angular_variance_wrong`, `highland_variance_wrong`). -/
theorem angular_moments_partial (env : Env ℝ) (hdbg : env.debug = false) (w : World ℝ)
    (hr : ReachableW env w) (p : Projectile ℝ) (n : Int) (t : Material ℝ) (c : Config ℝ)
    (h : Computable p n t c) (hk : NonDefault p t c) (hrho : 0 < t.rho) (hth : 0 ≤ t.th)
    (hG : c.scattering ≠ scattering_gottschalk) (R : ℝ) (w1 : World ℝ)
    (hR : range env p t c w = .ok (R, w1)) (hR0 : 0 ≤ R)
    (hH : c.scattering = scattering_dhighland → 1e-6 * radiation_length t ≤ min R t.th) :
    ∃ v0 v1 v2, angular_variance env p t c 0 w = .ok (v0, w1) ∧
      angular_variance env p t c 1 w = .ok (v1, w1) ∧ angular_variance env p t c 2 w = .ok (v2, w1) ∧
      0 ≤ v0 ∧ 0 ≤ v1 ∧ 0 ≤ v2 ∧ v1 ^ 2 ≤ v0 * v2 := by
  obtain ⟨d0, rs, -, -, -, trs, hview⟩ := range_spline env p n t c h hk
  obtain ⟨d, w', hd, hrs⟩ := hview w hr p.T t.th
  have hd' : get_data env p t c w = .ok (d, w') := hd
  obtain ⟨rfl, hRs⟩ : w' = w1 ∧ rs.evaluate p.T = .ok R := by
    unfold range at hR
    simp only [api_bind, api_pureM, ok_bind] at hR
    obtain ⟨d1, w2, h1, ⟨rs1, h2, h3⟩, rfl⟩ := hR
    rw [hd'] at h1
    cases h1
    rw [hrs] at h2
    cases h2
    exact ⟨rfl, h3⟩
  have hX0 : 0 < radiation_length t := radiation_length_material_pos t h.sound fun a ha =>
    le_trans (h.known a ha) (by norm_num)
  set X0 := radiation_length t with hX
  set rr := min (R / t.rho) (t.th / t.rho) with hrr
  have hrr0 : 0 ≤ rr := le_min (by positivity) (by positivity)
  have hmin : smin (R / t.rho) t.thickness_cm = rr := by
    show (if Scalar.lt t.thickness_cm (R / t.rho) = true then t.thickness_cm else R / t.rho) = _
    have e : t.thickness_cm = t.th / t.rho := rfl
    rw [e, hrr]
    split
    · rename_i h; rw [lt_real] at h; exact (min_eq_right h.le).symm
    · rename_i h; rw [lt_real] at h; exact (min_eq_left (not_lt.mp h)).symm
  have hrrho : rr * t.rho = min R t.th := by
    rw [hrr, min_mul_of_nonneg _ _ hrho.le, div_mul_cancel₀ _ hrho.ne', div_mul_cancel₀ _ hrho.ne']
  -- the integrand without the power of the distance
  obtain ⟨e, he⟩ : ∃ e : ℝ → ℝ, ∀ x, energy_out_spline false p.T (x * t.rho) rs = .ok (e x) := by
    choose e he using fun x => trs.2 p.T (x * t.rho)
    exact ⟨e, he⟩
  let ff : ℝ → ℝ := fun x => if c.scattering = scattering_dhighland then
    0.97 * (1.0 + Real.log (x * t.rho / X0) / 20.7) * (1.0 + Real.log (x * t.rho / X0) / 22.7) else 1.0
  let g : ℝ → ℝ := fun x => ff x * Tfr (p.withT (e x)) 1.0 1.0
  have hg : ∀ x, Inner 0 rr x → 0 ≤ g x := by
    intro x hx
    refine mul_nonneg ?_ (Tfr_nonneg _)
    show 0 ≤ ff x
    simp only [ff]
    split
    · rename_i hs
      apply highland_factor_nonneg
      have h1 := hH hs
      rw [← hrrho] at h1
      have h2 : rr / 100 ≤ x := by have := hx.1; linarith
      rw [le_div_iff₀ hX0]
      have h3 : rr / 100 * t.rho ≤ x * t.rho := mul_le_mul_of_nonneg_right h2 hrho.le
      have h4 : rr / 100 * t.rho = rr * t.rho / 100 := by ring
      rw [h4] at h3
      norm_num at h1 ⊢
      linarith
    · norm_num
  have hfx : ∀ (o : Int) x, fx0p env.debug p t c o rs rr X0 x = .ok (ipow (rr - x) o * g x) := by
    intro o x
    unfold fx0p
    rw [hdbg, he, bind_ok]
    show (Except.ok _ : M ℝ) = Except.ok _
    congr 1
    simp only [g, ff]
    split
    · rw [mul_assoc]; rfl
    · rw [mul_assoc]
  have hint : ∀ o : Int, integrator.integrate (fx0p env.debug p t c o rs rr X0) 0 rr = .ok ((rr - 0) / 2 *
      wsum integrator.full fun x => ipow (rr - ((rr - 0) / 2 * x + (rr + 0) / 2)) o *
        g ((rr - 0) / 2 * x + (rr + 0) / 2)) := fun o =>
    integrator.integrate_eq (integrator.shape (GLData.supported_shape _ integrator_supported)).1 _
      (fun x => ipow (rr - x) o * g x) 0 rr fun _ _ => hfx o _
  set K := t.rho * ipow p.Z 2 * Es2_of c / X0 with hK
  have hK0 : 0 ≤ K := by
    have e1 : (0 : ℝ) ≤ ipow p.Z 2 := by
      show (0 : ℝ) ≤ p.Z * p.Z
      exact mul_self_nonneg _
    have e2 : (0 : ℝ) ≤ Es2_of c := by
      unfold Es2_of
      dsimp only
      split
      · norm_num [Es_squared, PI, fine_structure_inverted, fine_structure, electron_mass]
      · split
        · norm_num [Es_squared, PI, fine_structure_inverted, fine_structure, electron_mass]
        · norm_num
    positivity
  have hval : ∀ o : Int, angular_variance env p t c o w = .ok ((rr / 2 * K) *
      wsum integrator.full fun x => ipow (rr - (rr / 2 * x + rr / 2)) o * g (rr / 2 * x + rr / 2), w') := by
    intro o
    have hI := hint o
    simp only [sub_zero, add_zero] at hI
    unfold angular_variance
    simp only [hdbg, api_bind, api_pureM, ok_bind]
    refine ⟨(), w, ⟨by simp [cassert], rfl⟩, (), w, ⟨by simp [cassert], rfl⟩, (), w,
      ⟨by simp [cassert], rfl⟩, d, w', hd', ⟨rs, hrs, ?_⟩, rfl⟩
    unfold angular_variance_from
    dsimp only
    rw [hRs, bind_ok, if_neg hG, hmin, show (0.0 : ℝ) = 0 by norm_num, hI, bind_ok]
    show (Except.ok _ : M ℝ) = Except.ok _
    congr 1
    rw [hK]
    ring
  have hnode : ∀ a ∈ integrator.full, Inner 0 rr (rr / 2 * a.1 + rr / 2) := by
    intro a ha
    have := node_inner 0 rr hrr0 a ha
    simpa using this
  have hw0 : ∀ a ∈ integrator.full, (0 : ℝ) ≤ a.2 := fun a ha => (integrator_nodes a ha).2.2.le
  have hd0 : ∀ a ∈ integrator.full, 0 ≤ rr - (rr / 2 * a.1 + rr / 2) := by
    intro a ha
    have := (hnode a ha).2
    linarith
  have hg0 : ∀ a ∈ integrator.full, 0 ≤ g (rr / 2 * a.1 + rr / 2) := fun a ha => hg _ (hnode a ha)
  have hM : 0 ≤ rr / 2 * K := by positivity
  refine ⟨_, _, _, hval 0, hval 1, hval 2, ?_, ?_, ?_, ?_⟩
  · refine mul_nonneg hM (wsum_nonneg _ _ hw0 fun a ha => mul_nonneg ?_ (hg0 a ha))
    show (0 : ℝ) ≤ 1.0
    norm_num
  · exact mul_nonneg hM (wsum_nonneg _ _ hw0 fun a ha => mul_nonneg (hd0 a ha) (hg0 a ha))
  · exact mul_nonneg hM (wsum_nonneg _ _ hw0 fun a ha => mul_nonneg
      (mul_nonneg (hd0 a ha) (hd0 a ha)) (hg0 a ha))
  · have hc := wsum_cauchy integrator.full (fun x => rr - (rr / 2 * x + rr / 2))
      (fun x => g (rr / 2 * x + rr / 2)) hw0 hg0
    have e0 : (wsum integrator.full fun x => ipow (rr - (rr / 2 * x + rr / 2)) 0 * g (rr / 2 * x + rr / 2))
        = wsum integrator.full fun x => g (rr / 2 * x + rr / 2) := by
      congr 1
      funext x
      show (1.0 : ℝ) * _ = _
      norm_num
    have e2 : (wsum integrator.full fun x => ipow (rr - (rr / 2 * x + rr / 2)) 2 * g (rr / 2 * x + rr / 2))
        = wsum integrator.full fun x => (rr - (rr / 2 * x + rr / 2)) ^ 2 * g (rr / 2 * x + rr / 2) := by
      congr 1
      funext x
      show (rr - (rr / 2 * x + rr / 2)) * (rr - (rr / 2 * x + rr / 2)) * _ = _
      ring
    have e1 : (wsum integrator.full fun x => ipow (rr - (rr / 2 * x + rr / 2)) 1 * g (rr / 2 * x + rr / 2))
        = wsum integrator.full fun x => (rr - (rr / 2 * x + rr / 2)) * g (rr / 2 * x + rr / 2) := rfl
    rw [e0, e1, e2, mul_pow]
    calc (rr / 2 * K) ^ 2 * _ ≤ (rr / 2 * K) ^ 2 * _ := mul_le_mul_of_nonneg_left hc (sq_nonneg _)
      _ = _ := by ring

end Catima
