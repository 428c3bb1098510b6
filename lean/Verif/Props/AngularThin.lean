import Verif.Props.ConfigTof
import Verif.Props.Angular

/-!
# C59: what fails for Gottschalk's formula, and an example for the others
-/

namespace Catima

theorem pv_eq (e A : ℝ) (he : 0 < e) (hA : 0 < A) :
    p_from_T e A * (p_from_T e A / ((e + atomic_mass_unit) * A)) =
      A * (e * (e + 2 * atomic_mass_unit)) / (e + atomic_mass_unit) := by
  have hu := amu_pos
  have hs := Real.mul_self_sqrt (show (0 : ℝ) ≤ e * (e + 2 * atomic_mass_unit) by positivity)
  unfold p_from_T
  rw [show (2.0 : ℝ) = 2 by norm_num, sqrt_real]
  set s := √(e * (e + 2 * atomic_mass_unit)) with hsd
  have h1 : e + atomic_mass_unit ≠ 0 := by positivity
  rw [← hs]
  field_simp

/-- The Gottschalk scattering length of carbon is positive. -/
theorem scattering_length_carbon (rho th : ℝ) :
    ∃ X, scattering_length (⟨rho, th, 12, 0, [⟨12, 6, 1⟩]⟩ : Material ℝ) = .ok X ∧ 0 < X := by
  have hci : castInt (12 : ℝ) = .ok 12 := by
    have := castInt_real 12 (by norm_num) (by norm_num)
    exact_mod_cast this
  have hlog : 1 < Real.log (33219.0 * (72 : ℝ) ^ ((-1.0 : ℝ) / 3.0)) := by
    rw [Real.lt_log_iff_exp_lt (by positivity)]
    have h1 : ((72 : ℝ) ^ ((-1.0 : ℝ) / 3.0)) ^ 3 = 1 / 72 := by
      rw [← Real.rpow_natCast, ← Real.rpow_mul (by norm_num)]
      norm_num
    have h2 : (0 : ℝ) < (72 : ℝ) ^ ((-1.0 : ℝ) / 3.0) := by positivity
    have h3 : 1 / 5 < (72 : ℝ) ^ ((-1.0 : ℝ) / 3.0) := by
      by_contra h
      push Not at h
      have := pow_le_pow_left₀ h2.le h 3
      rw [h1] at this
      norm_num at this
    have := Real.exp_one_lt_d9
    norm_num at h3 this ⊢
    linarith
  have hw : Material.wfrac (⟨rho, th, 12, 0, [⟨12, 6, 1⟩]⟩ : Material ℝ) ⟨12, 6, 1⟩ = 1 := by
    unfold Material.wfrac
    rw [if_neg (by rw [lt_real]; norm_num)]
    norm_num
  have hz : (0 : ℝ) < scattering_length_az 12 6 := by
    unfold scattering_length_az
    simp only [ofInt_real, pow_real, log_real]
    push_cast
    norm_num at hlog ⊢
    linarith
  refine ⟨1.0 / (0.0 + 1 / scattering_length_az 12 6), ?_, by positivity⟩
  unfold scattering_length
  rw [List.foldlM_cons, hci, bind_ok, hw]
  rfl

/-- Gottschalk's correction becomes negative when the energy has hardly changed. -/
theorem gottschalk_negative (c1 c2 : ℝ) (h1 : c1 ≤ -17) (h3 : c2 ≤ 5) :
    0.5244 + 0.1975 * c1 + 0.2320 * c2 - (0.0098 * c2 * c1) < 0 := by
  norm_num
  nlinarith [mul_nonneg (sub_nonneg.mpr h3) (show 0 ≤ -17 - c1 by linarith)]

/-- C59, what fails: with Gottschalk's formula the variance of the angle of carbon behind a thin sheet
of carbon is negative, so its square root, the angular straggling, does not exist.  `E ≠ T` shows
that the layer changes the energy.  (Should the interpolated range decrease at `T`, so that `E > T`,
the code takes the logarithm of a negative number, which is not a number either.) -/
theorem angular_variance_wrong (env : Env ℝ) (hdbg : env.debug = false) :
    ∃ (T th E v : ℝ) (w' : World ℝ), 0 < th ∧ 30 < T ∧ E ≠ T ∧
      energy_out env ⟨12, 6, 6, T⟩ (⟨2, th, 12, 0, [⟨12, 6, 1⟩]⟩ : Material ℝ)
        { (Config.default : Config ℝ) with scattering := scattering_gottschalk } .init = .ok (E, w') ∧
      angular_variance env ⟨12, 6, 6, T⟩ (⟨2, th, 12, 0, [⟨12, 6, 1⟩]⟩ : Material ℝ)
        { (Config.default : Config ℝ) with scattering := scattering_gottschalk } 0 .init = .ok (v, w') ∧
      v < 0 := by
  set c : Config ℝ := { (Config.default : Config ℝ) with scattering := scattering_gottschalk } with hcdef
  have hc : ∀ T th, Computable ⟨12, 6, 6, T⟩ 6 (⟨2, th, 12, 0, [⟨12, 6, 1⟩]⟩ : Material ℝ) c := fun T th =>
    ⟨(carbon_water_usual 6 T).1.ion, by norm_num, ⟨by simp, by simp, by simp, by simp, by norm_num⟩,
      by simp, Or.inl rfl⟩
  have hnd : ∀ T th, NonDefault ⟨12, 6, 6, T⟩ (⟨2, th, 12, 0, [⟨12, 6, 1⟩]⟩ : Material ℝ) c := by
    intro T th
    simp only [NonDefault, Key.eq, Key.default, Projectile.eq, Projectile.default]
    simp
    intro h
    norm_num at h
  have hu : Usual ⟨12, 6, 6, 100⟩ 6 (⟨2, 1, 12, 0, [⟨12, 6, 1⟩]⟩ : Material ℝ) :=
    ⟨(carbon_water_usual 6 100).2.1, by simp [TypicalI]⟩
  obtain ⟨rs, f, T, d, hT1, hT2, -, hsm, hdata⟩ :=
    smooth_range env _ 6 _ _ (hc 100 1) hu (hnd 100 1) 300 (by norm_num) (by norm_num)
  obtain ⟨hb1, hb2⟩ := table_around_100
  obtain ⟨δ, hδ, hout⟩ := thin_energy_out hsm
  have hd := abs_pos.mpr hsm.ne
  have hu := amu_pos
  have hT0 : 0 < T := by linarith
  -- momentum times velocity
  set q : ℝ → ℝ := fun e => 12 * (e * (e + 2 * atomic_mass_unit)) / (e + atomic_mass_unit) with hq
  have hqpos : ∀ e, 0 < e → 0 < q e := by
    intro e he
    simp only [hq]
    positivity
  have hqbounds : ∀ e, 30 ≤ e → e ≤ 1100 → q e ≤ 1e5 := by
    intro e h1 h2
    simp only [hq]
    have : 0 < e + atomic_mass_unit := by linarith
    rw [div_le_iff₀ this]
    norm_num
    nlinarith
  have hqcont : ContinuousAt (fun e => 1 - (q e / q T) ^ 2) T := by
    have h1 : T + atomic_mass_unit ≠ 0 := by linarith
    have h2 : q T ≠ 0 := (hqpos T hT0).ne'
    simp only [hq] at h2 ⊢
    fun_prop (disch := assumption)
  have hqinj : ∀ e, 0 < e → e ≠ T → q e ≠ q T := by
    intro e he hne heq
    simp only [hq] at heq
    have h1 : e + atomic_mass_unit ≠ 0 := by linarith
    have h2 : T + atomic_mass_unit ≠ 0 := by linarith
    rw [div_eq_div_iff h1 h2] at heq
    have : (e - T) * (e * T + atomic_mass_unit * (e + T) + 2 * atomic_mass_unit ^ 2) = 0 := by
      linear_combination heq / 12
    rcases mul_eq_zero.mp this with h | h
    · exact hne (by linarith)
    · have : 0 < e * T + atomic_mass_unit * (e + T) + 2 * atomic_mass_unit ^ 2 := by positivity
      linarith
  obtain ⟨η, hη, hη'⟩ := Metric.continuousAt_iff.mp hqcont (1e-17) (by norm_num)
  have hqT : 1 - (q T / q T) ^ 2 = 0 := by rw [div_self (hqpos T hT0).ne']; norm_num
  obtain ⟨th, h0, h1, h2, h3, h4⟩ : ∃ th : ℝ, 0 < th ∧ th < δ ∧ th / |d| < 1 ∧ th / |d| < η ∧ th < f T := by
    have hf := hsm.pos
    refine ⟨min (min (δ / 2) (f T / 2)) (|d| * min (1 / 2) (η / 2)), by positivity, ?_, ?_, ?_, ?_⟩
    · have := min_le_left (min (δ / 2) (f T / 2)) (|d| * min (1 / 2) (η / 2))
      have := min_le_left (δ / 2) (f T / 2)
      linarith
    · rw [div_lt_iff₀ hd]
      have := min_le_right (min (δ / 2) (f T / 2)) (|d| * min (1 / 2) (η / 2))
      have := mul_le_mul_of_nonneg_left (min_le_left (1 / 2) (η / 2)) hd.le
      linarith
    · rw [div_lt_iff₀ hd]
      have := min_le_right (min (δ / 2) (f T / 2)) (|d| * min (1 / 2) (η / 2))
      have := mul_le_mul_of_nonneg_left (min_le_right (1 / 2) (η / 2)) hd.le
      nlinarith
    · have := min_le_left (min (δ / 2) (f T / 2)) (|d| * min (1 / 2) (η / 2))
      have := min_le_right (δ / 2) (f T / 2)
      linarith
  obtain ⟨X, hX, hX0⟩ := scattering_length_carbon 2 th
  obtain ⟨dd, wd, hg, hrs⟩ := hdata .init ⟨[], rfl⟩ T th
  have hE1 : energy_out env ⟨12, 6, 6, T⟩ (⟨2, th, 12, 0, [⟨12, 6, 1⟩]⟩ : Material ℝ) c .init =
      .ok (T - th / d, wd) := by
    unfold energy_out
    simp only [api_bind, api_pureM, ok_bind]
    exact ⟨dd, wd, hg, ⟨rs, hrs, hout th h0.le h1 _⟩, rfl⟩
  have hrr : smin (f T / 2) (Material.thickness_cm (⟨2, th, 12, 0, [⟨12, 6, 1⟩]⟩ : Material ℝ)) = th / 2 := by
    show (if Scalar.lt (th / 2) (f T / 2) = true then th / 2 else f T / 2) = _
    rw [if_pos (by rw [lt_real]; linarith)]
  have hfx : ∀ x, Inner 0 (th / 2) x → ∃ v, fx0p_2 false ⟨12, 6, 6, T⟩
      (⟨2, th, 12, 0, [⟨12, 6, 1⟩]⟩ : Material ℝ) 0 rs (th / 2) (p_from_T T 12)
      (p_from_T T 12 / ((T + atomic_mass_unit) * 12)) x = .ok v ∧ v < 0 := by
    intro x hx
    have hx0 : 0 < x * 2 := by have := hx.1; linarith
    have hx1 : x * 2 < th := by have := hx.2; linarith
    set E := T - x * 2 / d with hE
    have hxd : |x * 2 / d| < th / |d| := by
      rw [abs_div, abs_of_pos hx0]
      exact div_lt_div_of_pos_right hx1 hd
    obtain ⟨ha1, ha2⟩ := abs_lt.mp (hxd.trans h2)
    have hE30 : 30 ≤ E := by linarith
    have hE0 : 0 < E := by linarith
    have hne : E ≠ T := by
      intro h
      have : x * 2 / d = 0 := by linarith
      exact (div_ne_zero hx0.ne' hsm.ne) this
    have hdist := hη' (show dist E T < η by
      rw [Real.dist_eq, show E - T = -(x * 2 / d) by rw [hE]; ring, abs_neg]; exact hxd.trans h3)
    rw [hqT, Real.dist_eq, sub_zero] at hdist
    have b2 := hqbounds E hE30 (by linarith)
    have hqE := hqpos E hE0
    have hqT' := hqpos T hT0
    have harg : 1 - (q E / q T) ^ 2 ≠ 0 := by
      intro h
      have h5 : (q E / q T) ^ 2 = 1 := by linarith
      have h6 : q E / q T = 1 := by
        have h7 : 0 < q E / q T := by positivity
        nlinarith
      exact hqinj E hE0 hne ((div_eq_one_iff_eq hqT'.ne').mp h6)
    have hl1 : Real.logb 10 (1 - (q E / q T) ^ 2) ≤ -17 := by
      rw [← Real.logb_abs, Real.logb_le_iff_le_rpow (by norm_num) (abs_pos.mpr harg)]
      refine hdist.le.trans (le_of_eq ?_)
      rw [Real.rpow_neg (by norm_num), show (17 : ℝ) = ((17 : ℕ) : ℝ) by norm_num, Real.rpow_natCast]
      norm_num
    have hl3 : Real.logb 10 (q E) ≤ 5 := by
      rw [Real.logb_le_iff_le_rpow (by norm_num) hqE]
      refine b2.trans (le_of_eq ?_)
      rw [show (5 : ℝ) = ((5 : ℕ) : ℝ) by norm_num, Real.rpow_natCast]
      norm_num
    have hneg := gottschalk_negative _ _ hl1 hl3
    unfold fx0p_2
    rw [hout (x * 2) hx0.le (hx1.trans h1) false, bind_ok]
    unfold angular_scattering_power_xs
    dsimp only
    rw [if_neg (by rw [le_real]; norm_num; exact hE0), hX, bind_ok]
    refine ⟨_, rfl, ?_⟩
    show (1.0 : ℝ) * ((0.5244 + 0.1975 * Real.logb 10 (1.0 -
        p_from_T E 12 * (p_from_T E 12 / ((E + atomic_mass_unit) * 12)) /
          (p_from_T T 12 * (p_from_T T 12 / ((T + atomic_mass_unit) * 12))) *
        (p_from_T E 12 * (p_from_T E 12 / ((E + atomic_mass_unit) * 12)) /
          (p_from_T T 12 * (p_from_T T 12 / ((T + atomic_mass_unit) * 12))))) +
      0.2320 * Real.logb 10 (p_from_T E 12 * (p_from_T E 12 / ((E + atomic_mass_unit) * 12))) -
      0.0098 * Real.logb 10 (p_from_T E 12 * (p_from_T E 12 / ((E + atomic_mass_unit) * 12))) *
        Real.logb 10 (1.0 -
        p_from_T E 12 * (p_from_T E 12 / ((E + atomic_mass_unit) * 12)) /
          (p_from_T T 12 * (p_from_T T 12 / ((T + atomic_mass_unit) * 12))) *
        (p_from_T E 12 * (p_from_T E 12 / ((E + atomic_mass_unit) * 12)) /
          (p_from_T T 12 * (p_from_T T 12 / ((T + atomic_mass_unit) * 12)))))) * 225.0 * (6 * 6) /
      (X * (p_from_T E 12 * (p_from_T E 12 / ((E + atomic_mass_unit) * 12)) *
        (p_from_T E 12 * (p_from_T E 12 / ((E + atomic_mass_unit) * 12)))))) < 0
    rw [show p_from_T E 12 * (p_from_T E 12 / ((E + atomic_mass_unit) * 12)) = q E from
        pv_eq E 12 hE0 (by norm_num),
      show p_from_T T 12 * (p_from_T T 12 / ((T + atomic_mass_unit) * 12)) = q T from
        pv_eq T 12 hT0 (by norm_num), show (1.0 : ℝ) = 1 by norm_num, one_mul,
      show q E / q T * (q E / q T) = (q E / q T) ^ 2 by ring]
    apply div_neg_of_neg_of_pos _ (by positivity)
    rw [mul_assoc]
    exact mul_neg_of_neg_of_pos hneg (by norm_num)
  obtain ⟨I, hI, hI0⟩ := integrator_neg _ 0 (th / 2) (by linarith) hfx
  refine ⟨T, th, T - th / d, I * 2, wd, h0, by linarith, ?_, hE1, ?_, by linarith⟩
  · intro h
    have : th / d = 0 := by linarith
    exact (div_ne_zero h0.ne' hsm.ne) this
  · unfold angular_variance
    simp only [hdbg, api_bind, api_pureM, ok_bind]
    refine ⟨(), .init, ⟨by simp [cassert], rfl⟩, (), .init, ⟨by simp [cassert], rfl⟩, (), .init,
      ⟨by simp [cassert], rfl⟩, dd, wd, hg, ⟨rs, hrs, ?_⟩, rfl⟩
    unfold angular_variance_from
    dsimp only
    rw [hsm.eval, bind_ok, if_pos rfl, hrr, show (0.0 : ℝ) = 0 by norm_num, hdbg, hI, bind_ok]
    rfl

/-- Carbon behind any sheet of carbon meets the hypotheses of `angular_moments_partial` at some energies
between 40 and 1000 MeV/u, with the default configuration. -/
example (env : Env ℝ) (hdbg : env.debug = false) (th : ℝ) (hth : 0 < th) :
    ∃ T v0 v1 v2 w', 40 < T ∧ T < 1000 ∧
      angular_variance env ⟨12, 6, 6, T⟩ (⟨2, th, 12, 0, [⟨12, 6, 1⟩]⟩ : Material ℝ) .default 0 .init =
        .ok (v0, w') ∧
      angular_variance env ⟨12, 6, 6, T⟩ (⟨2, th, 12, 0, [⟨12, 6, 1⟩]⟩ : Material ℝ) .default 1 .init =
        .ok (v1, w') ∧
      angular_variance env ⟨12, 6, 6, T⟩ (⟨2, th, 12, 0, [⟨12, 6, 1⟩]⟩ : Material ℝ) .default 2 .init =
        .ok (v2, w') ∧ 0 ≤ v0 ∧ 0 ≤ v1 ∧ 0 ≤ v2 ∧ v1 ^ 2 ≤ v0 * v2 := by
  have hc : ∀ T, Computable ⟨12, 6, 6, T⟩ 6 (⟨2, th, 12, 0, [⟨12, 6, 1⟩]⟩ : Material ℝ) .default := fun T =>
    ⟨(carbon_water_usual 6 T).1.ion, by norm_num, ⟨by simp, by simp, by simp, by simp, by norm_num⟩,
      by simp, Or.inl rfl⟩
  have hnd : ∀ T, NonDefault ⟨12, 6, 6, T⟩ (⟨2, th, 12, 0, [⟨12, 6, 1⟩]⟩ : Material ℝ) .default := by
    intro T
    simp only [NonDefault, Key.eq, Key.default, Projectile.eq, Projectile.default]
    simp
    intro h
    norm_num at h
  have hu : Usual ⟨12, 6, 6, 100⟩ 6 (⟨2, th, 12, 0, [⟨12, 6, 1⟩]⟩ : Material ℝ) :=
    ⟨(carbon_water_usual 6 100).2.1, by simp [TypicalI]⟩
  obtain ⟨rs, f, T, d, hT1, hT2, -, hsm, hdata⟩ :=
    smooth_range env _ 6 _ _ (hc 100) hu (hnd 100) 300 (by norm_num) (by norm_num)
  obtain ⟨hb1, hb2⟩ := table_around_100
  obtain ⟨dd, wd, hg, hrs⟩ := hdata .init ⟨[], rfl⟩ T th
  have hR : range env ⟨12, 6, 6, T⟩ (⟨2, th, 12, 0, [⟨12, 6, 1⟩]⟩ : Material ℝ) .default .init =
      .ok (f T, wd) := by
    unfold range
    simp only [api_bind, api_pureM, ok_bind]
    exact ⟨dd, wd, hg, ⟨rs, hrs, hsm.eval T⟩, rfl⟩
  obtain ⟨v0, v1, v2, h⟩ := angular_moments_partial env hdbg .init ⟨[], rfl⟩ _ 6 _ _ (hc T) (hnd T)
    (by norm_num) hth.le (by decide) (f T) wd hR hsm.pos.le (fun h => by cases h)
  exact ⟨T, v0, v1, v2, wd, by linarith, by linarith, h⟩

end Catima
