import Verif.Props.StragglingJumps
import Verif.Props.StragglingNumber
import Verif.Props.ScatterFactor
import Verif.Props.CompoundRange

/-!
# C140: what the straggling option of the configuration changes
-/

namespace Catima

theorem Computable.withOption {p : Projectile ℝ} {n : Int} {t : Material ℝ} {c : Config ℝ} (h : Computable p n t c) (k : Nat) :
    Computable p n t { c with calculation := k } := ⟨h.ion, h.small, h.sound, h.known, h.charge⟩

/-- The stopping power does not depend on the straggling option. -/
theorem dedx_option (env : Env ℝ) (p : Projectile ℝ) (t : Material ℝ) (c : Config ℝ) (k : Nat) :
    dedx env p t { c with calculation := k } = dedx env p t c := rfl

/-- The range interpolator does not depend on the straggling option. -/
theorem range_spline_option (env : Env ℝ) (p : Projectile ℝ) (n : Int) (t : Material ℝ) (c : Config ℝ) (k : Nat)
    (h : Computable p n t c) (hk : NonDefault p t c) (hk' : NonDefault p t { c with calculation := k }) :
    ∃ rs, (∀ w, ReachableW env w → ∃ d w', get_data env p t c w = .ok (d, w') ∧ get_range_spline env d = .ok rs) ∧
      ∀ w, ReachableW env w → ∃ d w', get_data env p t { c with calculation := k } w = .ok (d, w') ∧ get_range_spline env d = .ok rs := by
  obtain ⟨d0, rs, h0, -, hrs, -, hview⟩ := range_spline env p n t c h hk
  obtain ⟨d1, rs1, h1, -, hrs1, -, hview1⟩ := range_spline env p n t _ (h.withOption k) hk'
  have e0 := (data_point_parts env p t c d0 h0).1
  have e1 := (data_point_parts env p t _ d1 h1).1
  have ef : fdedx env p t { c with calculation := k } = fdedx env p t c := by
    funext x
    unfold fdedx
    rw [dedx_option]
  rw [ef, e0] at e1
  rw [← Except.ok.inj e1, hrs] at hrs1
  obtain rfl := Except.ok.inj hrs1
  exact ⟨rs, fun w hr => hview w hr p.T t.th, fun w hr => hview1 w hr p.T t.th⟩

/-- The variance of the angle, the covariance and the variance of the position do not depend on the straggling option. -/
theorem angular_variance_option (env : Env ℝ) (p : Projectile ℝ) (n : Int) (t : Material ℝ) (c : Config ℝ) (k : Nat)
    (h : Computable p n t c) (hk : NonDefault p t c) (hk' : NonDefault p t { c with calculation := k })
    (w1 w2 : World ℝ) (r1 : ReachableW env w1) (r2 : ReachableW env w2) (o : Int) (v : ℝ) (u1 : World ℝ)
    (hv : angular_variance env p t c o w1 = .ok (v, u1)) :
    ∃ u2, angular_variance env p t { c with calculation := k } o w2 = .ok (v, u2) := by
  obtain ⟨rs, a1, a2⟩ := range_spline_option env p n t c k h hk hk'
  obtain ⟨d1, x1, g1, s1⟩ := a1 w1 r1
  obtain ⟨d2, x2, g2, s2⟩ := a2 w2 r2
  unfold angular_variance at hv ⊢
  simp only [api_bind, api_pureM, ok_bind] at hv ⊢
  obtain ⟨_, y1, ⟨c1, rfl⟩, _, y2, ⟨c2, rfl⟩, _, y3, ⟨c3, rfl⟩, d, y4, hd, ⟨rs', hs, hfrom⟩, rfl⟩ := hv
  rw [g1] at hd
  obtain ⟨rfl, rfl⟩ := Prod.mk.inj (Except.ok.inj hd)
  rw [s1] at hs
  obtain rfl := Except.ok.inj hs
  exact ⟨x2, _, w2, ⟨c1, rfl⟩, _, w2, ⟨c2, rfl⟩, _, w2, ⟨c3, rfl⟩, d2, x2, g2, ⟨rs, s2, hfrom⟩, rfl⟩

/-- The probability not to react does not depend on the straggling option. -/
theorem nonreaction_option (env : Env ℝ) (p : Projectile ℝ) (n : Int) (t : Material ℝ) (c : Config ℝ) (k : Nat)
    (h : Computable p n t c) (hk : NonDefault p t c) (hk' : NonDefault p t { c with calculation := k })
    (w1 w2 : World ℝ) (r1 : ReachableW env w1) (r2 : ReachableW env w2) (v : ℝ) (u1 : World ℝ)
    (hv : nonreaction_rate env p t c w1 = .ok (v, u1)) :
    ∃ u2, nonreaction_rate env p t { c with calculation := k } w2 = .ok (v, u2) := by
  obtain ⟨rs, a1, a2⟩ := range_spline_option env p n t c k h hk hk'
  obtain ⟨d1, x1, g1, s1⟩ := a1 w1 r1
  obtain ⟨d2, x2, g2, s2⟩ := a2 w2 r2
  unfold nonreaction_rate at hv ⊢
  by_cases b1 : (p.T <? (emin_reaction : ℝ)) = true
  · rw [if_pos b1, api_pure] at hv
    exact ⟨w2, by rw [if_pos b1, ← hv.1]; rfl⟩
  by_cases b2 : (t.th ≤? (0.0 : ℝ)) = true
  · rw [if_neg b1, if_pos b2, api_pure] at hv
    exact ⟨w2, by rw [if_neg b1, if_pos b2, ← hv.1]; rfl⟩
  rw [if_neg b1, if_neg b2] at hv ⊢
  simp only [api_bind, api_pureM, ok_bind] at hv ⊢
  obtain ⟨d, y4, hd, ⟨rs', hs, hfrom⟩, rfl⟩ := hv
  rw [g1] at hd
  obtain ⟨rfl, rfl⟩ := Prod.mk.inj (Except.ok.inj hd)
  rw [s1] at hs
  obtain rfl := Except.ok.inj hs
  exact ⟨x2, d2, x2, g2, ⟨rs, s2, hfrom⟩, rfl⟩

/-- C140: two calls of `calculate` that differ in the straggling option, after any two histories, report the same energies, range,
stopping powers, position spread, covariance and probability not to react; the angular spread too, unless it is taken from the table. -/
theorem straggling_option_isolated (env : Env ℝ) (p : Projectile ℝ) (n : Int) (t : Material ℝ) (c : Config ℝ) (k : Nat)
    (h : Computable p n t c) (hk : NonDefault p t c) (hk' : NonDefault p t { c with calculation := k })
    (w1 w2 u1 u2 : World ℝ) (r1 : ReachableW env w1) (r2 : ReachableW env w2) (a b : Result ℝ)
    (ha : calculate env p t c w1 = .ok (a, u1)) (hb : calculate env p t { c with calculation := k } w2 = .ok (b, u2)) :
    a.Ein = b.Ein ∧ a.Eout = b.Eout ∧ a.Eloss = b.Eloss ∧ a.range = b.range ∧ a.dEdxi = b.dEdxi ∧ a.dEdxo = b.dEdxo ∧
      a.sigma_x = b.sigma_x ∧ a.cov = b.cov ∧ a.sp = b.sp ∧
      (c.scattering ≠ scattering_atima → t.th < a.range → a.sigma_a = b.sigma_a) := by
  obtain ⟨rs0, a1, a2⟩ := range_spline_option env p n t c k h hk hk'
  obtain ⟨d1, x1, g1, s1⟩ := a1 w1 r1
  obtain ⟨d2, x2, g2, s2⟩ := a2 w2 r2
  rcases calculate_steps ha with ⟨hs, rfl, -⟩ | ⟨hs, y1, e1, rs, ss, hst, ha'⟩
  · rcases calculate_steps hb with ⟨-, rfl, -⟩ | ⟨hs', -⟩
    · exact ⟨rfl, rfl, rfl, rfl, rfl, rfl, rfl, rfl, rfl, fun _ _ => rfl⟩
    · rw [hs] at hs'; cases hs'
  rcases calculate_steps hb with ⟨hs', -, -⟩ | ⟨-, y2, e2, rs', ss', hst', hb'⟩
  · rw [hs] at hs'; cases hs'
  have q1 := hst.data
  rw [g1] at q1
  obtain ⟨rfl, rfl⟩ := Prod.mk.inj (Except.ok.inj q1)
  have q2 := hst'.data
  rw [g2] at q2
  obtain ⟨rfl, rfl⟩ := Prod.mk.inj (Except.ok.inj q2)
  have q3 := hst.rspline
  rw [s1] at q3
  obtain rfl := Except.ok.inj q3
  have q4 := hst'.rspline
  rw [s2] at q4
  obtain rfl := Except.ok.inj q4
  have eR : a.range = b.range := by
    have := hst.range
    rw [hst'.range] at this
    exact (Except.ok.inj this).symm
  have eD : a.dEdxi = b.dEdxi := by
    obtain ⟨D, f1, f2⟩ := hst.dEdxi
    obtain ⟨D', f1', f2'⟩ := hst'.dEdxi
    rw [f1] at f1'
    rw [f2, f2', Except.ok.inj f1']
  have eI : a.Ein = b.Ein := by rw [hst.ein, hst'.ein]
  have hT' : ((p.T <? Ezero) && (p.T <? Ezero - numeric_epsilon)) = false := hs
  rcases ha' with ⟨z0, -, za⟩ | ⟨z0, hE, hL, wa, wb, wc, sx, hcase, -⟩
  · rcases hb' with ⟨-, -, zb⟩ | ⟨z1, -⟩
    · refine ⟨eI, ?_, ?_, eR, eD, ?_, ?_, ?_, ?_, ?_⟩ <;> rw [za, zb]
      · exact eD
      · exact fun _ _ => rfl
    · rw [z0] at z1; cases z1
  rcases hb' with ⟨z1, -⟩ | ⟨-, hE', hL', wa', wb', wc', sx', hcase', -⟩
  · rw [z0] at z1; cases z1
  have eE : a.Eout = b.Eout := by
    rw [hE] at hE'
    exact Except.ok.inj hE'
  obtain ⟨⟨v1, m1, m2⟩, m3, ⟨o1, m4⟩, m5⟩ := calculate_agrees_out env p t c w1 u1 a r1 (key_refl_real _) hT' z0 ha
  obtain ⟨⟨v2, l1, l2⟩, l3, ⟨o2, l4⟩, l5⟩ := calculate_agrees_out env p t _ w2 u2 b r2 (key_refl_real _) hT' z0 hb
  have hv := fun o => angular_variance_option env p n t c k h hk hk' w1 w2 r1 r2 o
  refine ⟨eI, eE, by rw [hL, hL', eE], eR, eD, ?_, ?_, ?_, ?_, fun hsc hth => ?_⟩
  · rcases hcase with ⟨i1, i2, -⟩ | ⟨i1, i2⟩
    · rcases hcase' with ⟨j1, j2, -⟩ | ⟨j1, -⟩
      · rw [i2, j2]
      · rw [← eE, i1] at j1; cases j1
    · rcases hcase' with ⟨j1, -⟩ | ⟨j1, j2⟩
      · rw [← eE, i1] at j1; cases j1
      · obtain ⟨D, f1, f2⟩ := i2.slope
        obtain ⟨D', f1', f2'⟩ := j2.slope
        rw [← eE, f1] at f1'
        rw [f2, f2', Except.ok.inj f1']
  · obtain ⟨x, hx⟩ := hv 2 _ _ m1
    rw [l1] at hx
    rw [m2, l2, (Prod.mk.inj (Except.ok.inj hx)).1]
  · obtain ⟨x, hx⟩ := hv 1 _ _ m3
    rw [l3] at hx
    exact (Prod.mk.inj (Except.ok.inj hx)).1.symm
  · obtain ⟨x, hx⟩ := nonreaction_option env p n t c k h hk hk' w1 w2 r1 r2 _ _ m4
    rw [l4] at hx
    exact (Prod.mk.inj (Except.ok.inj hx)).1.symm
  · rcases hcase with ⟨i1, -, -, i2, -⟩ | ⟨i1, -⟩
    · rcases hcase' with ⟨j1, -, -, j2, -⟩ | ⟨j1, -⟩
      · rw [i2, j2]
      · rw [← eE, i1] at j1; cases j1
    · have k1 := (m5 i1).2.2.2 hsc (by rw [lt_real]; exact hth)
      have k2 := (l5 (by rw [← eE]; exact i1)).2.2.2 hsc (by rw [lt_real, ← eR]; exact hth)
      unfold angular_straggling at k1 k2
      simp only [api_bind, api_pure] at k1 k2
      obtain ⟨v, y, k1, e', -⟩ := k1
      obtain ⟨v', y', k2, e, -⟩ := k2
      obtain ⟨x, hx⟩ := hv 0 _ _ k1
      rw [k2] at hx
      rw [← e, ← e', (Prod.mk.inj (Except.ok.inj hx)).1]

/-- One component: the option atima never gives a smaller variance than the option bohr, the same where its correction is 0, a larger one
where the correction is positive and the limit of Firsov does not apply. -/
theorem variance_option (env : Env ℝ) {p : Projectile ℝ} {n : Int} {m : Material ℝ} {c : Config ℝ} (h : Computable p n m c) (k : Nat) (hk : k ≠ 0)
    (hT : 0 < p.T) (hr : LindhardReadable p.T) (t : Target ℝ) (ht : t ∈ m.atoms) :
    ∃ u v, dedx_variance env p t { c with calculation := k } = .ok u ∧ dedx_variance env p t { c with calculation := 0 } = .ok v ∧ u ≤ v ∧
      (2 * electron_mass * 1.0e6 * (beta_from_T p.T * beta_from_T p.T) ≤ 33.05 * (t.Z : ℝ) ^ (1.6364 : ℝ) → u = v) ∧
      (33.05 * (t.Z : ℝ) ^ (1.6364 : ℝ) < 2 * electron_mass * 1.0e6 * (beta_from_T p.T * beta_from_T p.T) → 30 ≤ p.T →
        (c.z_effective = 0 → 0 < p.Q) → u < v) := by
  have tZ : (1 : ℝ) ≤ t.Z := by exact_mod_cast h.sound.Z t ht
  have tA := h.sound.A t ht
  have hb := (gamma_beta_bounds p.T hT).2.1
  have hb2 : 0 < beta_from_T p.T * beta_from_T p.T := mul_pos hb hb
  obtain ⟨X, hX⟩ := lindhard_X_defined env.calcIndex h.ion h.small hr
  obtain ⟨q, hq⟩ := h.zeff env.debug p.T t
  have hq : z_effective env.debug p t c = .ok q := hq
  have e0 : omegaCor { c with calculation := k } t.Z (beta_from_T p.T * beta_from_T p.T) = 0 := by
    unfold omegaCor
    rw [if_neg hk]
  have cb := omegaCor_bounds { c with calculation := 0 } t.Z _ tZ hb2
  have e1 := variance_formula env p t { c with calculation := k } q X hq hX
  have e2 := variance_formula env p t { c with calculation := 0 } q X hq hX
  have hd0 : (0 : ℝ) < domega2dx_constant := by norm_num [domega2dx_constant, dedx_constant, electron_mass]
  have hm : (0 : ℝ) < electron_mass := by norm_num [electron_mass]
  have hK : 0 ≤ domega2dx_constant * q ^ 2 * t.Z / t.A := by positivity
  refine ⟨_, _, e1, e2, ?_, fun hle => ?_, fun hlt h30 hQ => ?_⟩
  · rw [e0]
    have main : domega2dx_constant * q ^ 2 * t.Z / t.A * (X * (gamma_from_T p.T * gamma_from_T p.T) + 0) ≤
        domega2dx_constant * q ^ 2 * t.Z / t.A * (X * (gamma_from_T p.T * gamma_from_T p.T) +
          omegaCor { c with calculation := 0 } t.Z (beta_from_T p.T * beta_from_T p.T)) :=
      mul_le_mul_of_nonneg_left (by linarith [cb.1]) hK
    split
    · exact min_le_min_right _ main
    · exact main
  · have e3 : omegaCor { c with calculation := 0 } t.Z (beta_from_T p.T * beta_from_T p.T) = 0 := by
      have h0 : (0 : ℝ) < 33.05 * (t.Z : ℝ) ^ (1.6364 : ℝ) := mul_pos (by norm_num) (Real.rpow_pos_of_pos (by linarith) _)
      have hlog : Real.log (2.0 * electron_mass * 1.0e6 * (beta_from_T p.T * beta_from_T p.T) / (33.05 * (t.Z : ℝ) ^ (1.6364 : ℝ))) ≤ 0 := by
        rw [show (2.0 : ℝ) = 2 by norm_num]
        exact Real.log_nonpos (div_nonneg (by positivity) h0.le) ((div_le_one h0).mpr hle)
      unfold omegaCor
      rw [if_pos rfl]
      have hz : 0 < (t.Z : ℝ) ^ (1.2324 : ℝ) := Real.rpow_pos_of_pos (by linarith) _
      exact max_eq_right (mul_nonpos_of_nonneg_of_nonpos (by positivity) hlog)
    rw [e0, e3]
  · rw [if_neg (by linarith), if_neg (by linarith), e0]
    have q0 : 0 < q := by
      rcases h.charge with h1 | ⟨h1, -⟩
      · rw [(z_effective_basic env.debug p t c).2 h1] at hq
        rw [← Except.ok.inj hq, pierce_blann_eq]
        refine mul_pos h.posZ ?_
        rw [sub_pos, Real.exp_lt_one_iff]
        have := pierce_rate_pos p.Z h.posZ
        rw [neg_lt_zero]
        positivity
      · rw [(z_effective_basic env.debug p t c).1 h1] at hq
        rw [← Except.ok.inj hq]
        exact hQ h1
    have c0 : 0 < omegaCor { c with calculation := 0 } t.Z (beta_from_T p.T * beta_from_T p.T) := by
      have h0 : (0 : ℝ) < 33.05 * (t.Z : ℝ) ^ (1.6364 : ℝ) := mul_pos (by norm_num) (Real.rpow_pos_of_pos (by linarith) _)
      have hlog : 0 < Real.log (2.0 * electron_mass * 1.0e6 * (beta_from_T p.T * beta_from_T p.T) / (33.05 * (t.Z : ℝ) ^ (1.6364 : ℝ))) := by
        rw [show (2.0 : ℝ) = 2 by norm_num]
        exact Real.log_pos ((one_lt_div h0).mpr hlt)
      unfold omegaCor
      rw [if_pos rfl]
      have hz : 0 < (t.Z : ℝ) ^ (1.2324 : ℝ) := Real.rpow_pos_of_pos (by linarith) _
      exact lt_max_of_lt_left (mul_pos (by positivity) hlog)
    exact mul_lt_mul_of_pos_left (by linarith) (by positivity)

/-- C140: the energy-loss variance with the option atima is at least that with the option bohr; both agree where the correction of every
component is 0, and the former is larger from 30 MeV/u on where that of one component is positive. -/
theorem straggling_option_order (env : Env ℝ) {p : Projectile ℝ} {n : Int} {m : Material ℝ} {c : Config ℝ} (h : Computable p n m c) (k : Nat)
    (hk : k ≠ 0) (hT : 0 < p.T) (hr : LindhardReadable p.T) :
    ∃ u v, domega2dx env p m { c with calculation := k } = .ok u ∧ domega2dx env p m { c with calculation := 0 } = .ok v ∧ u ≤ v ∧
      ((∀ t ∈ m.atoms, 2 * electron_mass * 1.0e6 * (beta_from_T p.T * beta_from_T p.T) ≤ 33.05 * (t.Z : ℝ) ^ (1.6364 : ℝ)) → u = v) ∧
      ((∃ t ∈ m.atoms, 33.05 * (t.Z : ℝ) ^ (1.6364 : ℝ) < 2 * electron_mass * 1.0e6 * (beta_from_T p.T * beta_from_T p.T)) → 30 ≤ p.T →
        (c.z_effective = 0 → 0 < p.Q) → u < v) := by
  have hv := fun t ht => variance_option env h k hk hT hr t ht
  choose! u v h1 h2 h3 h4 h5 using hv
  have hw := fun t ht => Material.wfrac_pos h.sound t ht
  refine ⟨_, _, componentSum_ok m _ u h1, componentSum_ok m _ v h2, ?_, fun he => ?_, fun ⟨t, ht, hlt⟩ h30 hQ => ?_⟩
  · exact List.sum_le_sum fun t ht => mul_le_mul_of_nonneg_left (h3 t ht) (hw t ht).le
  · congr 1
    exact List.map_congr_left fun t ht => by rw [h4 t ht (he t ht)]
  · exact List.sum_lt_sum _ _ (fun t ht => mul_le_mul_of_nonneg_left (h3 t ht) (hw t ht).le)
      ⟨t, ht, mul_lt_mul_of_pos_left (h5 t ht hlt h30 hQ) (hw t ht)⟩

/-- C140: so the variance of the range at the energies of the table is at least as large with the option atima, and so is its growth from
one energy to another, on which the energy straggling depends, after any two histories. -/
theorem range_straggling_option (env : Env ℝ) {p : Projectile ℝ} {n : Int} {m : Material ℝ} {c : Config ℝ} (h : Computable p n m c) (k : Nat)
    (hk : k ≠ 0) (n1 : NonDefault p m { c with calculation := k }) (n2 : NonDefault p m { c with calculation := 0 })
    (w1 w2 : World ℝ) (r1 : ReachableW env w1) (r2 : ReachableW env w2) (i j : Nat) (hij : i ≤ j) (hj : j < 600) :
    ∃ u u' v v' w1' w2', range_variance env p ((energy_table : EnergyTable ℝ).val i) m { c with calculation := k } w1 = .ok (u, w1') ∧
      range_variance env p ((energy_table : EnergyTable ℝ).val j) m { c with calculation := k } w1 = .ok (u', w1') ∧
      range_variance env p ((energy_table : EnergyTable ℝ).val i) m { c with calculation := 0 } w2 = .ok (v, w2') ∧
      range_variance env p ((energy_table : EnergyTable ℝ).val j) m { c with calculation := 0 } w2 = .ok (v', w2') ∧
      u ≤ v ∧ u' - u ≤ v' - v := by
  obtain ⟨d1, s1, hd1, hl1, hs1, -, hv1⟩ := straggling_view env p n m _ (h.withOption k) n1
  obtain ⟨d2, s2, hd2, hl2, hs2, -, hv2⟩ := straggling_view env p n m _ (h.withOption 0) n2
  have hb := energy_table_bounds
  have ord : ∀ k, (energy_table : EnergyTable ℝ).val k < (energy_table : EnergyTable ℝ).val (k + 1) :=
    fun k => (EnergyTable.val_lt_iff _ hb.1 hb.2.1 k (k + 1)).mpr (by omega)
  have key : ∀ j < 599, ∃ I J : ℝ,
      integrator.integrate (fomega env p m { c with calculation := k }) ((energy_table : EnergyTable ℝ).val j)
        ((energy_table : EnergyTable ℝ).val (j + 1)) = .ok I ∧
      integrator.integrate (fomega env p m { c with calculation := 0 }) ((energy_table : EnergyTable ℝ).val j)
        ((energy_table : EnergyTable ℝ).val (j + 1)) = .ok J ∧ I ≤ J := by
    intro j hj
    obtain ⟨I, J, hI, hJ, hIJ⟩ := integrator_le_sum [()] (fun _ => 1) (fomega env p m { c with calculation := k })
      (fun _ => fomega env p m { c with calculation := 0 }) _ _ (ord j) fun x hx => by
        obtain ⟨-, -, -, -, x0, hr⟩ := inner_grid j hj x hx
        obtain ⟨u, v, e1, e2, huv, -⟩ := straggling_option_order env (h.withT x) k hk x0 hr
        obtain ⟨s, hs⟩ := h.dedx env x x0 hr
        refine ⟨u / power s 3.0, fun _ => v / power s 3.0, ?_, fun _ _ => ?_, ?_⟩
        · unfold fomega
          rw [e1, dedx_option, hs]
          rfl
        · unfold fomega
          rw [e2, dedx_option, hs]
          rfl
        · have := div_le_div_of_nonneg_right huv (show 0 ≤ power s (3.0 : ℝ) from (Real.exp_pos _).le)
          simpa using this
    exact ⟨I, J (), hI, hJ () (by simp), by simpa using hIJ⟩
  choose! I J hI hJ hIJ using key
  obtain ⟨-, z1, t1⟩ := table_step p.A _ _ (data_point_parts env p m _ d1 hd1).2.2 I hI
  obtain ⟨-, z2, t2⟩ := table_step p.A _ _ (data_point_parts env p m _ d2 hd2).2.2 J hJ
  have le : ∀ i j, i + j < 600 → ∃ u u' v v', d1.range_straggling[i]? = some u ∧ d1.range_straggling[i + j]? = some u' ∧
      d2.range_straggling[i]? = some v ∧ d2.range_straggling[i + j]? = some v' ∧ u' - u ≤ v' - v := by
    intro i j
    induction j with
    | zero =>
      intro hi
      exact ⟨_, _, _, _, List.getElem?_eq_getElem (by omega), List.getElem?_eq_getElem (by omega), List.getElem?_eq_getElem (by omega),
        List.getElem?_eq_getElem (by omega), by simp⟩
    | succ j ih =>
      intro hj
      obtain ⟨u, u', v, v', hu, hu', hv, hv', huv⟩ := ih (by omega)
      obtain ⟨a, b, ha, hb, hab⟩ := t1 (i + j) (by omega)
      obtain ⟨a', b', ha', hb', hab'⟩ := t2 (i + j) (by omega)
      rw [hu'] at ha
      rw [hv'] at ha'
      cases ha
      cases ha'
      have := mul_le_mul_of_nonneg_left (hIJ (i + j) (by omega)) h.ion.A.le
      exact ⟨u, b, v, b', hu, hb, hv, hb', by linarith⟩
  obtain ⟨j, rfl⟩ := Nat.exists_eq_add_of_le hij
  obtain ⟨u, u', v, v', hu, hu', hv, hv', huv⟩ := le i j hj
  obtain ⟨o, x, o', x', ho, hx, ho', hx', hox⟩ := le 0 i (by omega)
  rw [z1] at ho
  rw [z2] at ho'
  rw [Nat.zero_add, hu] at hx
  rw [Nat.zero_add, hv] at hx'
  cases ho
  cases ho'
  cases hx
  cases hx'
  obtain ⟨d1', w1', g1, q1⟩ := hv1 w1 r1
  obtain ⟨d2', w2', g2, q2⟩ := hv2 w2 r2
  have K1 : ∀ i < 600, ∀ u, d1.range_straggling[i]? = some u → s1.evaluate ((energy_table : EnergyTable ℝ).val i) = .ok u := by
    intro i hi u hu
    obtain ⟨s1', hs1', k1⟩ := library_knot env d1.range_straggling hl1 i hi u hu
    rw [hs1] at hs1'
    cases hs1'
    exact k1
  have K2 : ∀ i < 600, ∀ u, d2.range_straggling[i]? = some u → s2.evaluate ((energy_table : EnergyTable ℝ).val i) = .ok u := by
    intro i hi u hu
    obtain ⟨s1', hs1', k1⟩ := library_knot env d2.range_straggling hl2 i hi u hu
    rw [hs2] at hs1'
    cases hs1'
    exact k1
  exact ⟨u, u', v, v', w1', w2', variance_at g1 q1 (K1 _ (by omega) _ hu), variance_at g1 q1 (K1 _ hj _ hu'),
    variance_at g2 q2 (K2 _ (by omega) _ hv), variance_at g2 q2 (K2 _ hj _ hv'), by linarith, huv⟩

/-- Protons of 100 MeV in water: the option atima gives a larger energy-loss variance and no smaller range straggling. -/
example (env : Env ℝ) (w : World ℝ) (hw : ReachableW env w) : (∃ u v,
      domega2dx env ⟨1.00794, 1, 1, 100⟩ (⟨1, 1, 18.015, 0, [⟨1.00794, 1, 2⟩, ⟨15.9994, 8, 1⟩]⟩ : Material ℝ) .default = .ok u ∧
      domega2dx env ⟨1.00794, 1, 1, 100⟩ (⟨1, 1, 18.015, 0, [⟨1.00794, 1, 2⟩, ⟨15.9994, 8, 1⟩]⟩ : Material ℝ)
        { (Config.default : Config ℝ) with calculation := 0 } = .ok v ∧ u < v) ∧
    ∃ u u' v v' w1' w2', range_variance env ⟨1.00794, 1, 1, 100⟩ ((energy_table : EnergyTable ℝ).val 299)
        (⟨1, 1, 18.015, 0, [⟨1.00794, 1, 2⟩, ⟨15.9994, 8, 1⟩]⟩ : Material ℝ) .default w = .ok (u, w1') ∧
      range_variance env ⟨1.00794, 1, 1, 100⟩ ((energy_table : EnergyTable ℝ).val 330)
        (⟨1, 1, 18.015, 0, [⟨1.00794, 1, 2⟩, ⟨15.9994, 8, 1⟩]⟩ : Material ℝ) .default w = .ok (u', w1') ∧
      range_variance env ⟨1.00794, 1, 1, 100⟩ ((energy_table : EnergyTable ℝ).val 299)
        (⟨1, 1, 18.015, 0, [⟨1.00794, 1, 2⟩, ⟨15.9994, 8, 1⟩]⟩ : Material ℝ) { (Config.default : Config ℝ) with calculation := 0 } w = .ok (v, w2') ∧
      range_variance env ⟨1.00794, 1, 1, 100⟩ ((energy_table : EnergyTable ℝ).val 330)
        (⟨1, 1, 18.015, 0, [⟨1.00794, 1, 2⟩, ⟨15.9994, 8, 1⟩]⟩ : Material ℝ) { (Config.default : Config ℝ) with calculation := 0 } w = .ok (v', w2') ∧
      u ≤ v ∧ u' - u ≤ v' - v := by
  have hk : ∀ c : Config ℝ, NonDefault (⟨1.00794, 1, 1, 100⟩ : Projectile ℝ) ⟨1, 1, 18.015, 0, [⟨1.00794, 1, 2⟩, ⟨15.9994, 8, 1⟩]⟩ c := by
    intro c
    simp only [NonDefault, Key.eq, Key.default, Projectile.eq, Projectile.default]
    simp
    intro h
    norm_num at h
  have hr : LindhardReadable (100 : ℝ) := Or.inl (by
    have hs : (ls_energy_table : EnergyTable ℝ).step = 7 / 199 := by
      rw [EnergyTable.step_eq]; norm_num [ls_energy_table]
    have h1 : (ls_energy_table : EnergyTable ℝ).val 199 = Real.exp (7 * LN10) := by
      rw [EnergyTable.val_eq, hs]
      congr 1
      norm_num [ls_energy_table]
      ring
    have h2 := Real.add_one_le_exp (1.75 * LN10 : ℝ)
    have h3 : (5 : ℝ) ≤ Real.exp (1.75 * LN10) := le_trans (by norm_num [LN10]) h2
    have h4 : Real.exp (7 * LN10) = Real.exp (1.75 * LN10) ^ 4 := by rw [← Real.exp_nat_mul]; congr 1; norm_num; ring
    have h5 : (5 : ℝ) ^ 4 ≤ Real.exp (1.75 * LN10) ^ 4 := pow_le_pow_left₀ (by norm_num) h3 4
    rw [h1, h4]
    norm_num at h5 ⊢
    linarith)
  refine ⟨?_, range_straggling_option env proton_water_computable 1 one_ne_zero (hk _) (hk _) w w hw hw 299 330 (by norm_num) (by norm_num)⟩
  obtain ⟨u, v, hu, hv, -, -, hlt⟩ := straggling_option_order env proton_water_computable 1 one_ne_zero (show (0 : ℝ) < 100 by norm_num) hr
  refine ⟨u, v, hu, hv, hlt ⟨⟨1.00794, 1, 2⟩, by simp, ?_⟩ (by norm_num) (fun h => absurd h (by decide))⟩
  have hb : (0.1 : ℝ) ≤ beta_from_T 100 * beta_from_T 100 := by
    have hg : (1.1 : ℝ) ≤ gamma_from_T 100 := by norm_num [gamma_from_T, atomic_mass_unit]
    have h1 : 1.0 / (gamma_from_T (100 : ℝ) * gamma_from_T 100) ≤ 0.9 := by
      rw [div_le_iff₀ (by nlinarith)]
      nlinarith
    show 0.1 ≤ Real.sqrt (1.0 - 1.0 / (gamma_from_T (100 : ℝ) * gamma_from_T 100)) * Real.sqrt (1.0 - 1.0 / (gamma_from_T (100 : ℝ) * gamma_from_T 100))
    rw [Real.mul_self_sqrt (by norm_num at h1 ⊢; linarith)]
    norm_num at h1 ⊢
    linarith
  have hm : (0.5 : ℝ) ≤ electron_mass := by norm_num [electron_mass]
  have : ((1 : Int) : ℝ) ^ (1.6364 : ℝ) = 1 := by norm_num
  rw [this]
  have := mul_le_mul hm hb (by norm_num) (by linarith)
  norm_num at this ⊢
  linarith

/-- Carbon ions behind a layer of water with either option, after any two histories. -/
example (env : Env ℝ) (w1 w2 u1 u2 : World ℝ) (r1 : ReachableW env w1) (r2 : ReachableW env w2) (T : ℝ) (a b : Result ℝ)
    (ha : calculate env ⟨12, 6, 6, T⟩ (⟨1, 0.5, 18.015, 78, [⟨1.00794, 1, 2⟩, ⟨15.9994, 8, 1⟩]⟩ : Material ℝ) .default w1 = .ok (a, u1))
    (hb : calculate env ⟨12, 6, 6, T⟩ (⟨1, 0.5, 18.015, 78, [⟨1.00794, 1, 2⟩, ⟨15.9994, 8, 1⟩]⟩ : Material ℝ)
      { (Config.default : Config ℝ) with calculation := 0 } w2 = .ok (b, u2)) : a.Eout = b.Eout ∧ a.sigma_x = b.sigma_x := by
  have hk : ∀ c : Config ℝ, NonDefault ⟨12, 6, 6, T⟩ (⟨1, 0.5, 18.015, 78, [⟨1.00794, 1, 2⟩, ⟨15.9994, 8, 1⟩]⟩ : Material ℝ) c := by
    intro c
    simp only [NonDefault, Key.eq, Key.default, Projectile.eq, Projectile.default]
    simp
    intro h
    norm_num at h
  have := straggling_option_isolated env _ 6 _ _ 0 (carbon_water T).computable (hk _) (hk _) w1 w2 u1 u2 r1 r2 a b ha hb
  exact ⟨this.2.1, this.2.2.2.2.2.2.1⟩

end Catima
