import Verif.Props.ChargeIgnored

/-!
# C148: the energy loss in a layer of given mass per area does not depend on the density
-/

namespace Catima

/-- The material with another density and the same thickness in g/cm². -/
def Material.ofDensity (m : Material ℝ) (d : ℝ) : Material ℝ := { m with rho := d }

theorem Computable.ofDensity {p : Projectile ℝ} {n : Int} {t : Material ℝ} {c : Config ℝ} (h : Computable p n t c) (q : ℝ) :
    Computable p n (t.ofDensity q) c := ⟨h.ion, h.small, ⟨h.sound.1, h.sound.2, h.sound.3, h.sound.4, h.sound.5⟩, h.known, h.charge⟩

/-- The tables agree. -/
theorem density_tables (env : Env ℝ) (p : Projectile ℝ) (t : Material ℝ) (c : Config ℝ) (q : ℝ) (d d' : DataPoint ℝ)
    (hd : calculate_DataPoint env p t c = .ok d) (hd' : calculate_DataPoint env p (t.ofDensity q) c = .ok d') :
    d'.range = d.range ∧ d'.range_straggling = d.range_straggling ∧ d'.angular_variance = d.angular_variance := by
  obtain ⟨a1, a2, a3⟩ := data_point_parts env p t c d hd
  obtain ⟨b1, b2, b3⟩ := data_point_parts env p (t.ofDensity q) c d' hd'
  rw [show fdedx env p (t.ofDensity q) c = fdedx env p t c from rfl, a1] at b1
  rw [show ftheta env p (t.ofDensity q) c = ftheta env p t c from rfl, a2] at b2
  rw [show fomega env p (t.ofDensity q) c = fomega env p t c from rfl, a3] at b3
  exact ⟨(Except.ok.inj b1).symm, (Except.ok.inj b3).symm, (Except.ok.inj b2).symm⟩

/-- C148: `calculate` reports the same energies, range, stopping powers, longitudinal straggling and probability not to react for layers of the same
thickness in g/cm² and different densities, after any two histories. -/
theorem density_calculate (env : Env ℝ) (p : Projectile ℝ) (n : Int) (t : Material ℝ) (c : Config ℝ) (h : Computable p n t c)
    (q : ℝ) (n1 : NonDefault p t c) (n2 : NonDefault p (t.ofDensity q) c) (w1 w2 u1 u2 : World ℝ)
    (r1 : ReachableW env w1) (r2 : ReachableW env w2) (a b : Result ℝ)
    (ha : calculate env p t c w1 = .ok (a, u1)) (hb : calculate env p (t.ofDensity q) c w2 = .ok (b, u2)) :
    a.Ein = b.Ein ∧ a.Eout = b.Eout ∧ a.Eloss = b.Eloss ∧ a.range = b.range ∧ a.dEdxi = b.dEdxi ∧ a.dEdxo = b.dEdxo ∧ a.sigma_r = b.sigma_r ∧
      a.sigma_E = b.sigma_E ∧ a.sp = b.sp := by
  have h' := h.ofDensity q
  obtain ⟨d1, x1, d0, g1, -, -, c1, s1, v1, -⟩ := get_view env w1 r1 p n t c h n1
  obtain ⟨d2, x2, d0', g2, -, -, c2, s2, v2, -⟩ := get_view env w2 r2 p n (t.ofDensity q) c h' n2
  obtain ⟨t1, t2, -⟩ := density_tables env p t c q d0 d0' c1 c2
  rw [t1, ← s1] at s2
  rw [t2, ← v1] at v2
  rcases calculate_steps ha with ⟨hs, rfl, -⟩ | ⟨hs, y1, e1, rs, ss, hst, ha'⟩
  · rcases calculate_steps hb with ⟨-, rfl, -⟩ | ⟨hs', -⟩
    · exact ⟨rfl, rfl, rfl, rfl, rfl, rfl, rfl, rfl, rfl⟩
    · change tooSlow p.T = false at hs'
      rw [hs] at hs'; cases hs'
  rcases calculate_steps hb with ⟨hs', -, -⟩ | ⟨-, y2, e2, rs', ss', hst', hb'⟩
  · change tooSlow p.T = true at hs'
    rw [hs] at hs'; cases hs'
  have q1 := hst.data
  rw [g1] at q1
  obtain ⟨rfl, rfl⟩ := Prod.mk.inj (Except.ok.inj q1)
  have q2 := hst'.data
  rw [g2] at q2
  obtain ⟨rfl, rfl⟩ := Prod.mk.inj (Except.ok.inj q2)
  have q4 := hst'.rspline
  rw [s2, hst.rspline] at q4
  obtain rfl := Except.ok.inj q4
  have q5 := hst'.sspline
  rw [v2, hst.sspline] at q5
  obtain rfl := Except.ok.inj q5
  have eR : a.range = b.range := by
    have := hst'.range
    change rs.evaluate p.T = _ at this
    rw [hst.range] at this
    exact Except.ok.inj this
  have eD : a.dEdxi = b.dEdxi := by
    obtain ⟨D, f1, f2⟩ := hst.dEdxi
    obtain ⟨D', f1', f2'⟩ := hst'.dEdxi
    change rs.deriv p.T = _ at f1'
    rw [f1] at f1'
    rw [f2, f2', Except.ok.inj f1']
  have eS : a.sigma_r = b.sigma_r := by
    obtain ⟨D, f1, f2⟩ := hst.sigma_r
    obtain ⟨D', f1', f2'⟩ := hst'.sigma_r
    change ss.evaluate p.T = _ at f1'
    rw [f1] at f1'
    rw [f2, f2', Except.ok.inj f1']
  have eI : a.Ein = b.Ein := by rw [hst.ein, hst'.ein]
  have hT' : ((p.T <? Ezero) && (p.T <? Ezero - numeric_epsilon)) = false := hs
  rcases ha' with ⟨z0, -, za⟩ | ⟨z0, hE, hL, wa, wb, wc, sx, hcase, -⟩
  · rcases hb' with ⟨-, -, zb⟩ | ⟨z1, -⟩
    · refine ⟨eI, ?_, ?_, eR, eD, ?_, eS, ?_, ?_⟩ <;> rw [za, zb]
      · exact eD
    · change Scalar.beq t.th 0.0 = _ at z1; rw [z0] at z1; cases z1
  rcases hb' with ⟨z1, -⟩ | ⟨-, hE', hL', wa', wb', wc', sx', hcase', -⟩
  · change Scalar.beq t.th 0.0 = _ at z1; rw [z0] at z1; cases z1
  have eE : a.Eout = b.Eout := by
    change energy_out_spline env.debug p.T t.th rs = _ at hE'
    rw [hE] at hE'
    exact Except.ok.inj hE'
  obtain ⟨⟨_, m1, m2⟩, m3, ⟨_, m4⟩, -⟩ := calculate_agrees_out env p t c w1 u1 a r1 (key_refl_real _) hT' z0 ha
  obtain ⟨⟨_, l1, l2⟩, l3, ⟨_, l4⟩, -⟩ := calculate_agrees_out env p (t.ofDensity q) _ w2 u2 b r2 (key_refl_real _) hT' z0 hb
  have nr : ∀ x y z z', nonreaction_rate env p t c w1 = .ok (x, z) → nonreaction_rate env p (t.ofDensity q) c w2 = .ok (y, z') → x = y := by
    intro x y z z' i1 i2
    unfold nonreaction_rate at i1 i2
    rw [show (t.ofDensity q).th = t.th from rfl] at i2
    by_cases b1 : (p.T <? (emin_reaction : ℝ)) = true
    · rw [if_pos b1, api_pure] at i1
      rw [if_pos b1, api_pure] at i2
      rw [← i1.1, ← i2.1]
    by_cases b2 : (t.th ≤? (0.0 : ℝ)) = true
    · rw [if_neg b1, if_pos b2, api_pure] at i1
      rw [if_neg b1, if_pos b2, api_pure] at i2
      rw [← i1.1, ← i2.1]
    rw [if_neg b1, if_neg b2] at i1 i2
    simp only [api_bind, api_pureM, ok_bind] at i1 i2
    obtain ⟨d, _, hd, ⟨R, hR, f1⟩, -⟩ := i1
    obtain ⟨d', _, hd', ⟨R', hR', f2⟩, -⟩ := i2
    rw [g1] at hd
    obtain ⟨rfl, rfl⟩ := Prod.mk.inj (Except.ok.inj hd)
    rw [g2] at hd'
    obtain ⟨rfl, rfl⟩ := Prod.mk.inj (Except.ok.inj hd')
    rw [s2, hR] at hR'
    obtain rfl := Except.ok.inj hR'
    change nonreaction_rate_from env p t R = _ at f2
    rw [f1] at f2
    exact Except.ok.inj f2
  refine ⟨eI, eE, by rw [hL, hL', eE], eR, eD, ?_, eS, ?_, nr _ _ _ _ m4 l4⟩
  · rcases hcase with ⟨i1, i2, -⟩ | ⟨i1, i2⟩
    · rcases hcase' with ⟨j1, j2, -⟩ | ⟨j1, -⟩
      · rw [i2, j2]
      · rw [← eE, i1] at j1; cases j1
    · rcases hcase' with ⟨j1, -⟩ | ⟨j1, j2⟩
      · rw [← eE, i1] at j1; cases j1
      · obtain ⟨D, f1, f2⟩ := i2.slope
        obtain ⟨D', f1', f2'⟩ := j2.slope
        rw [← eE, f1] at f1'
        rw [f2, f2', Except.ok.inj f1']
  · rcases hcase with ⟨i1, -, i2, -⟩ | ⟨i1, i2⟩
    · rcases hcase' with ⟨j1, -, j2, -⟩ | ⟨j1, -⟩
      · rw [i2, j2]
      · rw [← eE, i1] at j1; cases j1
    · rcases hcase' with ⟨j1, -⟩ | ⟨j1, j2⟩
      · rw [← eE, i1] at j1; cases j1
      · obtain ⟨D, f1, f2⟩ := i2.slope
        obtain ⟨D', f1', f2'⟩ := j2.slope
        rw [← eE, f1] at f1'
        have eo : a.dEdxo = b.dEdxo := by
          rw [f2, f2', Except.ok.inj f1']
        obtain ⟨A1, B1, -, k1, -⟩ := i2.strag
        obtain ⟨A2, B2, -, k2, -⟩ := j2.strag
        change stragglings env p.A p.T _ _ _ ss A2 = _ at k2
        rw [← eE, ← eo] at k2
        exact stragglings_energy k1 k2

/-- The quadrature on a stretched interval. -/
theorem integrate_stretched (f f' : ℝ → M ℝ) (g : ℝ → ℝ) (k s b : ℝ) (hf : ∀ x, f x = .ok (g x)) (hf' : ∀ x, f' (k * x) = .ok (s * g x)) :
    ∃ I, integrator.integrate f 0.0 b = .ok I ∧ integrator.integrate f' 0.0 (k * b) = .ok (k * s * I) := by
  have hs := (integrator.shape (GLData.supported_shape _ integrator_supported)).1
  have e0 : (0.0 : ℝ) = 0 := by norm_num
  rw [e0]
  by_cases hk : k = 0
  · subst hk
    have h0 : ∀ x, f' 0 = .ok (s * g x) := fun x => by simpa using hf' x
    refine ⟨_, integrator.integrate_eq hs f g 0 b fun e _ => hf _, ?_⟩
    rw [integrator.integrate_eq hs f' (fun _ => s * g 0) 0 (0 * b) fun e _ => by simpa using h0 0]
    simp
  refine ⟨_, integrator.integrate_eq hs f g 0 b fun e _ => hf _, ?_⟩
  rw [integrator.integrate_eq hs f' (fun y => s * g (y / k)) 0 (k * b) fun e _ => by
    have := hf' (((k * b - 0) / 2 * e.1 + (k * b + 0) / 2) / k)
    rwa [mul_div_cancel₀ _ hk] at this]
  congr 1
  rw [wsum_smul]
  have : (fun x : ℝ => g (((k * b - 0) / 2 * x + (k * b + 0) / 2) / k)) = fun x => g ((b - 0) / 2 * x + (b + 0) / 2) := by
    funext x
    congr 1
    field_simp
    ring
  rw [this]
  ring

theorem ipow_stretched (k a : ℝ) (o : Int) (ho : o = 0 ∨ o = 1 ∨ o = 2) : ipow (k * a) o = ipow k o * ipow a o := by
  rcases ho with rfl | rfl | rfl
  · norm_num [ipow]
  · norm_num [ipow]
  · norm_num [ipow]
    ring

/-- The moments of the scattering in a layer of another density. -/
theorem density_moments (env : Env ℝ) (hdbg : env.debug = false) (p : Projectile ℝ) (t : Material ℝ) (c : Config ℝ) (o : Int)
    (ho : o = 0 ∨ o = 1 ∨ o = 2) (rs : Spline ℝ) (hrs : rs.Total) (hsc : ScatteringReadable t c) (q : ℝ) (hr : 0 < t.rho) (hq : 0 < q) :
    ∃ v, angular_variance_from env p t c o rs = .ok v ∧ angular_variance_from env p (t.ofDensity q) c o rs = .ok (ipow (t.rho / q) o * v) := by
  obtain ⟨⟨R, hR⟩, -⟩ := hrs.1 p.T
  set k := t.rho / q with hk
  have hkp : 0 < k := div_pos hr hq
  have kq : ∀ x, k * x * q = x * t.rho := by
    intro x
    rw [hk]
    field_simp
  have eb : smin (R / (t.ofDensity q).rho) (t.ofDensity q).thickness_cm = k * smin (R / t.rho) t.thickness_cm := by
    have h1 : R / (t.ofDensity q).rho = k * (R / t.rho) := by
      show R / q = _
      rw [hk]
      field_simp
    have h2 : (t.ofDensity q).thickness_cm = k * t.thickness_cm := by
      show t.th / q = k * (t.th / t.rho)
      rw [hk]
      field_simp
    rw [h1, h2, smin_real, smin_real, mul_min_of_nonneg _ _ hkp.le]
  unfold angular_variance_from
  dsimp only
  rw [hR]
  simp only [bind_ok]
  rw [eb]
  set b := smin (R / t.rho) t.thickness_cm
  by_cases hs : c.scattering = scattering_gottschalk
  · have ht : ∀ x, ∃ v, fx0p_2 env.debug p t o rs b (p_from_T p.T p.A) (p_from_T p.T p.A / ((p.T + atomic_mass_unit) * p.A)) x = .ok v ∧
        fx0p_2 env.debug p (t.ofDensity q) o rs (k * b) (p_from_T p.T p.A) (p_from_T p.T p.A / ((p.T + atomic_mass_unit) * p.A)) (k * x) =
          .ok (ipow k o * v) := by
      intro x
      obtain ⟨E, hE⟩ := hrs.2 p.T (x * t.rho)
      unfold fx0p_2
      rw [show k * x * (t.ofDensity q).rho = x * t.rho from kq x, hdbg, hE]
      simp only [bind_ok]
      have hx : ∀ m : Material ℝ, m.atoms = t.atoms → ∃ v, angular_scattering_power_xs (p.withT E) m (p_from_T p.T p.A)
          (p_from_T p.T p.A / ((p.T + atomic_mass_unit) * p.A)) 225.0 = .ok v := by
        intro m hm
        unfold angular_scattering_power_xs
        split
        · exact ⟨_, rfl⟩
        · obtain ⟨v, hv⟩ := scattering_length_total m (by rw [hm]; exact hsc hs)
          rw [hv]
          exact ⟨_, rfl⟩
      obtain ⟨v, hv⟩ := hx t rfl
      have hv' : angular_scattering_power_xs (p.withT E) (t.ofDensity q) (p_from_T p.T p.A)
          (p_from_T p.T p.A / ((p.T + atomic_mass_unit) * p.A)) 225.0 = .ok v := hv
      rw [hv, hv', ← mul_sub, ipow_stretched _ _ _ ho]
      exact ⟨_, rfl, by rw [← mul_assoc]; rfl⟩
    choose g h1 h2 using ht
    obtain ⟨I, i1, i2⟩ := integrate_stretched _ _ g k (ipow k o) b h1 h2
    rw [if_pos hs, if_pos hs, i1, i2]
    refine ⟨_, rfl, ?_⟩
    show Except.ok _ = Except.ok _
    congr 1
    show k * ipow k o * I * q = ipow k o * (I * t.rho)
    linear_combination (ipow k o) * kq I
  · have ht : ∀ x, ∃ v, fx0p env.debug p t c o rs b (radiation_length t) x = .ok v ∧
        fx0p env.debug p (t.ofDensity q) c o rs (k * b) (radiation_length (t.ofDensity q)) (k * x) = .ok (ipow k o * v) := by
      intro x
      obtain ⟨E, hE⟩ := hrs.2 p.T (x * t.rho)
      unfold fx0p
      rw [show k * x * (t.ofDensity q).rho = x * t.rho from kq x, hdbg, hE]
      simp only [bind_ok]
      rw [← mul_sub, ipow_stretched _ _ _ ho, show radiation_length (t.ofDensity q) = radiation_length t from rfl]
      refine ⟨_, rfl, ?_⟩
      show Except.ok _ = Except.ok _
      congr 1
      ring
    choose g h1 h2 using ht
    obtain ⟨I, i1, i2⟩ := integrate_stretched _ _ g k (ipow k o) b h1 h2
    rw [if_neg hs, if_neg hs, i1, i2]
    refine ⟨_, rfl, ?_⟩
    show Except.ok _ = Except.ok _
    congr 1
    show k * ipow k o * I * q * ipow p.Z 2 * Es2_of c / radiation_length t = ipow k o * (I * t.rho * ipow p.Z 2 * Es2_of c / radiation_length t)
    linear_combination (ipow k o * ipow p.Z 2 * Es2_of c / radiation_length t) * kq I

/-- C148: of a denser layer of the same mass per area the angular variance is the same, the covariance of angle and position is smaller in proportion
and the variance of the position is smaller in proportion to the square, in builds without assertions, after any two histories. -/
theorem density_scattering (env : Env ℝ) (hdbg : env.debug = false) (p : Projectile ℝ) (n : Int) (t : Material ℝ) (c : Config ℝ)
    (h : Computable p n t c) (hsc : ScatteringReadable t c) (q : ℝ) (hr : 0 < t.rho) (hq : 0 < q) (n1 : NonDefault p t c)
    (n2 : NonDefault p (t.ofDensity q) c) (w1 w2 : World ℝ) (r1 : ReachableW env w1) (r2 : ReachableW env w2) :
    ∃ aa xa xx, (Call.angular_variance p t c 0).respond env w1 = .ok (.num aa) ∧
      (Call.angular_variance p (t.ofDensity q) c 0).respond env w2 = .ok (.num aa) ∧
      (Call.angular_variance p t c 1).respond env w1 = .ok (.num xa) ∧
      (Call.angular_variance p (t.ofDensity q) c 1).respond env w2 = .ok (.num (t.rho / q * xa)) ∧
      (Call.angular_variance p t c 2).respond env w1 = .ok (.num xx) ∧
      (Call.angular_variance p (t.ofDensity q) c 2).respond env w2 = .ok (.num ((t.rho / q) ^ 2 * xx)) := by
  have h' := h.ofDensity q
  obtain ⟨d1, x1, d0, g1, -, -, c1, s1, -, len, -⟩ := get_view env w1 r1 p n t c h n1
  obtain ⟨d2, x2, d0', g2, -, -, c2, s2, -⟩ := get_view env w2 r2 p n (t.ofDensity q) c h' n2
  rw [(density_tables env p t c q d0 d0' c1 c2).1] at s2
  obtain ⟨rs, hrs, ht⟩ := newSpline_total env _ len
  rw [hrs] at s1 s2
  have key : ∀ (m : Material ℝ) (o : Int) (w x : World ℝ) (d : DataPoint ℝ) (v : ℝ), get_data env p m c w = .ok (d, x) →
      get_range_spline env d = .ok rs → angular_variance_from env p m c o rs = .ok v →
      (Call.angular_variance p m c o).respond env w = .ok (.num v) := by
    intro m o w x d v i1 i2 i3
    unfold Call.respond Call.run angular_variance
    rw [hdbg]
    simp only [cassert, bind, StateT.bind, pureM, Except.bind, Bool.false_and, i1, i2, i3, Except.map, pure, StateT.pure, Except.pure,
      Bool.false_eq_true, if_false]
  obtain ⟨aa, a1, a2⟩ := density_moments env hdbg p t c 0 (by simp) rs ht hsc q hr hq
  obtain ⟨xa, b1, b2⟩ := density_moments env hdbg p t c 1 (by simp) rs ht hsc q hr hq
  obtain ⟨xx, e1, e2⟩ := density_moments env hdbg p t c 2 (by simp) rs ht hsc q hr hq
  have p0 : ipow (t.rho / q) 0 * aa = aa := by norm_num [ipow]
  have p1 : ipow (t.rho / q) 1 * xa = t.rho / q * xa := by norm_num [ipow]
  have p2 : ipow (t.rho / q) 2 * xx = (t.rho / q) ^ 2 * xx := by norm_num [ipow, sq]
  rw [p0] at a2
  rw [p1] at b2
  rw [p2] at e2
  exact ⟨aa, xa, xx, key _ _ _ _ _ _ g1 s1 a1, key _ _ _ _ _ _ g2 s2 a2, key _ _ _ _ _ _ g1 s1 b1, key _ _ _ _ _ _ g2 s2 b2,
    key _ _ _ _ _ _ g1 s1 e1, key _ _ _ _ _ _ g2 s2 e2⟩

/-- C148: so the spot that `calculate` reports behind a layer that is not empty shrinks with the inverse of the density, and the covariance too. -/
theorem density_spread (env : Env ℝ) (hdbg : env.debug = false) (p : Projectile ℝ) (n : Int) (t : Material ℝ) (c : Config ℝ)
    (h : Computable p n t c) (hsc : ScatteringReadable t c) (q : ℝ) (hr : 0 < t.rho) (hq : 0 < q) (n1 : NonDefault p t c)
    (n2 : NonDefault p (t.ofDensity q) c) (w1 w2 u1 u2 : World ℝ) (r1 : ReachableW env w1) (r2 : ReachableW env w2) (a b : Result ℝ)
    (ha : calculate env p t c w1 = .ok (a, u1)) (hb : calculate env p (t.ofDensity q) c w2 = .ok (b, u2)) (hT : 1e-3 ≤ p.T) (hth : t.th ≠ 0) :
    b.cov = t.rho / q * a.cov ∧ b.sigma_x = t.rho / q * a.sigma_x := by
  have hT' : ((p.T <? (Ezero : ℝ)) && (p.T <? Ezero - numeric_epsilon)) = false := by
    rw [Bool.and_eq_false_iff]
    left
    rw [← Bool.not_eq_true, lt_real]
    simp only [Ezero]
    norm_num at hT ⊢
    exact hT
  have z0 : Scalar.beq t.th (0.0 : ℝ) = false := by
    rw [← Bool.not_eq_true, beq_real]
    norm_num
    exact hth
  obtain ⟨⟨x, m1, m2⟩, m3, -⟩ := calculate_agrees_out env p t c w1 u1 a r1 (key_refl_real _) hT' z0 ha
  obtain ⟨⟨y, l1, l2⟩, l3, -⟩ := calculate_agrees_out env p (t.ofDensity q) c w2 u2 b r2 (key_refl_real _) hT' z0 hb
  obtain ⟨_, xa, xx, -, -, k1, k2, k3, k4⟩ := density_scattering env hdbg p n t c h hsc q hr hq n1 n2 w1 w2 r1 r2
  have key : ∀ (m : Material ℝ) (o : Int) (w u : World ℝ) (v v' : ℝ), angular_variance env p m c o w = .ok (v, u) →
      (Call.angular_variance p m c o).respond env w = .ok (.num v') → v = v' := by
    intro m o w u v v' i1 i2
    unfold Call.respond Call.run at i2
    simp only [bind, StateT.bind, i1, Except.bind, Except.map, pure, StateT.pure, Except.pure] at i2
    exact Response.num.inj (Except.ok.inj i2)
  have e1 := key _ _ _ _ _ _ m3 k1
  have e2 := key _ _ _ _ _ _ l3 k2
  have e3 := key _ _ _ _ _ _ m1 k3
  have e4 := key _ _ _ _ _ _ l1 k4
  refine ⟨by rw [e1, e2], ?_⟩
  rw [m2, l2, e3, e4]
  show Real.sqrt _ = _ * Real.sqrt _
  rw [Real.sqrt_mul (sq_nonneg _), Real.sqrt_sq (div_pos hr hq).le]

/-- 100 MeV/u carbon ions behind 1 g/cm² of liquid water and of water vapour. -/
example (env : Env ℝ) (w u v : World ℝ) (hw : ReachableW env w) (a b : Result ℝ)
    (ha : calculate env (⟨12, 6, 6, 100⟩ : Projectile ℝ) ⟨1, 1, 18.015, 0, [⟨1.00794, 1, 2⟩, ⟨15.9994, 8, 1⟩]⟩ .default .init = .ok (a, u))
    (hb : calculate env (⟨12, 6, 6, 100⟩ : Projectile ℝ) ⟨0.0006, 1, 18.015, 0, [⟨1.00794, 1, 2⟩, ⟨15.9994, 8, 1⟩]⟩ .default w = .ok (b, v)) :
    a.Eout = b.Eout ∧ a.sigma_E = b.sigma_E := by
  have hk : ∀ q, NonDefault (⟨12, 6, 6, 100⟩ : Projectile ℝ) ⟨q, 1, 18.015, 0, [⟨1.00794, 1, 2⟩, ⟨15.9994, 8, 1⟩]⟩ .default := by
    intro q
    simp only [NonDefault, Key.eq, Key.default, Projectile.eq, Projectile.default]
    simp
    intro h
    norm_num at h
  obtain ⟨-, h1, -, -, -, -, -, h2, -⟩ := density_calculate env (⟨12, 6, 6, 100⟩ : Projectile ℝ) 6 _ .default (carbon_water_usual 6 100).1
    0.0006 (hk 1) (hk 0.0006) .init w u v ⟨[], rfl⟩ hw a b ha hb
  exact ⟨h1, h2⟩

/-- The vapour is 1/0.0006 times as thick in cm, and so is the spot behind it. -/
example (env : Env ℝ) (hdbg : env.debug = false) (w : World ℝ) (hw : ReachableW env w) : ∃ xx,
    (Call.angular_variance (⟨12, 6, 6, 100⟩ : Projectile ℝ) ⟨1, 1, 18.015, 0, [⟨1.00794, 1, 2⟩, ⟨15.9994, 8, 1⟩]⟩ .default 2).respond env .init =
      .ok (.num xx) ∧
    (Call.angular_variance (⟨12, 6, 6, 100⟩ : Projectile ℝ) ⟨0.0006, 1, 18.015, 0, [⟨1.00794, 1, 2⟩, ⟨15.9994, 8, 1⟩]⟩ .default 2).respond env w =
      .ok (.num ((1 / 0.0006) ^ 2 * xx)) := by
  have hk : ∀ q, NonDefault (⟨12, 6, 6, 100⟩ : Projectile ℝ) ⟨q, 1, 18.015, 0, [⟨1.00794, 1, 2⟩, ⟨15.9994, 8, 1⟩]⟩ .default := by
    intro q
    simp only [NonDefault, Key.eq, Key.default, Projectile.eq, Projectile.default]
    simp
    intro h
    norm_num at h
  obtain ⟨_, _, xx, -, -, -, -, h1, h2⟩ := density_scattering env hdbg (⟨12, 6, 6, 100⟩ : Projectile ℝ) 6 _ .default (carbon_water_usual 6 100).1
    (fun _ => by simp; norm_num) 0.0006 (by norm_num) (by norm_num) (hk 1) (hk 0.0006) .init w ⟨[], rfl⟩ hw
  exact ⟨xx, h1, h2⟩

/-- The same for the result of `calculate`. -/
example (env : Env ℝ) (hdbg : env.debug = false) (w u v : World ℝ) (hw : ReachableW env w) (a b : Result ℝ)
    (ha : calculate env (⟨12, 6, 6, 100⟩ : Projectile ℝ) ⟨1, 1, 18.015, 0, [⟨1.00794, 1, 2⟩, ⟨15.9994, 8, 1⟩]⟩ .default .init = .ok (a, u))
    (hb : calculate env (⟨12, 6, 6, 100⟩ : Projectile ℝ) ⟨0.0006, 1, 18.015, 0, [⟨1.00794, 1, 2⟩, ⟨15.9994, 8, 1⟩]⟩ .default w = .ok (b, v)) :
    b.sigma_x = 1 / 0.0006 * a.sigma_x := by
  have hk : ∀ q, NonDefault (⟨12, 6, 6, 100⟩ : Projectile ℝ) ⟨q, 1, 18.015, 0, [⟨1.00794, 1, 2⟩, ⟨15.9994, 8, 1⟩]⟩ .default := by
    intro q
    simp only [NonDefault, Key.eq, Key.default, Projectile.eq, Projectile.default]
    simp
    intro h
    norm_num at h
  exact (density_spread env hdbg (⟨12, 6, 6, 100⟩ : Projectile ℝ) 6 _ .default (carbon_water_usual 6 100).1
    (fun _ => by simp; norm_num) 0.0006 (by norm_num) (by norm_num) (hk 1) (hk 0.0006) .init w u v ⟨[], rfl⟩ hw a b ha hb
    (by norm_num) (by norm_num)).2

end Catima
