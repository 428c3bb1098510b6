import Verif.Props.AngularHighland

/-!
# C127: fast ions are scattered less, and thick layers scatter more than in proportion
-/

namespace Catima

theorem Tfr_value (p : Projectile ℝ) (hA : 0 < p.A) (e : ℝ) (he : 0 < e) :
    Tfr (p.withT e) 1.0 1.0 = 1 / (p.A * (e * (e + 2 * atomic_mass_unit)) / (e + atomic_mass_unit)) ^ 2 := by
  unfold Tfr
  rw [if_neg (by rw [le_real]; norm_num; exact he)]
  show (1.0 : ℝ) / (1.0 * (p_from_T e p.A * (p_from_T e p.A / ((e + atomic_mass_unit) * p.A)) *
    (p_from_T e p.A * (p_from_T e p.A / ((e + atomic_mass_unit) * p.A))))) = _
  rw [pv_eq e p.A he hA, show (1.0 : ℝ) = 1 by norm_num, one_mul, sq]

/-- Momentum times velocity grows with the energy, at most in proportion. -/
theorem pv_order (A E F k : ℝ) (hA : 0 < A) (hE : 0 < E) (hk : 0 < k) (hk1 : k ≤ 1) (h : k * E ≤ F) :
    k * (A * (E * (E + 2 * atomic_mass_unit)) / (E + atomic_mass_unit)) ≤ A * (F * (F + 2 * atomic_mass_unit)) / (F + atomic_mass_unit) := by
  have hu := amu_pos
  set u : ℝ := atomic_mass_unit with hud
  have hF : 0 < F := lt_of_lt_of_le (by positivity) h
  rw [← mul_div_assoc, div_le_div_iff₀ (by positivity) (by positivity)]
  have key : k * (E * (E + 2 * u) * (F + u)) ≤ F * (F + 2 * u) * (E + u) := by
    rcases le_total F E with hFE | hFE
    · have a1 : (E + 2 * u) * (F + u) ≤ (F + 2 * u) * (E + u) := by nlinarith
      have a2 : k * E * ((E + 2 * u) * (F + u)) ≤ F * ((F + 2 * u) * (E + u)) :=
        mul_le_mul h a1 (by positivity) hF.le
      nlinarith
    · have a1 : E * (E + 2 * u) * (F + u) ≤ F * (F + 2 * u) * (E + u) := by
        have : 0 ≤ (F - E) * (E * F + u * (E + F) + 2 * u ^ 2) := mul_nonneg (by linarith) (by positivity)
        nlinarith
      have a0 : 0 ≤ E * (E + 2 * u) * (F + u) := by positivity
      nlinarith
  nlinarith

/-- The scattering power does not grow with the energy. -/
theorem Tfr_order (p : Projectile ℝ) (hA : 0 < p.A) (E F : ℝ) (hE : 1e-3 ≤ E) (h : E < F + 2e-13) :
    Tfr (p.withT F) 1.0 1.0 ≤ (1 + 1e-9) * Tfr (p.withT E) 1.0 1.0 := by
  norm_num at hE h
  have hF : 0 < F := by linarith
  have hE0 : 0 < E := by linarith
  have hu := amu_pos
  have hpv := pv_order p.A E F (1 - 3e-10) hA hE0 (by norm_num) (by norm_num) (by norm_num; linarith)
  rw [Tfr_value p hA E hE0, Tfr_value p hA F hF]
  have q1 : 0 < p.A * (E * (E + 2 * atomic_mass_unit)) / (E + atomic_mass_unit) := by positivity
  have q2 : 0 < p.A * (F * (F + 2 * atomic_mass_unit)) / (F + atomic_mass_unit) := by positivity
  generalize p.A * (E * (E + 2 * atomic_mass_unit)) / (E + atomic_mass_unit) = q at *
  generalize p.A * (F * (F + 2 * atomic_mass_unit)) / (F + atomic_mass_unit) = r at *
  rw [mul_one_div, div_le_div_iff₀ (by positivity) (by positivity)]
  have := pow_le_pow_left₀ (by norm_num; linarith) hpv 2
  norm_num at this ⊢
  nlinarith [sq_nonneg q]

/-- The factor of the differential Highland formula grows with the depth. -/
theorem highland_factor_mono (l m : ℝ) (h : 1e-8 ≤ l) (hm : l ≤ m) :
    0.97 * (1.0 + Real.log l / 20.7) * (1.0 + Real.log l / 22.7) ≤ 0.97 * (1.0 + Real.log m / 20.7) * (1.0 + Real.log m / 22.7) := by
  have l0 : 0 < l := lt_of_lt_of_le (by norm_num) h
  have hl : -20.7 ≤ Real.log l := by
    rw [Real.le_log_iff_exp_le l0]
    refine le_trans ?_ h
    have : Real.exp (-20.7) ≤ Real.exp (-(20 : ℕ)) := Real.exp_le_exp.mpr (by norm_num)
    refine this.trans ?_
    rw [Real.exp_neg, ← mul_one ((20 : ℕ) : ℝ), Real.exp_nat_mul]
    have he : (2.7 : ℝ) ≤ Real.exp 1 := by
      have := Real.exp_one_gt_d9
      norm_num at this ⊢
      linarith
    rw [inv_le_comm₀ (by positivity) (by norm_num)]
    calc (1e-8 : ℝ)⁻¹ ≤ 2.7 ^ 20 := by norm_num
      _ ≤ _ := pow_le_pow_left₀ (by norm_num) he _
  have hlm := Real.log_le_log l0 hm
  generalize Real.log l = a at *
  generalize Real.log m = b at *
  norm_num at hl ⊢
  nlinarith

/-- The factor by which the formulas differ. -/
noncomputable def scatterFactor (c : Config ℝ) (X0 x : ℝ) : ℝ := if c.scattering = scattering_dhighland then
  0.97 * (1.0 + Real.log (x / X0) / 20.7) * (1.0 + Real.log (x / X0) / 22.7) else 1.0

theorem scatterFactor_nonneg (c : Config ℝ) (X0 x : ℝ) (hX : 0 < X0) (h : c.scattering = scattering_dhighland → 1e-8 * X0 ≤ x) :
    0 ≤ scatterFactor c X0 x := by
  unfold scatterFactor
  split
  · rename_i hs
    exact highland_factor_nonneg _ (by rw [le_div_iff₀ hX]; exact h hs)
  · norm_num

theorem scatterFactor_mono (c : Config ℝ) (X0 x y : ℝ) (hX : 0 < X0) (h : c.scattering = scattering_dhighland → 1e-8 * X0 ≤ x) (hxy : x ≤ y) :
    scatterFactor c X0 x ≤ scatterFactor c X0 y := by
  unfold scatterFactor
  split
  · rename_i hs
    exact highland_factor_mono _ _ (by rw [le_div_iff₀ hX]; exact h hs) (div_le_div_of_nonneg_right hxy hX.le)
  · norm_num

/-- The moments as sums over the depths of the quadrature. -/
theorem angular_sum (env : Env ℝ) (hdbg : env.debug = false) (p : Projectile ℝ) (n : Int) (t : Material ℝ) (c : Config ℝ)
    (h : Computable p n t c) (hk : NonDefault p t c) (hrho : 0 < t.rho) (hG : c.scattering ≠ scattering_gottschalk) :
    ∃ e : ℝ → ℝ → ℝ, (∀ w, ReachableW env w → ∀ T x, ∃ w', energy_out env (p.withT T) (t.set_thickness x) c w = .ok (e T x, w')) ∧
      ∀ w, ReachableW env w → ∀ T th R w1, 0 ≤ th → range env (p.withT T) (t.set_thickness th) c w = .ok (R, w1) → th ≤ R → ∀ o : Int,
        angular_variance env (p.withT T) (t.set_thickness th) c o w = .ok (ipow p.Z 2 * Es2_of c / radiation_length t * (th / 2 *
          wsum integrator.full fun y => ipow ((th - (th / 2 * y + th / 2)) / t.rho) o *
            (scatterFactor c (radiation_length t) (th / 2 * y + th / 2) * Tfr (p.withT (e T (th / 2 * y + th / 2))) 1.0 1.0)), w1) := by
  obtain ⟨d0, rs, -, -, -, trs, hview⟩ := range_spline env p n t c h hk
  choose e he using fun (T x : ℝ) => trs.2 T x
  refine ⟨e, ?_, ?_⟩
  · intro w hr T x
    obtain ⟨d, w', hd, hrs⟩ := hview w hr T x
    refine ⟨w', ?_⟩
    unfold energy_out
    simp only [api_bind, api_pureM, ok_bind]
    refine ⟨d, w', hd, ⟨rs, hrs, ?_⟩, rfl⟩
    rw [hdbg]
    exact he T x
  intro w hr T th R w1 hth hR hRt o
  obtain ⟨d, w', hd, hrs⟩ := hview w hr T th
  obtain ⟨rfl, hRs⟩ : w' = w1 ∧ rs.evaluate T = .ok R := by
    unfold range at hR
    simp only [api_bind, api_pureM, ok_bind] at hR
    obtain ⟨d1, w2, h1, ⟨rs1, h2, h3⟩, rfl⟩ := hR
    rw [hd] at h1
    cases h1
    rw [hrs] at h2
    cases h2
    exact ⟨rfl, h3⟩
  set X0 := radiation_length t with hX
  set rr := th / t.rho with hrr
  have rrho : rr * t.rho = th := div_mul_cancel₀ _ hrho.ne'
  have hmin : smin (R / t.rho) (t.set_thickness th).thickness_cm = rr := by
    show (if Scalar.lt (th / t.rho) (R / t.rho) = true then th / t.rho else R / t.rho) = _
    split
    · rfl
    · rename_i h
      rw [lt_real] at h
      exact le_antisymm (not_lt.mp h) (div_le_div_of_nonneg_right hRt hrho.le)
  let g : ℝ → ℝ := fun x => ipow (rr - x) o * (scatterFactor c X0 (x * t.rho) * Tfr (p.withT (e T (x * t.rho))) 1.0 1.0)
  have hfx : ∀ x, fx0p env.debug (p.withT T) (t.set_thickness th) c o rs rr X0 x = .ok (g x) := by
    intro x
    unfold fx0p
    rw [hdbg]
    have : energy_out_spline false (p.withT T).T (x * (t.set_thickness th).rho) rs = .ok (e T (x * t.rho)) := he T (x * t.rho)
    rw [this, bind_ok]
    show (Except.ok _ : M ℝ) = Except.ok _
    congr 1
    simp only [g, scatterFactor]
    split
    · rw [mul_assoc]; rfl
    · rw [mul_assoc]; rfl
  have hint := integrator.integrate_eq (integrator.shape (GLData.supported_shape _ integrator_supported)).1
    (fx0p env.debug (p.withT T) (t.set_thickness th) c o rs rr X0) g 0 rr fun _ _ => hfx _
  simp only [sub_zero, add_zero] at hint
  have hg : (wsum integrator.full fun y => g (rr / 2 * y + rr / 2)) = wsum integrator.full fun y =>
      ipow ((th - (th / 2 * y + th / 2)) / t.rho) o *
        (scatterFactor c X0 (th / 2 * y + th / 2) * Tfr (p.withT (e T (th / 2 * y + th / 2))) 1.0 1.0) := by
    refine wsum_congr _ _ _ fun a _ => ?_
    simp only [g]
    have e1 : (rr / 2 * a.1 + rr / 2) * t.rho = th / 2 * a.1 + th / 2 := by rw [← rrho]; ring
    have e2 : rr - (rr / 2 * a.1 + rr / 2) = (th - (th / 2 * a.1 + th / 2)) / t.rho := by rw [hrr]; ring
    rw [e1, e2]
  unfold angular_variance
  simp only [hdbg, api_bind, api_pureM, ok_bind]
  refine ⟨(), w, ⟨by simp [cassert], rfl⟩, (), w, ⟨by simp [cassert], rfl⟩, (), w,
    ⟨by simp [cassert], rfl⟩, d, w', hd, ⟨rs, hrs, ?_⟩, rfl⟩
  unfold angular_variance_from
  dsimp only
  have hX' : radiation_length (t.set_thickness th) = X0 := rfl
  have hRs' : rs.evaluate (p.withT T).T = .ok R := hRs
  have hmin' : smin (R / (t.set_thickness th).rho) (t.set_thickness th).thickness_cm = rr := hmin
  rw [hRs', bind_ok, if_neg hG, hmin', hX', show (0.0 : ℝ) = 0 by norm_num, hint, bind_ok, hg]
  show (Except.ok _ : M ℝ) = Except.ok _
  congr 1
  generalize (wsum integrator.full fun y => ipow ((th - (th / 2 * y + th / 2)) / t.rho) o *
    (scatterFactor c X0 (th / 2 * y + th / 2) * Tfr (p.withT (e T (th / 2 * y + th / 2))) 1.0 1.0)) = S
  show rr / 2 * S * t.rho * ipow p.Z 2 * Es2_of c / X0 = _
  rw [show rr / 2 * S * t.rho = th / 2 * S by rw [← rrho]; ring]
  ring

theorem ipow_cases (o : Int) (ho : o = 0 ∨ o = 1 ∨ o = 2) (x : ℝ) : ∃ k : ℕ, (k : Int) = o ∧ ipow x o = x ^ k := by
  rcases ho with rfl | rfl | rfl
  · exact ⟨0, rfl, by show (1.0 : ℝ) = _; norm_num⟩
  · exact ⟨1, rfl, by show x = _; norm_num⟩
  · exact ⟨2, rfl, by show x * x = _; ring⟩

theorem scatter_const_nonneg (c : Config ℝ) (z X0 : ℝ) (hX : 0 < X0) : 0 ≤ ipow z 2 * Es2_of c / X0 := by
  have e1 : (0 : ℝ) ≤ ipow z 2 := by
    show (0 : ℝ) ≤ z * z
    exact mul_self_nonneg _
  have e2 : (0 : ℝ) ≤ Es2_of c := by
    unfold Es2_of
    dsimp only
    split
    · norm_num [Es_squared, PI, fine_structure_inverted, fine_structure, electron_mass]
    · split
      · norm_num [Es_squared, PI, fine_structure_inverted, fine_structure, electron_mass]
      · norm_num
  positivity

/-- The depths of the quadrature. -/
theorem depth_inner (th : ℝ) (hth : 0 < th) (a : ℝ × ℝ) (ha : a ∈ integrator.full) :
    0.019 * th ≤ th / 2 * a.1 + th / 2 ∧ th / 2 * a.1 + th / 2 < th ∧ 0.019 ≤ (1 + a.1) / 2 := by
  rw [integrator_full] at ha
  have : -0.9603 ≤ a.1 ∧ a.1 ≤ 0.9603 := by
    revert a
    simp only [List.forall_mem_cons, List.not_mem_nil, false_imp_iff, implies_true, and_true]
    norm_num
  obtain ⟨b1, b2⟩ := this
  norm_num at b1 b2 ⊢
  refine ⟨?_, ?_, ?_⟩ <;> nlinarith

/-- C127: of two ions of one kind in front of one layer the faster one, that is the one with the longer range (by 2e-5 g/cm2), is
scattered less: variance of the angle (order 0), covariance (order 1) and variance of the position (order 2), up to a relative
1e-9, after any histories.  The slower ion passes the layer with at least 1 keV/u. -/
theorem faster_scattered_less (env : Env ℝ) (hdbg : env.debug = false) (hj : SmallJunk env.junk) (p : Projectile ℝ) (n : Int)
    (t : Material ℝ) (c : Config ℝ) (h : UsualIon p n t c) (hk : NonDefault p t c) (hrho : 0 < t.rho) (hth : 0 < t.th)
    (hG : c.scattering ≠ scattering_gottschalk) (hH : c.scattering = scattering_dhighland → 1e-6 * radiation_length t ≤ t.th)
    (w1 w2 w1' w2' u1 u2 : World ℝ) (r1 : ReachableW env w1) (r2 : ReachableW env w2) (T1 T2 R1 R2 v1 v2 : ℝ)
    (hR1 : range env (p.withT T1) t c w1 = .ok (R1, w1')) (hR2 : range env (p.withT T2) t c w2 = .ok (R2, w2'))
    (hlt : R1 + 2e-5 ≤ R2) (hpass : t.th ≤ R1)
    (hE : ∀ x, 0 < x → x < t.th → ∀ E w', energy_out env (p.withT T1) (t.set_thickness x) c w1 = .ok (E, w') → 1e-3 ≤ E)
    (o : Int) (ho : o = 0 ∨ o = 1 ∨ o = 2) (h1 : angular_variance env (p.withT T1) t c o w1 = .ok (v1, u1))
    (h2 : angular_variance env (p.withT T2) t c o w2 = .ok (v2, u2)) : v2 ≤ (1 + 1e-9) * v1 := by
  have hc := h.computable
  have hX0 : 0 < radiation_length t := radiation_length_material_pos t hc.sound fun a ha => le_trans (hc.known a ha) (by norm_num)
  obtain ⟨e, he, hsum⟩ := angular_sum env hdbg p n t c hc hk hrho hG
  have k1 := hsum w1 r1 T1 t.th R1 w1' hth.le hR1 hpass o
  have k2 := hsum w2 r2 T2 t.th R2 w2' hth.le hR2 (by linarith) o
  have k1' := h1.symm.trans k1
  have k2' := h2.symm.trans k2
  obtain ⟨rfl, -⟩ := Prod.mk.inj (Except.ok.inj k1')
  obtain ⟨rfl, -⟩ := Prod.mk.inj (Except.ok.inj k2')
  set X0 := radiation_length t with hX
  have hK := scatter_const_nonneg c p.Z X0 hX0
  rw [show (1 + 1e-9 : ℝ) * (ipow p.Z 2 * Es2_of c / X0 * (t.th / 2 * wsum integrator.full fun y => ipow ((t.th - (t.th / 2 * y + t.th / 2)) / t.rho) o *
      (scatterFactor c X0 (t.th / 2 * y + t.th / 2) * Tfr (p.withT (e T1 (t.th / 2 * y + t.th / 2))) 1.0 1.0))) =
    ipow p.Z 2 * Es2_of c / X0 * (t.th / 2 * ((1 + 1e-9 : ℝ) * wsum integrator.full fun y => ipow ((t.th - (t.th / 2 * y + t.th / 2)) / t.rho) o *
      (scatterFactor c X0 (t.th / 2 * y + t.th / 2) * Tfr (p.withT (e T1 (t.th / 2 * y + t.th / 2))) 1.0 1.0))) by ring]
  refine mul_le_mul_of_nonneg_left (mul_le_mul_of_nonneg_left ?_ (by positivity)) hK
  rw [← wsum_smul]
  refine wsum_le _ _ _ (fun a ha => (integrator_nodes a ha).2.2.le) fun a ha => ?_
  obtain ⟨b1, b2, -⟩ := depth_inner t.th hth a ha
  have b0 : 0 < t.th / 2 * a.1 + t.th / 2 := lt_of_lt_of_le (by positivity) b1
  generalize t.th / 2 * a.1 + t.th / 2 = x at *
  obtain ⟨w3, e1⟩ := he w1 r1 T1 x
  obtain ⟨w4, e2⟩ := he w2 r2 T2 x
  have hE1 := hE x b0 b2 _ _ e1
  have hT : Tfr (p.withT (e T2 x)) 1.0 1.0 ≤ (1 + 1e-9) * Tfr (p.withT (e T1 x)) 1.0 1.0 := by
    by_cases hz : e T2 x ≤ 0
    · have : Tfr (p.withT (e T2 x)) 1.0 1.0 = 0 := by
        unfold Tfr
        rw [if_pos (by rw [le_real]; norm_num; exact hz)]
        norm_num
      rw [this]
      exact mul_nonneg (by norm_num) (Tfr_nonneg _)
    · push Not at hz
      have hE1' : 0 < e T1 x := lt_of_lt_of_le (by norm_num) hE1
      have hrg1 : range env (p.withT T1) (t.set_thickness t.th) c w1 = .ok (R1, w1') := hR1
      have hrg2 : range env (p.withT T2) (t.set_thickness t.th) c w2 = .ok (R2, w2') := hR2
      -- the range does not depend on the thickness
      obtain ⟨s1, R1', E1', q1, -⟩ := energy_out_succeeds env hdbg w1 r1 (p.withT T1) n (t.set_thickness x) c ((hc.withT T1).thickness x) hk
      obtain ⟨s2, R2', E2', q2, -⟩ := energy_out_succeeds env hdbg w2 r2 (p.withT T2) n (t.set_thickness x) c ((hc.withT T2).thickness x) hk
      obtain ⟨d, s, -, -, hv⟩ := range_view env p n t c hc hk
      have y1 := (hv w1 r1 T1 t.th).1 R1 w1' hrg1
      have y2 := (hv w2 r2 T2 t.th).1 R2 w2' hrg2
      have z1 := (hv w1 r1 T1 x).1 R1' s1 q1
      have z2 := (hv w2 r2 T2 x).1 R2' s2 q2
      rw [y1] at z1
      rw [y2] at z2
      cases z1
      cases z2
      have hord := (energy_out_ordered env hj p n t c h hk w1 w2 w1 w2 s1 s2 w3 w4 r1 r2 r1 r2 T1 T2 x x R1 R2 _ _ q1 q2 e1 e2
        ⟨by linarith, by linarith⟩ ⟨by linarith, by linarith⟩ (by linarith)).1
      exact Tfr_order p hc.ion.A _ _ hE1 hord
  obtain ⟨k, -, hi⟩ := ipow_cases o ho ((t.th - x) / t.rho)
  rw [hi]
  have hd : 0 ≤ ((t.th - x) / t.rho) ^ k := pow_nonneg (div_nonneg (by linarith) hrho.le) k
  have hf : 0 ≤ scatterFactor c X0 x := scatterFactor_nonneg c X0 x hX0 fun hs => by
    have := hH hs
    norm_num at this b1 ⊢
    linarith
  calc _ ≤ ((t.th - x) / t.rho) ^ k * (scatterFactor c X0 x * ((1 + 1e-9) * Tfr (p.withT (e T1 x)) 1.0 1.0)) :=
        mul_le_mul_of_nonneg_left (mul_le_mul_of_nonneg_left hT hf) hd
    _ = _ := by ring

/-- C127: of two layers of one material in front of the same ion the thicker one (by at least 1.1e-3 g/cm2) scatters more, and more
than in proportion: the variance of the angle divided by the thickness, the covariance divided by its square and the variance of the
position divided by its cube do not decrease, up to a relative 1e-9.  The ion passes the thicker layer with at least 1 keV/u. -/
theorem thicker_scatters_more (env : Env ℝ) (hdbg : env.debug = false) (hj : SmallJunk env.junk) (p : Projectile ℝ) (n : Int)
    (t : Material ℝ) (c : Config ℝ) (h : UsualIon p n t c) (hk : NonDefault p t c) (hrho : 0 < t.rho)
    (hG : c.scattering ≠ scattering_gottschalk) (th1 th2 : ℝ) (hth : 0 < th1) (hlt : th1 + 1.1e-3 ≤ th2)
    (hH : c.scattering = scattering_dhighland → 1e-6 * radiation_length t ≤ th1)
    (w1 w2 w2' u1 u2 : World ℝ) (r1 : ReachableW env w1) (r2 : ReachableW env w2) (T R v1 v2 : ℝ)
    (hR : range env (p.withT T) (t.set_thickness th2) c w2 = .ok (R, w2')) (hpass : th2 ≤ R)
    (hE : ∀ x, 0 < x → x < th2 → ∀ E w', energy_out env (p.withT T) (t.set_thickness x) c w2 = .ok (E, w') → 1e-3 ≤ E)
    (o : Int) (k : ℕ) (ho : (o, k) = (0, 1) ∨ (o, k) = (1, 2) ∨ (o, k) = (2, 3))
    (h1 : angular_variance env (p.withT T) (t.set_thickness th1) c o w1 = .ok (v1, u1))
    (h2 : angular_variance env (p.withT T) (t.set_thickness th2) c o w2 = .ok (v2, u2)) :
    v1 / th1 ^ k ≤ (1 + 1e-9) * (v2 / th2 ^ k) := by
  have hc := h.computable
  have hX0 : 0 < radiation_length t := radiation_length_material_pos t hc.sound fun a ha => le_trans (hc.known a ha) (by norm_num)
  have hth2 : 0 < th2 := by norm_num at hlt; linarith
  have h12 : th1 ≤ th2 := by norm_num at hlt; linarith
  obtain ⟨e, he, hsum⟩ := angular_sum env hdbg p n t c hc hk hrho hG
  obtain ⟨d, s, -, -, hv⟩ := range_view env p n t c hc hk
  have hRs := (hv w2 r2 T th2).1 R w2' hR
  have hrange : ∀ w, ReachableW env w → ∀ x, ∃ w', range env (p.withT T) (t.set_thickness x) c w = .ok (R, w') := by
    intro w hr x
    obtain ⟨s1, R1', E1', q1, -⟩ := energy_out_succeeds env hdbg w hr (p.withT T) n (t.set_thickness x) c ((hc.withT T).thickness x) hk
    have z1 := (hv w hr T x).1 R1' s1 q1
    rw [hRs] at z1
    cases z1
    exact ⟨s1, q1⟩
  obtain ⟨w1', hR1⟩ := hrange w1 r1 th1
  have k1 := hsum w1 r1 T th1 R w1' hth.le hR1 (by linarith) o
  have k2 := hsum w2 r2 T th2 R w2' hth2.le hR hpass o
  obtain ⟨rfl, -⟩ := Prod.mk.inj (Except.ok.inj (h1.symm.trans k1))
  obtain ⟨rfl, -⟩ := Prod.mk.inj (Except.ok.inj (h2.symm.trans k2))
  set X0 := radiation_length t with hX
  have hK := scatter_const_nonneg c p.Z X0 hX0
  obtain ⟨j, hj1, hj2⟩ : ∃ j : ℕ, k = j + 1 ∧ ∀ x : ℝ, ipow x o = x ^ j := by
    rcases ho with ho | ho | ho <;> obtain ⟨rfl, rfl⟩ := Prod.mk.inj ho
    · exact ⟨0, rfl, fun x => by show (1.0 : ℝ) = _; norm_num⟩
    · exact ⟨1, rfl, fun x => by show x = _; norm_num⟩
    · exact ⟨2, rfl, fun x => by show x * x = _; ring⟩
  subst hj1
  -- one layer, with the power of the thickness taken out
  set F : ℝ → ℝ → ℝ := fun th y => scatterFactor c X0 (th / 2 * y + th / 2) * Tfr (p.withT (e T (th / 2 * y + th / 2))) 1.0 1.0 with hF
  have hval : ∀ th : ℝ, 0 < th → ipow p.Z 2 * Es2_of c / X0 * (th / 2 * wsum integrator.full fun y =>
      ipow ((th - (th / 2 * y + th / 2)) / t.rho) o * F th y) / th ^ (j + 1) =
      ipow p.Z 2 * Es2_of c / X0 * (1 / 2 * wsum integrator.full fun y => ((1 - y) / 2 / t.rho) ^ j * F th y) := by
    intro th h0
    have : (wsum integrator.full fun y => ipow ((th - (th / 2 * y + th / 2)) / t.rho) o * F th y) =
        th ^ j * wsum integrator.full fun y => ((1 - y) / 2 / t.rho) ^ j * F th y := by
      rw [← wsum_smul]
      refine wsum_congr _ _ _ fun a _ => ?_
      rw [hj2, show (th - (th / 2 * a.1 + th / 2)) / t.rho = th * ((1 - a.1) / 2 / t.rho) by ring, mul_pow]
      ring
    rw [this, pow_succ]
    generalize (wsum integrator.full fun y => ((1 - y) / 2 / t.rho) ^ j * F th y) = S
    have hp : th ^ j ≠ 0 := pow_ne_zero j h0.ne'
    have h0' := h0.ne'
    rw [div_eq_iff (mul_ne_zero hp h0')]
    ring
  rw [hval th1 hth, hval th2 hth2]
  rw [show ∀ S : ℝ, (1 + 1e-9 : ℝ) * (ipow p.Z 2 * Es2_of c / X0 * (1 / 2 * S)) = ipow p.Z 2 * Es2_of c / X0 * (1 / 2 * ((1 + 1e-9) * S)) from
    fun S => by ring]
  refine mul_le_mul_of_nonneg_left (mul_le_mul_of_nonneg_left ?_ (by norm_num)) hK
  rw [← wsum_smul]
  refine wsum_le _ _ _ (fun a ha => (integrator_nodes a ha).2.2.le) fun a ha => ?_
  obtain ⟨b1, b2, b4⟩ := depth_inner th1 hth a ha
  obtain ⟨c1, c2, -⟩ := depth_inner th2 hth2 a ha
  have b0 : 0 < th1 / 2 * a.1 + th1 / 2 := lt_of_lt_of_le (by positivity) b1
  have c0 : 0 < th2 / 2 * a.1 + th2 / 2 := lt_of_lt_of_le (by positivity) c1
  have hgap : th1 / 2 * a.1 + th1 / 2 + 2e-5 ≤ th2 / 2 * a.1 + th2 / 2 := by
    have : 1.1e-3 * 0.019 ≤ (th2 - th1) * ((1 + a.1) / 2) := mul_le_mul (by linarith) b4 (by norm_num) (by linarith)
    norm_num at this ⊢
    linarith
  simp only [hF]
  have hd : 0 ≤ ((1 - a.1) / 2 / t.rho) ^ j := by
    obtain ⟨-, b, -⟩ := integrator_nodes a ha
    norm_num at b
    exact pow_nonneg (div_nonneg (by linarith) hrho.le) j
  have hf1 : 0 ≤ scatterFactor c X0 (th1 / 2 * a.1 + th1 / 2) := scatterFactor_nonneg c X0 _ hX0 fun hs => by
    have := hH hs
    norm_num at this b1 ⊢
    linarith
  have hf2 : scatterFactor c X0 (th1 / 2 * a.1 + th1 / 2) ≤ scatterFactor c X0 (th2 / 2 * a.1 + th2 / 2) :=
    scatterFactor_mono c X0 _ _ hX0 (fun hs => by
      have := hH hs
      norm_num at this b1 ⊢
      linarith) (by norm_num at hgap; linarith)
  generalize th1 / 2 * a.1 + th1 / 2 = x at *
  generalize th2 / 2 * a.1 + th2 / 2 = y at *
  have xy : x < th2 := by norm_num at hgap; linarith
  have hT : Tfr (p.withT (e T x)) 1.0 1.0 ≤ (1 + 1e-9) * Tfr (p.withT (e T y)) 1.0 1.0 := by
    obtain ⟨w3, e1⟩ := he w2 r2 T x
    obtain ⟨w4, e2⟩ := he w2 r2 T y
    have hx := hE x b0 xy _ _ e1
    have hy := hE y c0 c2 _ _ e2
    have hx' : 0 < e T x := lt_of_lt_of_le (by norm_num) hx
    have hy' : 0 < e T y := lt_of_lt_of_le (by norm_num) hy
    obtain ⟨s1, q1⟩ := hrange w2 r2 x
    obtain ⟨s2, q2⟩ := hrange w2 r2 y
    have hord := (energy_out_ordered env hj p n t c h hk w2 w2 w2 w2 s2 s1 w4 w3 r2 r2 r2 r2 T T y x R R _ _ q2 q1 e2 e1
      ⟨by linarith, by linarith⟩ ⟨by linarith, by linarith⟩ (by linarith)).1
    exact Tfr_order p hc.ion.A _ _ hy hord
  have hT0 := Tfr_nonneg (p.withT (e T y))
  calc _ ≤ ((1 - a.1) / 2 / t.rho) ^ j * (scatterFactor c X0 x * ((1 + 1e-9) * Tfr (p.withT (e T y)) 1.0 1.0)) :=
        mul_le_mul_of_nonneg_left (mul_le_mul_of_nonneg_left hT hf1) hd
    _ ≤ ((1 - a.1) / 2 / t.rho) ^ j * (scatterFactor c X0 y * ((1 + 1e-9) * Tfr (p.withT (e T y)) 1.0 1.0)) :=
        mul_le_mul_of_nonneg_left (mul_le_mul_of_nonneg_right hf2 (mul_nonneg (by norm_num) hT0)) hd
    _ = _ := by ring

/-- Carbon ions above the table, behind 0.5 and 1 g/cm2 of water, meet the hypotheses of both theorems. -/
example (env : Env ℝ) (hdbg : env.debug = false) (hj : SmallJunk env.junk) (w : World ℝ) (hr : ReachableW env w) :
    ∃ (t : Material ℝ) (T1 T2 R1 R2 : ℝ) (w1 w2 : World ℝ), UsualIon ⟨12, 6, 6, 0⟩ 6 t .default ∧ NonDefault ⟨12, 6, 6, 0⟩ t .default ∧ 0 < t.rho ∧
      t.th = 1 ∧ range env ⟨12, 6, 6, T1⟩ t .default w = .ok (R1, w1) ∧ range env ⟨12, 6, 6, T2⟩ t .default w = .ok (R2, w2) ∧
      R1 + 2e-5 ≤ R2 ∧ t.th ≤ R1 ∧ (0.5 : ℝ) + 1.1e-3 ≤ t.th ∧
      ∀ x, 0 < x → x < t.th → ∀ E w', energy_out env ⟨12, 6, 6, T1⟩ (t.set_thickness x) .default w = .ok (E, w') → 1e-3 ≤ E := by
  have a := carbon_water 0
  have hk := carbon_water_nonDefault 0
  set t0 : Material ℝ := ⟨1, 0.5, 18.015, 78, [⟨1.00794, 1, 2⟩, ⟨15.9994, 8, 1⟩]⟩ with ht0
  obtain ⟨s, X, m, Y, X1, m0, Y0, hP, hdm, hv⟩ := range_line env hj _ 6 t0 .default (.inr (.inr a)) hk
  have m1 : 0 < 1 / m := by positivity
  have hc : Computable (⟨12, 6, 6, 0⟩ : Projectile ℝ) 6 (t0.set_thickness 1) .default := a.computable.thickness 1
  have hrange : ∀ T, X ≤ T → ∃ w', range env ⟨12, 6, 6, T⟩ (t0.set_thickness 1) .default w = .ok (m * (T - X) + Y, w') := by
    intro T hT
    obtain ⟨w1, R, E, hR, -⟩ := energy_out_succeeds env hdbg w hr ⟨12, 6, 6, T⟩ 6 _ _ (hc.withT T) hk
    have := (hv w hr T 1).1 R w1 hR
    rw [hP T hT] at this
    cases this
    exact ⟨w1, hR⟩
  obtain ⟨w1, h1⟩ := hrange (X + 2 * (1 / m)) (by linarith)
  obtain ⟨w2, h2⟩ := hrange (X + 3 * (1 / m)) (by linarith)
  have e1 : m * (X + 2 * (1 / m) - X) = 2 := by field_simp; ring
  have e2 : m * (X + 3 * (1 / m) - X) = 3 := by field_simp; ring
  rw [e1] at h1
  rw [e2] at h2
  refine ⟨t0.set_thickness 1, _, _, _, _, w1, w2, .inr (.inr { a with computable := hc }), hk, ?_, rfl, h1, h2, ?_, ?_, ?_, ?_⟩
  · show (0 : ℝ) < 1
    norm_num
  · norm_num
    linarith
  · show (1 : ℝ) ≤ _
    linarith
  · show (0.5 : ℝ) + 1.1e-3 ≤ 1
    norm_num
  · intro x x0 x1 E w' hE
    have x1' : x < 1 := x1
    have hE' : energy_out_spline env.debug (X + 2 * (1 / m)) x s = .ok E := (hv w hr _ x).2 E w' hE
    have xm : x * (1 / m) < 1 * (1 / m) := mul_lt_mul_of_pos_right x1' m1
    have he := energy_out_spline_first env.debug s (X + 2 * (1 / m)) (m * (X + 2 * (1 / m) - X) + Y) m x (X + 2 * (1 / m) - x * (1 / m))
      (m * (X + 2 * (1 / m) - x * (1 / m) - X) + Y) (hP _ (by linarith)) (hdm _ (by linarith)) (by rw [e1]; linarith) rfl (hP _ (by linarith)) (by
        rw [show m * (X + 2 * (1 / m) - X) + Y - (m * (X + 2 * (1 / m) - x * (1 / m) - X) + Y) - x = 0 by field_simp; ring]
        norm_num)
    rw [hE'] at he
    cases he
    have : (1e-3 : ℝ) ≤ 1 := by norm_num
    linarith

end Catima
