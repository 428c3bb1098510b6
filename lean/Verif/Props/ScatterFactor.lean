import Verif.Props.ScatterOrder
import Verif.Props.ScatterPower
import Verif.Props.PositiveRanges

/-!
# C137: what the scattering factor of the configuration changes
-/

namespace Catima

/-- Another scattering factor, all else equal. -/
def Config.withFactor (c : Config ℝ) (f : ℝ) : Config ℝ := { c with scattering_factor := f }

theorem Computable.withFactor {p : Projectile ℝ} {n : Int} {t : Material ℝ} {c : Config ℝ} (h : Computable p n t c) (f : ℝ) :
    Computable p n t (c.withFactor f) := ⟨h.ion, h.small, h.sound, h.known, h.charge⟩

set_option maxRecDepth 8000 in
/-- The range interpolator does not depend on the scattering factor. -/
theorem range_spline_factor (env : Env ℝ) (p : Projectile ℝ) (n : Int) (t : Material ℝ) (c : Config ℝ) (f : ℝ)
    (h : Computable p n t c) (hk : NonDefault p t c) (hk' : NonDefault p t (c.withFactor f)) :
    ∃ rs, (∀ w, ReachableW env w → ∃ d w', get_data env p t c w = .ok (d, w') ∧ get_range_spline env d = .ok rs) ∧
      ∀ w, ReachableW env w → ∃ d w', get_data env p t (c.withFactor f) w = .ok (d, w') ∧ get_range_spline env d = .ok rs := by
  obtain ⟨d0, rs, h0, -, hrs, -, hview⟩ := range_spline env p n t c h hk
  obtain ⟨d1, rs1, h1, -, hrs1, -, hview1⟩ := range_spline env p n t (c.withFactor f) (h.withFactor f) hk'
  have hrel := tables_rel (env := env) (b := env.storeSplines) (p := p) (p' := p) (t := t) (t' := t) (c := c) (c' := c.withFactor f)
    ⟨rfl, rfl, rfl, rfl, rfl, rfl, rfl, rfl, rfl, rfl, rfl⟩
  rw [withStore_self, h0, h1] at hrel
  have e : rs = rs1 := by
    rw [hrel.1.1, hrs1] at hrs
    exact (Except.ok.inj hrs).symm
  subst e
  exact ⟨rs, fun w hr => hview w hr p.T t.th, fun w hr => hview1 w hr p.T t.th⟩

/-- C137: the variance of the angle, the covariance and the variance of the position ignore the scattering factor. -/
theorem scattering_factor_ignored (env : Env ℝ) (p : Projectile ℝ) (n : Int) (t : Material ℝ) (c : Config ℝ) (f : ℝ)
    (h : Computable p n t c) (hk : NonDefault p t c) (hk' : NonDefault p t { c with scattering_factor := f })
    (w1 w2 : World ℝ) (r1 : ReachableW env w1) (r2 : ReachableW env w2) (o : Int) :
    (∀ v u1, angular_variance env p t c o w1 = .ok (v, u1) →
      ∃ u2, angular_variance env p t { c with scattering_factor := f } o w2 = .ok (v, u2)) ∧
    (∀ v u1, angular_straggling env p t c w1 = .ok (v, u1) →
      ∃ u2, angular_straggling env p t { c with scattering_factor := f } w2 = .ok (v, u2)) := by
  obtain ⟨rs, a1, a2⟩ := range_spline_factor env p n t c f h hk hk'
  obtain ⟨d1, x1, g1, s1⟩ := a1 w1 r1
  obtain ⟨d2, x2, g2, s2⟩ := a2 w2 r2
  have main : ∀ o v u1, angular_variance env p t c o w1 = .ok (v, u1) →
      ∃ u2, angular_variance env p t { c with scattering_factor := f } o w2 = .ok (v, u2) := by
    intro o v u1 hv
    unfold angular_variance at hv ⊢
    simp only [api_bind, api_pureM, ok_bind] at hv ⊢
    obtain ⟨_, y1, ⟨c1, rfl⟩, _, y2, ⟨c2, rfl⟩, _, y3, ⟨c3, rfl⟩, d, y4, hd, ⟨rs', hs, hfrom⟩, rfl⟩ := hv
    rw [g1] at hd
    obtain ⟨rfl, rfl⟩ := Prod.mk.inj (Except.ok.inj hd)
    rw [s1] at hs
    obtain rfl := Except.ok.inj hs
    exact ⟨x2, _, w2, ⟨c1, rfl⟩, _, w2, ⟨c2, rfl⟩, _, w2, ⟨c3, rfl⟩, d2, x2, g2, ⟨rs, s2, hfrom⟩, rfl⟩
  refine ⟨main o, fun v u1 hv => ?_⟩
  unfold angular_straggling at hv ⊢
  simp only [api_bind] at hv ⊢
  obtain ⟨v', y, hv', hq⟩ := hv
  obtain ⟨u2, hu⟩ := main 0 v' y hv'
  exact ⟨u2, v', u2, hu, by cases hq; rfl⟩

/-- C137: in thin layers the three moments are positive. -/
theorem thin_layer_scatters (env : Env ℝ) (hdbg : env.debug = false) (hj : SmallJunk env.junk) (w : World ℝ) (hr : ReachableW env w)
    (p : Projectile ℝ) (n : Int) (t : Material ℝ) (c : Config ℝ) (h : UsualIon p n t c) (hk : NonDefault p t c) (hrho : 0 < t.rho)
    (hG : c.scattering ≠ scattering_gottschalk) (hH : c.scattering ≠ scattering_dhighland) (k : Nat) (hk2 : k < 599)
    (hT0 : 1e-3 + 1e-12 ≤ p.T) (hT1 : (energy_table : EnergyTable ℝ).val k < p.T)
    (hT2 : p.T < (energy_table : EnergyTable ℝ).val (k + 1) - 10 * 2⁻¹ ^ 52) :
    ∃ δ > 0, ∀ th, 0 < th → th < δ → ∀ o : Int, o = 0 ∨ o = 1 ∨ o = 2 →
      ∃ v w', angular_variance env p (t.set_thickness th) c o w = .ok (v, w') ∧ 0 < v := by
  have hc := h.computable
  have hX0 : 0 < radiation_length t := radiation_length_material_pos t hc.sound fun a ha => le_trans (hc.known a ha) (by norm_num)
  obtain ⟨R, w1, hR, hR0⟩ := range_positive_partial env hj w hr p n t c h hk hT0
  obtain ⟨s, w2, hs, hs0⟩ := derived_stopping_positive env hj w hr p n t c h hk
  obtain ⟨δ, hδ, hthin⟩ := thin_layer_loss env w hr p n t c hc hk k hk2 hT1 hT2 R s w1 w2 hR hR0 hs hs0.ne'
  obtain ⟨e, he, hsum⟩ := angular_sum env hdbg p n t c hc hk hrho hG
  have hA := hc.ion.A
  have hTp : 0 < p.T := by norm_num at hT0; linarith
  refine ⟨min (min δ R) (p.T * p.A / s / 2), by positivity, fun th h0 h1 o ho => ?_⟩
  have m1 : th < δ := lt_of_lt_of_le h1 ((min_le_left _ _).trans (min_le_left _ _))
  have m2 : th < R := lt_of_lt_of_le h1 ((min_le_left _ _).trans (min_le_right _ _))
  have m3 : th < p.T * p.A / s / 2 := lt_of_lt_of_le h1 (min_le_right _ _)
  have hR' : ∃ w3, range env (p.withT p.T) (t.set_thickness th) c w = .ok (R, w3) := by
    obtain ⟨d, s', -, -, hv⟩ := range_view env p n t c hc hk
    obtain ⟨s1, R1', E1', q1, -⟩ := energy_out_succeeds env hdbg w hr (p.withT p.T) n (t.set_thickness th) c ((hc.withT p.T).thickness th) hk
    have y1 := (hv w hr p.T t.th).1 R w1 hR
    have y2 := (hv w hr p.T th).1 R1' s1 q1
    rw [y1] at y2
    obtain rfl := Except.ok.inj y2
    exact ⟨s1, q1⟩
  obtain ⟨w3, hR'⟩ := hR'
  refine ⟨_, w3, hsum w hr p.T th R w3 h0.le hR' m2.le o, ?_⟩
  have hK : 0 < ipow p.Z 2 * Es2_of c / radiation_length t := by
    have z0 : p.Z ≠ 0 := by rw [hc.ion.Z]; exact_mod_cast (show n ≠ 0 by have := hc.ion.pos; omega)
    have : 0 < ipow p.Z 2 := mul_self_pos.mpr z0
    have := Es2_pos c
    positivity
  refine mul_pos hK (mul_pos (by positivity) ?_)
  have hne : (integrator.full : List (ℝ × ℝ)) ≠ [] := by rw [integrator_full]; simp
  unfold wsum
  refine List.sum_pos _ ?_ (by simpa using hne)
  intro x hx
  obtain ⟨a, ha, rfl⟩ := List.mem_map.mp hx
  obtain ⟨b1, b2, -⟩ := depth_inner th h0 a ha
  have b0 : 0 < th / 2 * a.1 + th / 2 := lt_of_lt_of_le (by positivity) b1
  refine mul_pos (integrator_nodes a ha).2.2 ?_
  beta_reduce
  generalize th / 2 * a.1 + th / 2 = x at *
  obtain ⟨k', -, hi⟩ := ipow_cases o ho ((th - x) / t.rho)
  rw [hi]
  refine mul_pos (pow_pos (div_pos (by linarith) hrho) _) (mul_pos ?_ ?_)
  · unfold scatterFactor
    rw [if_neg hH]
    norm_num
  · obtain ⟨w4, e1⟩ := he w hr p.T x
    obtain ⟨w5, e2⟩ := hthin x b0.le (by linarith)
    have e1' : energy_out env p (t.set_thickness x) c w = .ok (e p.T x, w4) := e1
    rw [e2] at e1'
    have e3 : e p.T x = p.T - x * s / p.A := (Prod.mk.inj (Except.ok.inj e1')).1.symm
    have hpos : 0 < e p.T x := by
      rw [e3]
      have : x * s / p.A < p.T / 2 := by
        rw [div_lt_iff₀ hA]
        have h5 : x < p.T * p.A / s / 2 := by linarith
        rw [div_div, lt_div_iff₀ (by positivity)] at h5
        linarith
      linarith
    rw [Tfr_value p hA _ hpos]
    have := amu_pos
    positivity

/-- C137, refuted: an ion of another scattering factor gets the same positive moments behind thin layers, which are thus not scaled. -/
theorem scattering_factor_wrong (env : Env ℝ) (hdbg : env.debug = false) (hj : SmallJunk env.junk) (w w2 : World ℝ) (hr : ReachableW env w)
    (hr2 : ReachableW env w2) (p : Projectile ℝ) (n : Int) (t : Material ℝ) (c : Config ℝ) (h : UsualIon p n t c) (hk : NonDefault p t c)
    (f : ℝ) (hk' : NonDefault p t { c with scattering_factor := f }) (hf : f ≠ c.scattering_factor) (hrho : 0 < t.rho)
    (hG : c.scattering ≠ scattering_gottschalk) (hH : c.scattering ≠ scattering_dhighland) (k : Nat) (hk2 : k < 599)
    (hT0 : 1e-3 + 1e-12 ≤ p.T) (hT1 : (energy_table : EnergyTable ℝ).val k < p.T)
    (hT2 : p.T < (energy_table : EnergyTable ℝ).val (k + 1) - 10 * 2⁻¹ ^ 52) :
    ∃ δ > 0, ∀ th, 0 < th → th < δ → ∀ o : Int, o = 0 ∨ o = 1 ∨ o = 2 → ∃ v v' w' w2',
      angular_variance env p (t.set_thickness th) c o w = .ok (v, w') ∧
      angular_variance env p (t.set_thickness th) { c with scattering_factor := f } o w2 = .ok (v', w2') ∧
      c.scattering_factor * v' ≠ f * v := by
  obtain ⟨δ, hδ, hv⟩ := thin_layer_scatters env hdbg hj w hr p n t c h hk hrho hG hH k hk2 hT0 hT1 hT2
  refine ⟨δ, hδ, fun th h0 h1 o ho => ?_⟩
  obtain ⟨v, w', hv, v0⟩ := hv th h0 h1 o ho
  obtain ⟨w2', hv'⟩ := (scattering_factor_ignored env p n (t.set_thickness th) c f (h.computable.thickness th) hk hk' w w2 hr hr2 o).1 v w' hv
  exact ⟨v, v, w', w2', hv, hv', fun e => hf (mul_right_cancel₀ v0.ne' e).symm⟩

/-- C137, what holds: the scattering power `da2dx`, and with it the table that `calculate` reads for the option `scattering_atima` (the
default), is proportional to the factor. -/
theorem scattering_factor_partial (env : Env ℝ) (p : Projectile ℝ) (t : Material ℝ) (c : Config ℝ) (f g : ℝ) :
    g * da2dx p t { c with scattering_factor := f } = f * da2dx p t { c with scattering_factor := g } ∧
    ∀ x v, ftheta env p t { c with scattering_factor := f } x = .ok v →
      ∃ v', ftheta env p t { c with scattering_factor := g } x = .ok v' ∧ g * v = f * v' := by
  have key : ∀ p : Projectile ℝ, g * da2dx p t { c with scattering_factor := f } = f * da2dx p t { c with scattering_factor := g } := by
    intro p
    show g * (f * angular_scattering_power p t (Es2_of c)) = f * (g * angular_scattering_power p t (Es2_of c))
    ring
  refine ⟨key p, fun x v hv => ?_⟩
  unfold ftheta da2de at hv ⊢
  have hde : dedx env (p.withT x) t { c with scattering_factor := g } = dedx env (p.withT x) t { c with scattering_factor := f } := rfl
  rw [hde]
  simp only [ok_bind] at hv ⊢
  obtain ⟨s, hs, hv⟩ := hv
  obtain rfl := Except.ok.inj hv
  refine ⟨_, ⟨s, hs, rfl⟩, ?_⟩
  rw [← mul_div_assoc, key, mul_div_assoc]

/-- C137: so in the results of `calculate` the position spread and the covariance are those of another factor, while the angular spread
follows the factor for the option `scattering_atima`; for the other options it ignores it as well. -/
theorem calculate_factor_ignored (env : Env ℝ) (p : Projectile ℝ) (n : Int) (t : Material ℝ) (c : Config ℝ) (f : ℝ)
    (h : Computable p n t c) (hk : NonDefault p t c) (hk' : NonDefault p t { c with scattering_factor := f })
    (w1 w2 u1 u2 : World ℝ) (r1 : ReachableW env w1) (r2 : ReachableW env w2) (hT : 1e-3 ≤ p.T) (hth : t.th ≠ 0) (a b : Result ℝ)
    (ha : calculate env p t c w1 = .ok (a, u1)) (hb : calculate env p t { c with scattering_factor := f } w2 = .ok (b, u2)) :
    a.sigma_x = b.sigma_x ∧ a.cov = b.cov ∧
      (c.scattering ≠ scattering_atima → 1e-3 ≤ a.Eout → 1e-3 ≤ b.Eout → t.th < a.range → t.th < b.range → a.sigma_a = b.sigma_a) := by
  have hT' : ((p.T <? Ezero) && (p.T <? Ezero - numeric_epsilon)) = false := by
    have : (p.T <? (Ezero : ℝ)) = false := by rw [lt_real_false]; norm_num [Ezero] at hT ⊢; exact hT
    rw [this]; rfl
  have hth' : (t.th =? (0.0 : ℝ)) = false := by
    rw [← Bool.not_eq_true, beq_real]; norm_num; exact hth
  have hE : ∀ E : ℝ, 1e-3 ≤ E → (E <? (Ezero : ℝ)) = false := fun E hE => by rw [lt_real_false]; norm_num [Ezero] at hE ⊢; exact hE
  obtain ⟨⟨s1, a1, a2⟩, a3, -, a4⟩ := calculate_agrees_out env p t c w1 u1 a r1 (key_refl_real _) hT' hth' ha
  obtain ⟨⟨s2, b1, b2⟩, b3, -, b4⟩ := calculate_agrees_out env p t _ w2 u2 b r2 (key_refl_real _) hT' hth' hb
  have hi := fun o => scattering_factor_ignored env p n t c f h hk hk' w1 w2 r1 r2 o
  refine ⟨?_, ?_, fun hs hEa hEb hra hrb => ?_⟩
  · obtain ⟨x, hx⟩ := (hi 2).1 _ _ a1
    rw [b1] at hx
    rw [a2, b2, (Prod.mk.inj (Except.ok.inj hx)).1]
  · obtain ⟨x, hx⟩ := (hi 1).1 _ _ a3
    rw [b3] at hx
    exact (Prod.mk.inj (Except.ok.inj hx)).1.symm
  · have k1 := (a4 (hE _ hEa)).2.2.2 hs (by rw [lt_real]; exact hra)
    have k2 := (b4 (hE _ hEb)).2.2.2 hs (by rw [lt_real]; exact hrb)
    obtain ⟨x, hx⟩ := (hi 0).2 _ _ k1
    rw [k2] at hx
    exact (Prod.mk.inj (Except.ok.inj hx)).1.symm

/-- Carbon ions in water with twice the scattering factor: the variance behind thin layers is not doubled. -/
example (env : Env ℝ) (hdbg : env.debug = false) (hj : SmallJunk env.junk) (k : Nat) (hk2 : k < 599) (T : ℝ) (hT0 : 1 ≤ T)
    (hT1 : (energy_table : EnergyTable ℝ).val k < T) (hT2 : T < (energy_table : EnergyTable ℝ).val (k + 1) - 10 * 2⁻¹ ^ 52) :
    ∃ δ > 0, ∀ th, 0 < th → th < δ → ∃ v v' w' w2',
      angular_variance env ⟨12, 6, 6, T⟩ (⟨1, th, 18.015, 78, [⟨1.00794, 1, 2⟩, ⟨15.9994, 8, 1⟩]⟩ : Material ℝ) .default 0 .init = .ok (v, w') ∧
      angular_variance env ⟨12, 6, 6, T⟩ (⟨1, th, 18.015, 78, [⟨1.00794, 1, 2⟩, ⟨15.9994, 8, 1⟩]⟩ : Material ℝ)
        { (Config.default : Config ℝ) with scattering_factor := 2 } 0 .init = .ok (v', w2') ∧ v' ≠ 2 * v := by
  have hk : ∀ c : Config ℝ, NonDefault ⟨12, 6, 6, T⟩ (⟨1, 0.5, 18.015, 78, [⟨1.00794, 1, 2⟩, ⟨15.9994, 8, 1⟩]⟩ : Material ℝ) c := by
    intro c
    simp only [NonDefault, Key.eq, Key.default, Projectile.eq, Projectile.default]
    simp
    intro h
    norm_num at h
  have one : (Config.default : Config ℝ).scattering_factor = 1 := by show (1.0 : ℝ) = 1; norm_num
  obtain ⟨δ, hδ, H⟩ := scattering_factor_wrong env hdbg hj .init .init ⟨[], rfl⟩ ⟨[], rfl⟩ ⟨12, 6, 6, T⟩ 6 _ .default (.inr (.inr (carbon_water T))) (hk _) 2
    (hk _) (by rw [one]; norm_num) (by norm_num) (by decide) (by decide) k hk2 (by norm_num at hT0 ⊢; linarith) hT1 hT2
  refine ⟨δ, hδ, fun th h0 h1 => ?_⟩
  obtain ⟨v, v', w', w2', e1, e2, e3⟩ := H th h0 h1 0 (.inl rfl)
  rw [one, one_mul] at e3
  exact ⟨v, v', w', w2', e1, e2, e3⟩

end Catima
