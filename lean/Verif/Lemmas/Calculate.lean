import Verif.Lemmas.Run
import Verif.Model.Calculate

/-!
# Helper lemmas: the steps of a successful `calculate`
-/

namespace Catima
variable {α : Type} [Scalar α]

/-- Steps of `calculate` for a projectile that leaves the material. -/
structure ThroughSteps (env : Env α) (p : Projectile α) (t : Material α) (c : Config α)
    (d : DataPoint α) (rs ss : Spline α) (E R : α) (w w' : World α) (dEdxo sE sa tof : α) : Prop where
  slope : ∃ dR, rs.deriv E = .ok dR ∧ dEdxo = p.A / dR
  strag : ∃ as_ sa0, get_angular_variance_spline env d = .ok as_ ∧
    stragglings env p.A p.T E dEdxo (c.scattering == scattering_atima) ss as_ = .ok (sE, sa0) ∧
    (((!(c.scattering == scattering_atima)) && (t.th <? R)) = true →
      angular_straggling env (p.withT p.T) t c w = .ok (sa, w')) ∧
    (((!(c.scattering == scattering_atima)) && (t.th <? R)) = false → sa = sa0 ∧ w' = w)
  flight : calculate_tof_from_E env p E t w'.default_config = .ok tof

theorem calculateThrough_steps {env : Env α} {p : Projectile α} {t : Material α} {c : Config α}
    {d : DataPoint α} {rs ss : Spline α} {res r : Result α} {w w' : World α}
    (h : calculateThrough env p t c d rs ss (c.scattering == scattering_atima) res w = .ok (r, w')) :
    ∃ dEdxo sE sa tof, ThroughSteps env p t c d rs ss res.Eout res.range w w' dEdxo sE sa tof ∧
      r = { res with dEdxo := dEdxo, sigma_E := sE, sigma_a := sa, tof := tof } := by
  unfold calculateThrough at h
  rw [api_bind] at h
  obtain ⟨as_, w1, h1, h⟩ := h
  rw [api_pureM] at h1
  obtain ⟨h1, rfl⟩ := h1
  rw [api_bind] at h
  obtain ⟨dE, w1, h2, h⟩ := h
  rw [api_pureM, ok_bind] at h2
  obtain ⟨⟨dR, h2, e2⟩, rfl⟩ := h2
  rw [api_bind] at h
  obtain ⟨⟨sE, sa0⟩, w1, h3, h⟩ := h
  rw [api_pureM] at h3
  obtain ⟨h3, rfl⟩ := h3
  dsimp only at h
  rw [ok_pure] at e2
  subst e2
  by_cases hc : ((!(c.scattering == scattering_atima)) && (t.th <? res.range)) = true
  · rw [if_pos hc, api_bind] at h
    obtain ⟨sa, w2, h4, h⟩ := h
    rw [api_bind] at h
    obtain ⟨w3, w4, h5, h⟩ := h
    rw [api_get] at h5
    obtain ⟨rfl, rfl⟩ := h5
    rw [api_bind] at h
    obtain ⟨tof, w5, h6, h⟩ := h
    rw [api_pureM] at h6
    obtain ⟨h6, rfl⟩ := h6
    rw [api_pure] at h
    obtain ⟨h, rfl⟩ := h
    exact ⟨_, sE, sa, tof, ⟨⟨dR, h2, rfl⟩, ⟨as_, sa0, h1, h3, fun _ => h4,
      fun hc' => absurd hc (by simp [hc'])⟩, h6⟩, h.symm⟩
  · rw [if_neg hc, api_bind] at h
    obtain ⟨sa, w2, h4, h⟩ := h
    rw [api_pure] at h4
    obtain ⟨rfl, rfl⟩ := h4
    rw [api_bind] at h
    obtain ⟨w3, w4, h5, h⟩ := h
    rw [api_get] at h5
    obtain ⟨rfl, rfl⟩ := h5
    rw [api_bind] at h
    obtain ⟨tof, w5, h6, h⟩ := h
    rw [api_pureM] at h6
    obtain ⟨h6, rfl⟩ := h6
    rw [api_pure] at h
    obtain ⟨h, rfl⟩ := h
    exact ⟨_, sE, sa0, tof, ⟨⟨dR, h2, rfl⟩, ⟨as_, sa0, h1, h3, fun hc' => absurd hc' hc,
      fun _ => ⟨rfl, rfl⟩⟩, h6⟩, h.symm⟩

/-- The energy is below the limit of `calculate`. -/
def tooSlow (T : α) : Bool := (T <? Ezero) && (T <? Ezero - numeric_epsilon)

/-- Steps common to all other cases. -/
structure CalcSteps (env : Env α) (p : Projectile α) (t : Material α) (c : Config α)
    (w w1 : World α) (d : DataPoint α) (rs ss : Spline α) (r : Result α) : Prop where
  data : get_data env p t c w = .ok (d, w1)
  rspline : get_range_spline env d = .ok rs
  sspline : get_range_straggling_spline env d = .ok ss
  ein : r.Ein = p.T
  range : rs.evaluate p.T = .ok r.range
  dEdxi : ∃ dR, rs.deriv p.T = .ok dR ∧ r.dEdxi = p.A / dR
  sigma_r : ∃ S, ss.evaluate p.T = .ok S ∧ r.sigma_r = Scalar.sqrt S

/-- The three ways `calculate` returns a value. -/
theorem calculate_steps {env : Env α} {p : Projectile α} {t : Material α} {c : Config α}
    {r : Result α} {w w' : World α} (h : calculate env p t c w = .ok (r, w')) :
    (tooSlow p.T = true ∧ r = .init ∧ w' = w) ∨
    (tooSlow p.T = false ∧ ∃ w1 d rs ss, CalcSteps env p t c w w1 d rs ss r ∧
      ((Scalar.beq t.th 0.0 = true ∧ w' = w1 ∧ r = { (Result.init : Result α) with
          Ein := p.T, Eout := p.T, range := r.range, dEdxi := r.dEdxi, dEdxo := r.dEdxi,
          sigma_r := r.sigma_r }) ∨
       (Scalar.beq t.th 0.0 = false ∧ energy_out_spline env.debug p.T t.th rs = .ok r.Eout ∧
        r.Eloss = (p.T - r.Eout) * p.A ∧
        ∃ w2 w3 w4 sx,
          ((Scalar.lt r.Eout Ezero = true ∧ r.dEdxo = 0.0 ∧ r.sigma_E = 0.0 ∧ r.sigma_a = 0.0 ∧
            r.tof = 0.0 ∧ w2 = w1) ∨
           (Scalar.lt r.Eout Ezero = false ∧ ThroughSteps env p t c d rs ss r.Eout r.range w1 w2
            r.dEdxo r.sigma_E r.sigma_a r.tof)) ∧
          angular_variance env (p.withT p.T) t c 2 w2 = .ok (sx, w3) ∧ r.sigma_x = Scalar.sqrt sx ∧
          angular_variance env (p.withT p.T) t c 1 w3 = .ok (r.cov, w4) ∧
          nonreaction_rate env p t c w4 = .ok (r.sp, w')))) := by
  unfold calculate at h
  dsimp only at h
  by_cases hs : tooSlow p.T = true
  · left
    have hs' : ((p.T <? Ezero) && (p.T <? Ezero - numeric_epsilon)) = true := hs
    rw [if_pos hs', api_pure] at h
    exact ⟨hs, h.1.symm, h.2.symm⟩
  · right
    have hs' : ((p.T <? Ezero) && (p.T <? Ezero - numeric_epsilon)) = false := by
      simpa [tooSlow] using hs
    rw [hs', if_neg (by simp)] at h
    refine ⟨by simpa using hs, ?_⟩
    rw [api_bind] at h
    obtain ⟨d, w1, hd, h⟩ := h
    rw [api_bind] at h
    obtain ⟨rs, w2, hrs, h⟩ := h
    rw [api_pureM] at hrs
    obtain ⟨hrs, rfl⟩ := hrs
    rw [api_bind] at h
    obtain ⟨ss, w2, hss, h⟩ := h
    rw [api_pureM] at hss
    obtain ⟨hss, rfl⟩ := hss
    rw [api_bind] at h
    obtain ⟨R, w2, hR, h⟩ := h
    rw [api_pureM] at hR
    obtain ⟨hR, rfl⟩ := hR
    rw [api_bind] at h
    obtain ⟨dE, w2, hdE, h⟩ := h
    rw [api_pureM, ok_bind] at hdE
    obtain ⟨⟨dR, hdR, edR⟩, rfl⟩ := hdE
    rw [ok_pure] at edR
    rw [api_bind] at h
    obtain ⟨sr, w2, hsr, h⟩ := h
    rw [api_pureM, ok_bind] at hsr
    obtain ⟨⟨S, hS, eS⟩, rfl⟩ := hsr
    rw [ok_pure] at eS
    by_cases ht : Scalar.beq t.th 0.0 = true
    · rw [if_pos ht, api_pure] at h
      obtain ⟨rfl, rfl⟩ := h
      exact ⟨_, d, rs, ss, ⟨hd, hrs, hss, rfl, hR, ⟨dR, hdR, edR.symm⟩, ⟨S, hS, eS.symm⟩⟩,
        .inl ⟨ht, rfl, rfl⟩⟩
    · rw [if_neg ht, api_bind] at h
      obtain ⟨E, w2, hE, h⟩ := h
      rw [api_pureM] at hE
      obtain ⟨hE, rfl⟩ := hE
      have ht' : Scalar.beq t.th 0.0 = false := by simpa using ht
      by_cases hlow : Scalar.lt E Ezero = true
      · rw [if_pos hlow, api_bind] at h
        obtain ⟨res, w3, hres, h⟩ := h
        rw [api_pure] at hres
        obtain ⟨rfl, rfl⟩ := hres
        rw [api_bind] at h
        obtain ⟨sx, w4, hsx, h⟩ := h
        rw [api_bind] at h
        obtain ⟨cov, w5, hcov, h⟩ := h
        rw [api_bind] at h
        obtain ⟨sp, w6, hsp, h⟩ := h
        rw [api_pure] at h
        obtain ⟨rfl, rfl⟩ := h
        exact ⟨_, d, rs, ss, ⟨hd, hrs, hss, rfl, hR, ⟨dR, hdR, edR.symm⟩, ⟨S, hS, eS.symm⟩⟩,
          .inr ⟨ht', hE, rfl, _, _, _, sx, .inl ⟨hlow, rfl, rfl, rfl, rfl, rfl⟩, hsx, rfl, hcov, hsp⟩⟩
      · have hlow' : Scalar.lt E Ezero = false := by simpa using hlow
        rw [if_neg hlow, api_bind] at h
        obtain ⟨res, w3, hres, h⟩ := h
        obtain ⟨dEo, sE, sa, tof, hst, rfl⟩ := calculateThrough_steps hres
        rw [api_bind] at h
        obtain ⟨sx, w4, hsx, h⟩ := h
        rw [api_bind] at h
        obtain ⟨cov, w5, hcov, h⟩ := h
        rw [api_bind] at h
        obtain ⟨sp, w6, hsp, h⟩ := h
        rw [api_pure] at h
        obtain ⟨rfl, rfl⟩ := h
        exact ⟨_, d, rs, ss, ⟨hd, hrs, hss, rfl, hR, ⟨dR, hdR, edR.symm⟩, ⟨S, hS, eS.symm⟩⟩,
          .inr ⟨ht', hE, rfl, _, _, _, sx, .inr ⟨hlow', hst⟩, hsx, rfl, hcov, hsp⟩⟩

end Catima
