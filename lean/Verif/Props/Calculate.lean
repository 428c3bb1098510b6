import Verif.Lemmas.Calculate
import Verif.Props.EnergyOutBounds

/-!
# C54-C57: `calculate` for one material
-/

namespace Catima
variable {α : Type} [Scalar α]

/-! ## Helper lemmas -/

theorem get_data_config {env : Env α} {p : Projectile α} {t : Material α} {c : Config α} {w w' : World α}
    {d : DataPoint α} (h : get_data env p t c w = .ok (d, w')) :
    w'.default_config = w.default_config ∧ w'.c_defaults_z_effective = w.c_defaults_z_effective := by
  unfold get_data at h
  rw [ok_bind] at h
  obtain ⟨⟨d1, s1⟩, h1, h2⟩ := h
  cases h2
  exact ⟨rfl, rfl⟩

theorem angular_variance_again {env : Env α} {p : Projectile α} {t : Material α} {c : Config α}
    {w w1 w2 : World α} {d : DataPoint α} {o : Int} {x : α} (hd : get_data env p t c w = .ok (d, w1))
    (h1 : get_data env p t c w1 = .ok (d, w1)) (h : angular_variance env p t c o w1 = .ok (x, w2)) :
    w2 = w1 ∧ angular_variance env p t c o w = .ok (x, w1) := by
  unfold angular_variance at h ⊢
  simp only [api_bind, api_pureM] at h ⊢
  obtain ⟨a1, _, ⟨k1, rfl⟩, a2, _, ⟨k2, rfl⟩, a3, _, ⟨k3, rfl⟩, d', w3, h2, h3, rfl⟩ := h
  rw [h1] at h2
  cases h2
  exact ⟨rfl, a1, _, ⟨k1, rfl⟩, a2, _, ⟨k2, rfl⟩, a3, _, ⟨k3, rfl⟩, _, _, hd, h3, rfl⟩

theorem nonreaction_rate_again {env : Env α} {p : Projectile α} {t : Material α} {c : Config α}
    {w w1 w2 : World α} {d : DataPoint α} {x : α} (hd : get_data env p t c w = .ok (d, w1))
    (h1 : get_data env p t c w1 = .ok (d, w1)) (h : nonreaction_rate env p t c w1 = .ok (x, w2)) :
    w2 = w1 ∧ ∃ w3, nonreaction_rate env p t c w = .ok (x, w3) := by
  unfold nonreaction_rate at h ⊢
  by_cases h2 : (p.T <? emin_reaction) = true
  · rw [if_pos h2] at h ⊢
    rw [api_pure] at h
    obtain ⟨rfl, rfl⟩ := h
    exact ⟨rfl, w, rfl⟩
  · rw [if_neg h2] at h ⊢
    by_cases h3 : (t.th ≤? 0.0) = true
    · rw [if_pos h3] at h ⊢
      rw [api_pure] at h
      obtain ⟨rfl, rfl⟩ := h
      exact ⟨rfl, w, rfl⟩
    · rw [if_neg h3] at h ⊢
      simp only [api_bind, api_pureM] at h ⊢
      obtain ⟨d', w3, h4, h5, rfl⟩ := h
      rw [h1] at h4
      cases h4
      exact ⟨rfl, w1, _, _, hd, h5, rfl⟩

/-! ## C54 -/

/-- C54: below the energy limit (1e-3 MeV/u, less the machine epsilon) nothing is computed. -/
theorem calculate_below_limit (env : Env ℝ) (p : Projectile ℝ) (t : Material ℝ) (c : Config ℝ)
    (w : World ℝ) (h : p.T < 1e-3 - 10 * 2⁻¹ ^ 52) :
    calculate env p t c w = .ok (⟨0, 0, 0, 0, 0, 0, 0, 0, 0, 0, 0, 0, 1⟩, w) := by
  have hp : (0 : ℝ) < 2⁻¹ ^ 52 := by positivity
  unfold calculate
  dsimp only
  rw [if_pos]
  · show (Except.ok _ : M _) = _
    simp only [Result.init]
    norm_num
  · simp only [Bool.and_eq_true, lt_real, Ezero, numeric_epsilon, dblEps]
    constructor
    · norm_num at h hp ⊢
      linarith
    · norm_num at h ⊢
      linarith

/-- C54: with zero thickness the projectile is unchanged. -/
theorem calculate_zero_thickness (env : Env ℝ) (p : Projectile ℝ) (t : Material ℝ) (c : Config ℝ)
    (w w' : World ℝ) (r : Result ℝ) (hT : 1e-3 ≤ p.T) (ht : t.th = 0)
    (h : calculate env p t c w = .ok (r, w')) :
    r.Ein = p.T ∧ r.Eout = p.T ∧ r.Eloss = 0 ∧ r.dEdxo = r.dEdxi ∧ r.sigma_E = 0 ∧ r.sigma_a = 0 ∧
      r.sigma_x = 0 ∧ r.cov = 0 ∧ r.tof = 0 ∧ r.sp = 1 := by
  rcases calculate_steps h with ⟨hs, -, -⟩ | ⟨hs, w1, d, rs, ss, hst, h⟩
  · exfalso
    simp only [tooSlow, Bool.and_eq_true, lt_real, Ezero] at hs
    have := hs.1
    norm_num at this hT
    linarith
  · rcases h with ⟨h0, -, hr⟩ | ⟨h0, -⟩
    · rw [hr]
      simp only [Result.init]
      norm_num
    · exfalso
      rw [beq_real_false] at h0
      rw [ht] at h0
      norm_num at h0

/-- C54: when the projectile is stopped, and in particular when the material is at least as thick as
the range, nothing but the energy loss is reported on the far side. -/
theorem calculate_stopped (env : Env ℝ) (p : Projectile ℝ) (t : Material ℝ) (c : Config ℝ)
    (w w' : World ℝ) (r : Result ℝ) (hT : 1e-3 ≤ p.T) (ht : t.th ≠ 0)
    (h : calculate env p t c w = .ok (r, w')) :
    (r.range ≤ t.th → r.Eout = 0) ∧
    (r.Eout < 1e-3 → r.dEdxo = 0 ∧ r.sigma_E = 0 ∧ r.sigma_a = 0 ∧ r.tof = 0) := by
  rcases calculate_steps h with ⟨hs, -, -⟩ | ⟨hs, w1, d, rs, ss, hst, h⟩
  · exfalso
    simp only [tooSlow, Bool.and_eq_true, lt_real, Ezero] at hs
    have := hs.1
    norm_num at this hT
    linarith
  · rcases h with ⟨h0, -⟩ | ⟨h0, hE, -, w2, w3, w4, sx, hcase, -⟩
    · exfalso
      rw [beq_real] at h0
      norm_num at h0
      exact ht h0
    · constructor
      · intro hle
        refine (energy_out_stops env w w1 w1 p t c r.Eout r.range ?_ ?_).1 hle
        · unfold energy_out
          simp only [api_bind, api_pureM, ok_bind]
          exact ⟨d, w1, hst.data, ⟨rs, hst.rspline, hE⟩, rfl⟩
        · unfold range
          simp only [api_bind, api_pureM, ok_bind]
          exact ⟨d, w1, hst.data, ⟨rs, hst.rspline, hst.range⟩, rfl⟩
      · intro hlt
        rcases hcase with ⟨-, h1, h2, h3, h4, -⟩ | ⟨hno, -⟩
        · rw [h1, h2, h3, h4]; norm_num
        · exfalso
          rw [lt_real_false] at hno
          unfold Ezero at hno
          norm_num at hno hlt
          linarith

/-! ## C55 -/

/-- C55: the energy balance of every call. -/
theorem calculate_balance (env : Env ℝ) (p : Projectile ℝ) (t : Material ℝ) (c : Config ℝ)
    (w w' : World ℝ) (r : Result ℝ) (h : calculate env p t c w = .ok (r, w')) :
    r.Eloss = (r.Ein - r.Eout) * p.A ∧ (1e-3 ≤ p.T → r.Ein = p.T) ∧
    (1e-3 ≤ p.T → t.th ≠ 0 → ∃ w1, energy_out env p t c w = .ok (r.Eout, w1)) := by
  rcases calculate_steps h with ⟨hs, rfl, -⟩ | ⟨hs, w1, d, rs, ss, hst, h⟩
  · have hT : ¬ (1e-3 ≤ p.T) := by
      simp only [tooSlow, Bool.and_eq_true, lt_real, Ezero] at hs
      have := hs.1
      norm_num at this ⊢
      linarith
    refine ⟨by simp only [Result.init]; norm_num, fun h => absurd h hT, fun h => absurd h hT⟩
  · refine ⟨?_, fun _ => hst.ein, ?_⟩
    · rcases h with ⟨h0, -, hr⟩ | ⟨h0, hE, hl, -⟩
      · rw [hr]; simp only [Result.init]; norm_num
      · rw [hl, hst.ein]
    · intro _ ht
      rcases h with ⟨h0, -⟩ | ⟨h0, hE, -⟩
      · exfalso
        rw [beq_real] at h0
        norm_num at h0
        exact ht h0
      · refine ⟨w1, ?_⟩
        unfold energy_out
        simp only [api_bind, api_pureM, ok_bind]
        exact ⟨d, w1, hst.data, ⟨rs, hst.rspline, hE⟩, rfl⟩

/-! ## C56 -/

/-- C56: what `calculate` reports about the incoming projectile is what the single functions return
in the same state. -/
theorem calculate_agrees (env : Env α) (p : Projectile α) (t : Material α) (c : Config α)
    (w w' : World α) (r : Result α)
    (hT : ((p.T <? Ezero) && (p.T <? Ezero - numeric_epsilon)) = false)
    (h : calculate env p t c w = .ok (r, w')) :
    ∃ w1, range env p t c w = .ok (r.range, w1) ∧ dedx_from_range env p t c w = .ok (r.dEdxi, w1) ∧
      range_straggling env p p.T t c w = .ok (r.sigma_r, w1) ∧
      ((t.th =? 0.0) = false → energy_out env p t c w = .ok (r.Eout, w1)) := by
  rcases calculate_steps h with ⟨hs, -, -⟩ | ⟨hs, w1, d, rs, ss, hst, h⟩
  · rw [show tooSlow p.T = _ from hT] at hs
    cases hs
  · refine ⟨w1, ?_, ?_, ?_, ?_⟩
    · unfold range
      simp only [api_bind, api_pureM, ok_bind]
      exact ⟨d, w1, hst.data, ⟨rs, hst.rspline, hst.range⟩, rfl⟩
    · obtain ⟨dR, h1, h2⟩ := hst.dEdxi
      unfold dedx_from_range
      simp only [api_bind, api_pureM, ok_bind]
      exact ⟨d, w1, hst.data, ⟨rs, hst.rspline, dR, h1, by rw [h2]; rfl⟩, rfl⟩
    · obtain ⟨S, h1, h2⟩ := hst.sigma_r
      unfold range_straggling
      simp only [api_bind, api_pureM, ok_bind]
      exact ⟨d, w1, hst.data, ⟨ss, hst.sspline, S, h1, by rw [h2]; rfl⟩, rfl⟩
    · intro ht
      rcases h with ⟨h0, -⟩ | ⟨h0, hE, -⟩
      · rw [ht] at h0; cases h0
      · unfold energy_out
        simp only [api_bind, api_pureM, ok_bind]
        exact ⟨d, w1, hst.data, ⟨rs, hst.rspline, hE⟩, rfl⟩

/-- C56: so are the quantities on the far side; the position spread, the covariance and the
non-reaction probability are reported for a stopped projectile too. -/
theorem calculate_agrees_out (env : Env α) (p : Projectile α) (t : Material α) (c : Config α)
    (w w' : World α) (r : Result α) (hr : ReachableW env w)
    (hk : (⟨p, t, c⟩ : Key α).eq ⟨p, t, c⟩ = true)
    (hT : ((p.T <? Ezero) && (p.T <? Ezero - numeric_epsilon)) = false)
    (ht : (t.th =? 0.0) = false) (h : calculate env p t c w = .ok (r, w')) :
    (∃ sx, angular_variance env p t c 2 w = .ok (sx, w') ∧ r.sigma_x = Scalar.sqrt sx) ∧
    angular_variance env p t c 1 w = .ok (r.cov, w') ∧
    (∃ w2, nonreaction_rate env p t c w = .ok (r.sp, w2)) ∧
    ((r.Eout <? Ezero) = false →
      dedx_from_range env (p.withT r.Eout) t c w' = .ok (r.dEdxo, w') ∧
      (env.thin = false ∨ (thin_target_limit * p.T <? r.Eout) = false →
        energy_straggling_from_E env p p.T r.Eout t c w = .ok (r.sigma_E, w')) ∧
      (env.thin = true → (thin_target_limit * p.T <? r.Eout) = true →
        ∃ s1 s2, domega2de env p p.T t c w = .ok (s1, w') ∧ domega2de env p r.Eout t c w = .ok (s2, w') ∧
          r.sigma_E = r.dEdxo * Scalar.sqrt ((p.T - r.Eout) * 0.5 * (s1 + s2)) / p.A) ∧
      (c.scattering ≠ scattering_atima → (t.th <? r.range) = true →
        angular_straggling env p t c w = .ok (r.sigma_a, w'))) := by
  rcases calculate_steps h with ⟨hs, -, -⟩ | ⟨hs, w1, d, rs, ss, hst, h⟩
  · rw [show tooSlow p.T = _ from hT] at hs
    cases hs
  rcases h with ⟨h0, -⟩ | ⟨h0, hE, -, w2, w3, w4, sx, hcase, hsx, hsx', hcov, hsp⟩
  · rw [ht] at h0; cases h0
  have hag : get_data env p t c w1 = .ok (d, w1) := get_again hr hk hst.data p.T
  have hw2 : w2 = w1 := by
    rcases hcase with ⟨-, -, -, -, -, rfl⟩ | ⟨-, hth⟩
    · rfl
    · obtain ⟨as_, sa0, -, -, k1, k2⟩ := hth.strag
      cases hb : (!(c.scattering == scattering_atima)) && (t.th <? r.range)
      · exact (k2 hb).2
      · have := k1 hb
        unfold angular_straggling at this
        simp only [api_bind, api_pure] at this
        obtain ⟨a, w5, h5, -, rfl⟩ := this
        exact (angular_variance_again hst.data hag h5).1
  subst hw2
  obtain ⟨rfl, hsx0⟩ := angular_variance_again hst.data hag hsx
  obtain ⟨rfl, hcov0⟩ := angular_variance_again hst.data hag hcov
  obtain ⟨rfl, hsp0⟩ := nonreaction_rate_again hst.data hag hsp
  refine ⟨⟨sx, hsx0, hsx'⟩, hcov0, hsp0, fun hlow => ?_⟩
  rcases hcase with ⟨hno, -⟩ | ⟨-, hth⟩
  · rw [hlow] at hno; cases hno
  obtain ⟨dR, hdR, edR⟩ := hth.slope
  obtain ⟨as_, sa0, has, hsg, k1, k2⟩ := hth.strag
  refine ⟨?_, ?_, ?_, ?_⟩
  · unfold dedx_from_range
    simp only [api_bind, api_pureM, ok_bind]
    exact ⟨d, _, get_again hr hk hst.data _, ⟨rs, hst.rspline, dR, hdR, by rw [edR]; rfl⟩, rfl⟩
  · intro hno
    have hno' : (env.thin && (thin_target_limit * p.T <? r.Eout)) = false := by
      rcases hno with h | h <;> simp [h]
    unfold stragglings at hsg
    rw [hno', if_neg (by simp)] at hsg
    simp only [ok_bind] at hsg
    obtain ⟨a, ha, b, hb, hsg⟩ := hsg
    have hsE : r.sigma_E = r.dEdxo * Scalar.sqrt (a - b) / p.A := by
      rw [ok_ite] at hsg
      rcases hsg with ⟨-, hsg⟩ | ⟨-, hsg⟩
      · simp only [ok_bind, ok_pure] at hsg
        obtain ⟨_, -, _, -, e⟩ := hsg
        exact (congrArg Prod.fst e).symm
      · rw [ok_pure] at hsg
        exact (congrArg Prod.fst hsg).symm
    unfold energy_straggling_from_E
    simp only [api_bind, api_pureM, ok_bind]
    exact ⟨d, _, hst.data, ⟨rs, hst.rspline, ss, hst.sspline, dR, hdR, a, ha, b, hb, by
      rw [hsE, edR]; rfl⟩, rfl⟩
  · intro h1 h2
    unfold stragglings at hsg
    rw [if_pos (by simp [h1, h2])] at hsg
    simp only [ok_bind] at hsg
    obtain ⟨a, ha, b, hb, hsg⟩ := hsg
    have hsE : r.sigma_E = r.dEdxo * Scalar.sqrt ((p.T - r.Eout) * 0.5 * (a + b)) / p.A := by
      rw [ok_ite] at hsg
      rcases hsg with ⟨-, hsg⟩ | ⟨-, hsg⟩
      · simp only [ok_bind, ok_pure] at hsg
        obtain ⟨_, -, _, -, e⟩ := hsg
        exact (congrArg Prod.fst e).symm
      · rw [ok_pure] at hsg
        exact (congrArg Prod.fst hsg).symm
    refine ⟨a, b, ?_, ?_, hsE⟩
    · unfold domega2de
      simp only [api_bind, api_pureM, ok_bind]
      exact ⟨d, _, hst.data, ⟨ss, hst.sspline, ha⟩, rfl⟩
    · unfold domega2de
      simp only [api_bind, api_pureM, ok_bind]
      exact ⟨d, _, hst.data, ⟨ss, hst.sspline, hb⟩, rfl⟩
  · intro hsc hlt
    have hb : ((!(c.scattering == scattering_atima)) && (t.th <? r.range)) = true := by
      rw [hlt, Bool.and_true, Bool.not_eq_true', beq_eq_false_iff_ne]
      exact hsc
    have := k1 hb
    unfold angular_straggling at this ⊢
    simp only [api_bind, api_pure] at this ⊢
    obtain ⟨a, w5, h5, e, -⟩ := this
    exact ⟨a, _, (angular_variance_again hst.data hag h5).2, e, rfl⟩

/-! ## C57 -/

/-- C57, what holds: the time of flight is the one for the *default* configuration of the moment, so
it is the one for `c` when `c` is the default configuration.  All other fields are given by `c`
(`calculate_agrees`, `calculate_agrees_out`). -/
theorem calculate_tof_partial (env : Env ℝ) (p : Projectile ℝ) (t : Material ℝ) (c : Config ℝ)
    (w w' : World ℝ) (r : Result ℝ) (hr : ReachableW env w) (hT : 1e-3 ≤ p.T) (ht : t.th ≠ 0)
    (h : calculate env p t c w = .ok (r, w')) (hE : 1e-3 ≤ r.Eout) :
    calculate_tof_from_E env p r.Eout t w.default_config = .ok r.tof ∧
    (w.default_config = c → calculate_tof_from_E env p r.Eout t c = .ok r.tof) := by
  rw [and_iff_left_of_imp]
  · rcases calculate_steps h with ⟨hs, -, -⟩ | ⟨hs, w1, d, rs, ss, hst, h⟩
    · exfalso
      simp only [tooSlow, Bool.and_eq_true, lt_real, Ezero] at hs
      have := hs.1
      norm_num at this hT
      linarith
    rcases h with ⟨h0, -⟩ | ⟨h0, -, -, w2, w3, w4, sx, hcase, -⟩
    · exfalso
      rw [beq_real] at h0
      norm_num at h0
      exact ht h0
    rcases hcase with ⟨hlow, -⟩ | ⟨-, hth⟩
    · exfalso
      rw [lt_real] at hlow
      unfold Ezero at hlow
      norm_num at hlow hE
      linarith
    obtain ⟨as_, sa0, -, -, k1, k2⟩ := hth.strag
    have hag : get_data env p t c w1 = .ok (d, w1) := get_again hr (key_refl_real _) hst.data p.T
    have hw2 : w2 = w1 := by
      cases hb : (!(c.scattering == scattering_atima)) && (t.th <? r.range)
      · exact (k2 hb).2
      · have := k1 hb
        unfold angular_straggling at this
        simp only [api_bind, api_pure] at this
        obtain ⟨a, w5, h5, -, rfl⟩ := this
        exact (angular_variance_again hst.data hag h5).1
    rw [← (get_data_config hst.data).1, ← hw2]
    exact hth.flight
  · intro h1 h2
    rw [← h2]; exact h1

end Catima
