import Verif.Lemmas.ProtonHydrogen
import Verif.Props.EnergyOutStops
import Verif.Props.PositiveRanges

/-!
# C119: no layer takes more than the kinetic energy

The first estimate of the search in `energy_out` is returned when its range fits, and below the table the range is continued by a
straight line.  A particle that leaves a layer with less than 1e-5 g/cm2 of range left may get a negative energy: this happens to
protons in hydrogen.  It does not happen to particles with more range left.
-/

namespace Catima

theorem proton_hydrogen_nonDefault (T th : ℝ) : NonDefault (slowProton T) (hydrogenGas th) .default := by
  simp only [NonDefault, Key.eq, Key.default, Projectile.eq, Projectile.default, slowProton]
  simp
  intro h
  norm_num at h

/-- C119 is false: after any history there are protons of 23 to 25 keV and layers of hydrogen, thinner than the range, for which
`energy_out` returns an energy below -0.4 keV. -/
theorem energy_out_negative_wrong (env : Env ℝ) (hdbg : env.debug = false) (hj : SmallJunk env.junk) (w : World ℝ) (hr : ReachableW env w) :
    ∃ T th R E w1 w2, 0.023 ≤ T ∧ T ≤ 0.025 ∧ 0 < th ∧
      range env (slowProton T) (hydrogenGas th) .default w = .ok (R, w1) ∧ th < R ∧
      energy_out env (slowProton T) (hydrogenGas th) .default w = .ok (E, w2) ∧ E ≤ -4e-4 := by
  have h := (proton_hydrogen_in 0 0).computable
  obtain ⟨d, s, hd, hs, hview⟩ := range_view env (slowProton 0) 1 (hydrogenGas 0) .default h (proton_hydrogen_nonDefault 0 0)
  obtain ⟨s', hs', T, th, R, E, t1, t2, t3, hR, hlt, hneg, hE⟩ := hydrogen_negative env hj d hd env.debug
  unfold newSpline at hs
  rw [hs] at hs'
  cases hs'
  obtain ⟨w', R', E', h1, h2⟩ := energy_out_succeeds env hdbg w hr (slowProton T) 1 (hydrogenGas th) .default
    (proton_hydrogen_in T th).computable (proton_hydrogen_nonDefault T th)
  obtain ⟨v1, v2⟩ := hview w hr T th
  have e1 := v1 R' w' h1
  have e2 := v2 E' w' h2
  rw [hR] at e1
  rw [hE] at e2
  cases e1
  cases e2
  exact ⟨T, th, R, E, w', w', t1, t2, t3, h1, hlt, h2, hneg⟩

/-- C119 is false for `calculate` as well: with the default options a layer of hydrogen takes more energy from a proton than the
proton has. -/
theorem energy_loss_exceeds_wrong (env : Env ℝ) (hdbg : env.debug = false) (hj : SmallJunk env.junk) (w : World ℝ) (hr : ReachableW env w)
    (hw : w.default_config = .default) :
    ∃ T th r w', 0.023 ≤ T ∧ T ≤ 0.025 ∧ 0 < th ∧ calculate env (slowProton T) (hydrogenGas th) .default w = .ok (r, w') ∧
      r.Eout ≤ -4e-4 ∧ 1.00794 * T + 4e-4 ≤ r.Eloss := by
  obtain ⟨T, th, R, E, w1, w2, t1, t2, t3, -, -, hE, hneg⟩ := energy_out_negative_wrong env hdbg hj w hr
  have top : (9.95e6 : ℝ) ≤ (ls_energy_table : EnergyTable ℝ).val 199 - 10 * 2⁻¹ ^ 52 := by
    rw [ls_top]
    have := (abs_le.mp energy_table_range.2.2).1
    norm_num at this ⊢
    linarith
  have hc := (proton_hydrogen_in T th).computable
  obtain ⟨r, w', hres⟩ := calculate_succeeds env hdbg w hr (slowProton T) 1 (hydrogenGas th) .default hc (by rw [hw]; exact hc)
    (proton_hydrogen_nonDefault T th) (fun _ a ha => by simp [hydrogenGas] at ha; rw [ha]; norm_num) (by show T < _; norm_num at t2 top ⊢; linarith) (fun E' w' hE' => by
      rw [hE] at hE'
      cases hE'
      norm_num at hneg top ⊢
      linarith)
  obtain ⟨b1, b2, b3⟩ := calculate_balance env _ _ _ w w' r hres
  obtain ⟨w3, hE3⟩ := b3 (by show _ ≤ T; norm_num at t1 ⊢; linarith) t3.ne'
  rw [hE] at hE3
  have hEo : E = r.Eout := congrArg Prod.fst (Except.ok.inj hE3)
  have hEi := b2 (by show _ ≤ T; norm_num at t1 ⊢; linarith)
  refine ⟨T, th, r, w', t1, t2, t3, hres, by rw [← hEo]; exact hneg, ?_⟩
  rw [b1, hEi, ← hEo]
  show _ ≤ (T - E) * 1.00794
  norm_num at hneg ⊢
  linarith

/-- C119, the part that holds: a particle whose range exceeds the thickness by 1e-5 g/cm2 or more (the tolerance of the search) is
either not found (the results 0 and -1) or has an energy of at least 1e-3 MeV/u behind the layer, after any history.  Missing:
particles with less range left, see `energy_out_negative_wrong`. -/
theorem energy_behind_partial (env : Env ℝ) (hj : SmallJunk env.junk) (w w' w1 : World ℝ) (hr : ReachableW env w) (p : Projectile ℝ)
    (n : Int) (t : Material ℝ) (c : Config ℝ) (h : UsualIon p n t c) (hk : NonDefault p t c) (E R : ℝ)
    (hR : range env p t c w = .ok (R, w1)) (hth : t.th + 1e-5 ≤ R) (hE : energy_out env p t c w = .ok (E, w')) :
    E = 0 ∨ E = -1 ∨ 1e-3 - 1e-12 < E := by
  obtain ⟨s, h0, ht, -, hi, hv⟩ := usual_interpolator env hj p n t c h hk
  have hr' : ReachableW env w' := reachableW_call hr (.energy_out p t c) (r := .num E) (by
    show (do let r ← energy_out env p t c; pure (Response.num r) : Api ℝ _) w = _
    rw [api_bind]
    exact ⟨E, w', hE, rfl⟩)
  rcases energy_out_certified_real env w w' hr p t c E hE with h1 | h1 | ⟨RT, RE, h1, h2, h3⟩
  · exact .inl h1
  · exact .inr (.inl h1)
  · refine .inr (.inr ?_)
    by_contra hlow
    push Not at hlow
    obtain ⟨v, w2, hv2, hneg⟩ := range_negative env hj w' hr' (p.withT E) n t c (h.withT E) hk hlow
    rw [h2] at hv2
    cases hv2
    -- the range does not depend on the history
    obtain ⟨d1, w3, g1, g2⟩ := hv w hr p.T
    obtain ⟨d2, w4, g3, g4⟩ := hv w' hr' p.T
    obtain ⟨v, hvv⟩ := ht p.T
    have e1 := range_at (p := p) g1 g2 hvv
    have e2 := range_at (p := p) g3 g4 hvv
    rw [hR] at e1
    rw [h1] at e2
    cases e1
    cases e2
    have := (abs_lt.mp h3).2
    linarith

/-- Protons of 23 to 25 keV in sheets of lead meet the hypotheses. -/
example (env : Env ℝ) (hdbg : env.debug = false) (hj : SmallJunk env.junk) (w : World ℝ) (hr : ReachableW env w) :
    ∃ T th R E w1 w2, UsualIon (slowProton T) 1 (leadSheet th) config95 ∧ 1e-4 ≤ th ∧
      range env (slowProton T) (leadSheet th) config95 w = .ok (R, w1) ∧ (leadSheet th).th + 1e-5 ≤ R ∧
      energy_out env (slowProton T) (leadSheet th) config95 w = .ok (E, w2) ∧ (E = 0 ∨ E = -1 ∨ 1e-3 - 1e-12 < E) := by
  obtain ⟨T, th, R, w1, w2, t1, t2, t3, hR, hlt, hE⟩ := energy_out_stops_wrong env hdbg hj w hr
  have hu : UsualIon (slowProton T) 1 (leadSheet th) config95 := .inl ⟨rfl, proton_lead_hydrogen T th⟩
  have hlt' : (leadSheet th).th + 1e-5 ≤ R := by show th + _ ≤ R; norm_num at hlt ⊢; linarith
  exact ⟨T, th, R, 0, w1, w2, hu, t3, hR, hlt', hE,
    energy_behind_partial env hj w w2 w1 hr _ 1 _ _ hu (proton_lead_nonDefault T th) 0 R hR hlt' hE⟩

/-- C119, the part that holds, for `calculate`: such a particle loses at most its kinetic energy, unless the search does not
converge (the result -1). -/
theorem energy_loss_partial (env : Env ℝ) (hj : SmallJunk env.junk) (w w' w1 : World ℝ) (hr : ReachableW env w) (p : Projectile ℝ)
    (n : Int) (t : Material ℝ) (c : Config ℝ) (h : UsualIon p n t c) (hk : NonDefault p t c) (r : Result ℝ) (R : ℝ)
    (hT : 1e-3 ≤ p.T) (hR : range env p t c w = .ok (R, w1)) (hth0 : t.th ≠ 0) (hth : t.th + 1e-5 ≤ R ∨ R ≤ t.th)
    (hc : calculate env p t c w = .ok (r, w')) : r.Eout = -1 ∨ 0 ≤ r.Eout ∧ r.Eloss ≤ p.A * p.T := by
  obtain ⟨b1, b2, b3⟩ := calculate_balance env p t c w w' r hc
  obtain ⟨w2, hE⟩ := b3 hT hth0
  have hA := h.computable.ion.A
  have fin : 0 ≤ r.Eout → r.Eloss ≤ p.A * p.T := fun h0 => by
    rw [b1, b2 hT]
    nlinarith
  rcases hth with hth | hth
  · rcases energy_behind_partial env hj w w2 w1 hr p n t c h hk _ R hR hth hE with h0 | h0 | h0
    · exact .inr ⟨h0.ge, fin h0.ge⟩
    · exact .inl h0
    · have : 0 ≤ r.Eout := by norm_num at h0; linarith
      exact .inr ⟨this, fin this⟩
  · have h0 := (energy_out_stops env w w2 w1 p t c r.Eout R hE hR).1 hth
    exact .inr ⟨h0.ge, fin h0.ge⟩

/-- The same protons meet the hypotheses. -/
example (env : Env ℝ) (hdbg : env.debug = false) (hj : SmallJunk env.junk) (w : World ℝ) (hr : ReachableW env w)
    (hw : w.default_config = .default) : ∃ T th r w', 0.023 ≤ T ∧ 1e-4 ≤ th ∧
      calculate env (slowProton T) (leadSheet th) config95 w = .ok (r, w') ∧ (r.Eout = -1 ∨ 0 ≤ r.Eout ∧ r.Eloss ≤ 1.00794 * T) := by
  obtain ⟨T, th, R, w1, w2, t1, t2, t3, hR, hlt, hE⟩ := energy_out_stops_wrong env hdbg hj w hr
  have hu : UsualIon (slowProton T) 1 (leadSheet th) config95 := .inl ⟨rfl, proton_lead_hydrogen T th⟩
  have top : (9.95e6 : ℝ) ≤ (ls_energy_table : EnergyTable ℝ).val 199 - 10 * 2⁻¹ ^ 52 := by
    rw [ls_top]
    have := (abs_le.mp energy_table_range.2.2).1
    norm_num at this ⊢
    linarith
  have hc := (proton_lead_hydrogen T th).computable
  have hc' : Computable (slowProton T) 1 (leadSheet th) w.default_config := by
    rw [hw]
    exact ⟨hc.ion, hc.small, hc.sound, hc.known, Or.inl rfl⟩
  obtain ⟨r, w', hres⟩ := calculate_succeeds env hdbg w hr (slowProton T) 1 (leadSheet th) config95 hc hc'
    (proton_lead_nonDefault T th) (fun _ a ha => by simp [leadSheet] at ha; rw [ha]; norm_num)
    (by show T < _; norm_num at t2 top ⊢; linarith) (fun E' w' hE' => by
      rw [hE] at hE'
      cases hE'
      norm_num at top ⊢
      linarith)
  have t4 : th ≠ 0 := by norm_num at t3; linarith
  exact ⟨T, th, r, w', t1, t3, hres, energy_loss_partial env hj w w' w1 hr _ 1 _ _ hu (proton_lead_nonDefault T th) r R
    (by show _ ≤ T; norm_num at t1 ⊢; linarith) hR t4 (.inl (by show th + _ ≤ R; norm_num at hlt ⊢; linarith)) hres⟩

end Catima
