import Verif.Props.LayerEnergies
import Verif.Props.StoppingPositive
import Verif.Props.Flight

/-!
# C114: ranges and the stopping powers taken from them are positive
-/

namespace Catima

theorem UsualIon.usual {p : Projectile ℝ} {n : Int} {m : Material ℝ} {c : Config ℝ} (h : UsualIon p n m c) : Usual p n m := by
  have hA := h.computable.ion.A
  rcases h with ⟨rfl, h⟩ | ⟨rfl, h⟩ | h
  · exact ⟨by have := h.light; linarith, h.excitation⟩
  · exact ⟨by have := h.light; linarith, h.excitation⟩
  · exact ⟨by have := h.light; linarith, h.excitation⟩

/-- The interpolator of the ranges, as every call finds it. -/
theorem usual_interpolator (env : Env ℝ) (hj : SmallJunk env.junk) (p : Projectile ℝ) (n : Int) (t : Material ℝ) (c : Config ℝ)
    (h : UsualIon p n t c) (hk : NonDefault p t c) :
    ∃ s : Spline ℝ, s.evaluate ((energy_table : EnergyTable ℝ).val 0) = .ok 0 ∧ (∀ x, ∃ v, s.evaluate x = .ok v) ∧ (∀ x, ∃ d, s.deriv x = .ok d ∧ 0 < d) ∧
      (∀ a b u v, s.evaluate a = .ok u → s.evaluate b = .ok v → (a + 2e-13 ≤ b ∨ env.calcIndex = false ∧ a < b ∧ b ≤ 9.9e6) → u < v) ∧
      ∀ (w : World ℝ), ReachableW env w → ∀ T, ∃ d w', get_data env (p.withT T) t c w = .ok (d, w') ∧ get_range_spline env d = .ok s := by
  obtain ⟨d, hd, hl, hz, -⟩ := range_table_strict env p n t c h.computable h.usual
  have tame := range_table_tame env p n t c h.computable (h.steady env) d hd
  obtain ⟨s, hs, hder, hinc⟩ := interpolant_increasing env.junk hj env.calcIndex d.range tame
  obtain ⟨s', hs', hkn⟩ := spline_knots env.junk _ _ (library_table_ordered env.calcIndex) d.range hl
  rw [hs] at hs'
  cases hs'
  obtain ⟨s'', hs'', htot⟩ := spline_total env.junk _ _ (library_table_ordered env.calcIndex) d.range hl
  rw [hs] at hs''
  cases hs''
  refine ⟨s, ?_, fun x => (htot x).1, hder, hinc, fun w hr T => ?_⟩
  · have h0 := hkn 0 (by show 0 < 600; norm_num)
    have e' : d.range[0]'(by omega) = 0 := by
      rw [List.getElem?_eq_getElem (by omega)] at hz
      exact Option.some.inj hz
    rw [e'] at h0
    exact h0
  · obtain ⟨d1, w1, d0, hd1, -, -, h0, e1, -, -, -, -⟩ := get_view env w hr (p.withT T) n t c (h.withT T).computable hk
    refine ⟨d1, w1, hd1, ?_⟩
    have e0 : d0.range = d.range := by
      have a := (data_point_parts _ _ _ _ _ h0).1
      have b := (data_point_parts _ _ _ _ _ hd).1
      have : cumulative 599 p.A energy_table (fdedx env p t c) = .ok d0.range := a
      rw [b] at this
      exact (Except.ok.inj this).symm
    rw [e1, e0]
    unfold newSpline
    exact hs

/-- C114: the stopping power that is taken from the slope of the range table is positive at every energy, after any history. -/
theorem derived_stopping_positive (env : Env ℝ) (hj : SmallJunk env.junk) (w : World ℝ) (hr : ReachableW env w) (p : Projectile ℝ)
    (n : Int) (t : Material ℝ) (c : Config ℝ) (h : UsualIon p n t c) (hk : NonDefault p t c) :
    ∃ v w', dedx_from_range env p t c w = .ok (v, w') ∧ 0 < v := by
  obtain ⟨s, -, -, hd, -, hv⟩ := usual_interpolator env hj p n t c h hk
  obtain ⟨d, w', h1, h2⟩ := hv w hr p.T
  obtain ⟨x, hx, hx0⟩ := hd p.T
  have hA := h.computable.ion.A
  refine ⟨p.A / x, w', ?_, by positivity⟩
  unfold dedx_from_range
  rw [api_bind]
  refine ⟨d, w', h1, ?_⟩
  rw [api_pureM]
  refine ⟨?_, rfl⟩
  rw [h2, bind_ok, hx, bind_ok]
  rfl

/-- The range is the value of the interpolator. -/
theorem range_at {env : Env ℝ} {w w' : World ℝ} {p : Projectile ℝ} {t : Material ℝ} {c : Config ℝ} {d : DataPoint ℝ} {s : Spline ℝ} {R : ℝ}
    (h1 : get_data env p t c w = .ok (d, w')) (h2 : get_range_spline env d = .ok s) (h3 : s.evaluate p.T = .ok R) :
    range env p t c w = .ok (R, w') := by
  unfold range
  rw [api_bind]
  refine ⟨d, w', h1, ?_⟩
  rw [api_pureM]
  refine ⟨?_, rfl⟩
  rw [h2, bind_ok, h3]

/-- C114, the part that holds: the range of an ion is positive above 1e-3 MeV/u, after any history.  Missing: energies below,
see `range_negative`. -/
theorem range_positive_partial (env : Env ℝ) (hj : SmallJunk env.junk) (w : World ℝ) (hr : ReachableW env w) (p : Projectile ℝ)
    (n : Int) (t : Material ℝ) (c : Config ℝ) (h : UsualIon p n t c) (hk : NonDefault p t c) (hT : 1e-3 + 1e-12 ≤ p.T) :
    ∃ R w', range env p t c w = .ok (R, w') ∧ 0 < R := by
  obtain ⟨s, h0, ht, -, hi, hv⟩ := usual_interpolator env hj p n t c h hk
  obtain ⟨d, w', h1, h2⟩ := hv w hr p.T
  obtain ⟨R, hR⟩ := ht p.T
  refine ⟨R, w', range_at h1 h2 hR, hi _ _ _ _ h0 hR (.inl ?_)⟩
  have := (abs_le.mp energy_table_range.2.1).2
  norm_num at this hT ⊢
  linarith

/-- C114, what fails: below 1e-3 MeV/u the range is negative, for every ion and material. -/
theorem range_negative (env : Env ℝ) (hj : SmallJunk env.junk) (w : World ℝ) (hr : ReachableW env w) (p : Projectile ℝ)
    (n : Int) (t : Material ℝ) (c : Config ℝ) (h : UsualIon p n t c) (hk : NonDefault p t c) (hT : p.T ≤ 1e-3 - 1e-12) :
    ∃ R w', range env p t c w = .ok (R, w') ∧ R < 0 := by
  obtain ⟨s, h0, ht, -, hi, hv⟩ := usual_interpolator env hj p n t c h hk
  obtain ⟨d, w', h1, h2⟩ := hv w hr p.T
  obtain ⟨R, hR⟩ := ht p.T
  refine ⟨R, w', range_at h1 h2 hR, hi _ _ _ _ hR h0 (.inl ?_)⟩
  have := (abs_le.mp energy_table_range.2.1).1
  norm_num at this hT ⊢
  linarith

/-- C114: what `calculate` reports.  The stopping powers in front of and behind the layer are positive, and so is the time of
flight when the ion lost energy. -/
theorem calculate_positive (env : Env ℝ) (hj : SmallJunk env.junk) (w w' : World ℝ) (hr : ReachableW env w) (p : Projectile ℝ)
    (n : Int) (t : Material ℝ) (c : Config ℝ) (h : UsualIon p n t c) (hdef : Computable p n t w.default_config) (hk : NonDefault p t c)
    (hrho : 0 < t.rho) (hT : Ezero ≤ p.T) (hT' : p.T ≤ 9.8e6) (r : Result ℝ) (hc : calculate env p t c w = .ok (r, w')) :
    0 < r.dEdxi ∧ (1e-3 + 1e-12 ≤ p.T → 0 < r.range) ∧
      (t.th ≠ 0 → Ezero ≤ r.Eout → 0 < r.dEdxo ∧ (r.Eout < p.T → 0 < r.tof)) := by
  obtain ⟨s, h0, ht, hd, hi, hv⟩ := usual_interpolator env hj p n t c h hk
  obtain ⟨d', w1', h1, h2⟩ := hv w hr p.T
  have h1 : get_data env p t c w = .ok (d', w1') := h1
  have hA := h.computable.ion.A
  rcases calculate_steps hc with ⟨hs, -⟩ | ⟨-, w1, d, rs, ss, st, hcase⟩
  · unfold tooSlow at hs
    rw [Bool.and_eq_true, lt_real] at hs
    exact absurd hs.1 (not_lt.mpr hT)
  have e1 := st.data
  rw [h1] at e1
  cases e1
  have e2 := st.rspline
  rw [h2] at e2
  cases e2
  refine ⟨?_, fun hT1 => ?_, fun hth hE => ?_⟩
  · obtain ⟨dR, a1, a2⟩ := st.dEdxi
    obtain ⟨x, hx, hx0⟩ := hd p.T
    rw [hx] at a1
    cases a1
    rw [a2]
    positivity
  · refine hi _ _ _ _ h0 st.range (.inl ?_)
    have := (abs_le.mp energy_table_range.2.1).2
    norm_num at this hT1 ⊢
    linarith
  · rcases hcase with ⟨hb, -⟩ | ⟨-, -, -, w2, w3, w4, sx, ⟨hb, -⟩ | ⟨-, th⟩, -⟩
    · rw [beq_real] at hb
      norm_num at hb
      exact absurd hb hth
    · rw [lt_real] at hb
      exact absurd hb (not_lt.mpr hE)
    · obtain ⟨dR, a1, a2⟩ := th.slope
      obtain ⟨x, hx, hx0⟩ := hd r.Eout
      rw [hx] at a1
      cases a1
      refine ⟨by rw [a2]; positivity, fun hlt => ?_⟩
      have hw1 := (get_data_config h1).1
      have hw2 : w2.default_config = w.default_config := by
        obtain ⟨_, _, -, -, b1, b2⟩ := th.strag
        rcases hb : ((!(c.scattering == scattering_atima)) && (t.th <? r.range)) with _ | _
        · rw [(b2 hb).2, hw1]
        · have b := b1 hb
          unfold angular_straggling at b
          rw [api_bind] at b
          obtain ⟨v, w5, b, b'⟩ := b
          rw [api_pure] at b'
          obtain ⟨-, rfl⟩ := b'
          unfold angular_variance at b
          simp only [api_bind, api_pureM] at b
          obtain ⟨a1, _, ⟨k1, rfl⟩, a2, _, ⟨k2, rfl⟩, a3, _, ⟨k3, rfl⟩, d', w3, h2, h3, rfl⟩ := b
          rw [(get_data_config h2).1, hw1]
      have hf := th.flight
      rw [hw2] at hf
      have hE0 : 0 ≤ r.Eout := le_trans (by norm_num [Ezero]) hE
      obtain ⟨f, hf', hf0⟩ := tof_nonneg env p t w.default_config r.Eout hA hrho hE0 hlt fun x hx1 hx2 =>
        stopping_positive_at env p n t _ hdef h.usual x (by linarith) (.inl (below_top x (by linarith)))
      rw [hf] at hf'
      cases hf'
      exact hf0

/-- Uranium ions in water: positive range at 1000 MeV/u, negative range at 0.5 keV/u. -/
example (env : Env ℝ) (hj : SmallJunk env.junk) (w : World ℝ) (hr : ReachableW env w) :
    (∃ R w', range env (⟨238, 92, 92, 1000⟩ : Projectile ℝ) ⟨1, 0.5, 18.015, 78, [⟨1.00794, 1, 2⟩, ⟨15.9994, 8, 1⟩]⟩ .default w = .ok (R, w') ∧ 0 < R) ∧
    ∃ R w', range env (⟨238, 92, 92, 0.0005⟩ : Projectile ℝ) ⟨1, 0.5, 18.015, 78, [⟨1.00794, 1, 2⟩, ⟨15.9994, 8, 1⟩]⟩ .default w = .ok (R, w') ∧ R < 0 := by
  have hk : ∀ T, NonDefault (⟨238, 92, 92, T⟩ : Projectile ℝ) (⟨1, 0.5, 18.015, 78, [⟨1.00794, 1, 2⟩, ⟨15.9994, 8, 1⟩]⟩ : Material ℝ) .default := by
    intro T
    simp only [NonDefault, Key.eq, Key.default, Projectile.eq, Projectile.default]
    simp
    intro h
    norm_num at h
  exact ⟨range_positive_partial env hj w hr _ 92 _ _ (.inr (.inr (uranium_water 1000))) (hk _) (by norm_num),
    range_negative env hj w hr _ 92 _ _ (.inr (.inr (uranium_water 0.0005))) (hk _) (by norm_num)⟩

/-- What `calculate` reports for uranium ions of 1000 MeV/u behind 5 mm of water. -/
example (env : Env ℝ) (hdbg : env.debug = false) (hj : SmallJunk env.junk) : ∃ r w',
    calculate env (⟨238, 92, 92, 1000⟩ : Projectile ℝ) ⟨1, 0.5, 18.015, 78, [⟨1.00794, 1, 2⟩, ⟨15.9994, 8, 1⟩]⟩ .default .init = .ok (r, w') ∧
    0 < r.dEdxi ∧ 0 < r.range := by
  have hk : NonDefault (⟨238, 92, 92, 1000⟩ : Projectile ℝ) (⟨1, 0.5, 18.015, 78, [⟨1.00794, 1, 2⟩, ⟨15.9994, 8, 1⟩]⟩ : Material ℝ) .default := by
    simp only [NonDefault, Key.eq, Key.default, Projectile.eq, Projectile.default]
    simp
    intro h
    norm_num at h
  obtain ⟨r, w', hc⟩ := ion_calculate_returns env hdbg hj .init ⟨[], rfl⟩ _ 92 _ _ (uranium_water 1000) (uranium_water_computable 1000) hk
    (fun _ => by simp; norm_num) (by norm_num) (by norm_num) (by norm_num)
  have := calculate_positive env hj .init w' ⟨[], rfl⟩ _ 92 _ _ (.inr (.inr (uranium_water 1000))) (uranium_water_computable 1000) hk
    (by norm_num) (by norm_num [Ezero]) (by norm_num) r hc
  exact ⟨r, w', hc, this.1, this.2.1 (by norm_num)⟩

end Catima
