import Verif.Lemmas.ProtonLead
import Verif.Lemmas.NewtonConverge
import Verif.Props.ThinLayer

/-!
# C112: a particle whose range exceeds the thickness of a layer leaves it

The search in `energy_out` returns 0 ("stopped") when an iterate falls below 1e-3 MeV/u, even if the energy behind the layer is
higher.  For protons in lead this happens.  Where the stopping powers at the iterates agree with the mean stopping power up to
the energy behind the layer, the search succeeds.
-/

namespace Catima

/-- C112 is false: after any history there are protons of 23 to 25 keV and sheets of lead with a range that exceeds the thickness
by twice the tolerance of the search, or more, for which `energy_out` returns 0. -/
theorem energy_out_stops_wrong (env : Env ℝ) (hdbg : env.debug = false) (hj : SmallJunk env.junk) (w : World ℝ) (hr : ReachableW env w) :
    ∃ T th R w1 w2, 0.023 ≤ T ∧ T ≤ 0.025 ∧ 1e-4 ≤ th ∧
      range env (slowProton T) (leadSheet th) config95 w = .ok (R, w1) ∧ th + 2e-5 ≤ R ∧
      energy_out env (slowProton T) (leadSheet th) config95 w = .ok (0, w2) := by
  have h := (proton_lead_hydrogen 0 0).computable
  obtain ⟨d, s, hd, hs, hview⟩ := range_view env (slowProton 0) 1 (leadSheet 0) config95 h (proton_lead_nonDefault 0 0)
  obtain ⟨s', hs', T, th, R, t1, t2, t3, hR, hlt, hE⟩ := lead_stops env hj d hd env.debug
  unfold newSpline at hs
  rw [hs] at hs'
  cases hs'
  obtain ⟨w', R', E', h1, h2⟩ := energy_out_succeeds env hdbg w hr (slowProton T) 1 (leadSheet th) config95
    (proton_lead_hydrogen T th).computable (proton_lead_nonDefault T th)
  obtain ⟨v1, v2⟩ := hview w hr T th
  have e1 := v1 R' w' h1
  have e2 := v2 E' w' h2
  rw [hR] at e1
  rw [hE] at e2
  cases e1
  cases e2
  exact ⟨T, th, R, w', w', t1, t2, t3, h1, hlt, h2⟩

/-- C112 (part): let `E` be an energy with a positive range that the particle of energy `T` has after a layer, by the ranges.  If
at `T` and at every energy `e` between `E - μ (T - E)` and `T` the stopping power `S` from the range table is between `1 - κ` and
`1 + μ` times the mean stopping power between `E` and `e`, then `energy_out` returns an energy with the range of `E` up to the
tolerance of 1e-5 g/cm2.  The bound on the thickness is a weak one: 6e24 g/cm2 for `κ = μ = 1/2`.

Missing: particles that are not found (`energy_out_stops_wrong`). -/
theorem energy_out_finds_partial (env : Env ℝ) (w : World ℝ) (hr : ReachableW env w) (p : Projectile ℝ) (n : Int) (t : Material ℝ)
    (c : Config ℝ) (h : Computable p n t c) (hk : NonDefault p t c) (R S : ℝ → ℝ) (T E κ μ : ℝ) (h0 : 0 ≤ μ) (h1 : μ ≤ κ) (h2 : κ < 1)
    (hET : E ≤ T) (hlow : 1e-3 ≤ E - μ * (T - E))
    (hR : ∀ e, E - μ * (T - E) ≤ e → e ≤ T → ∃ w', range env (p.withT e) t c w = .ok (R e, w'))
    (hS : ∀ e, E - μ * (T - E) ≤ e → e ≤ T → ∃ w', dedx_from_range env (p.withT e) t c w = .ok (S e, w') ∧ 0 < S e)
    (hm : ∀ e, E - μ * (T - E) ≤ e → e ≤ T → ∀ x, x = e ∨ x = T →
      ∃ k, 1 - κ ≤ k ∧ k ≤ 1 + μ ∧ S x * (R e - R E) = k * (p.A * (e - E)))
    (hE : 0 < R E) (hN : (1 + μ) * κ ^ 101 * (R T - R E) < (1 - κ) * 1e-5) :
    ∃ v w', energy_out env (p.withT T) (t.set_thickness (R T - R E)) c w = .ok (v, w') ∧
      E - μ * (T - E) ≤ v ∧ v ≤ T ∧ |R v - R E| < 1e-5 := by
  obtain ⟨d0, rs, -, hl, hrs, trs, hview⟩ := range_spline env p n t c h hk
  have hA := h.ion.A
  have pt : ∀ e, E - μ * (T - E) ≤ e → e ≤ T → rs.evaluate e = .ok (R e) ∧ rs.deriv e = .ok (p.A / S e) ∧ 0 < p.A / S e := by
    intro e a b
    obtain ⟨dp, wp, hg, hgs⟩ := hview w hr e t.th
    have hg : get_data env (p.withT e) t c w = .ok (dp, wp) := hg
    obtain ⟨w1, hR⟩ := hR e a b
    obtain ⟨w2, hS, hpos⟩ := hS e a b
    unfold range at hR
    simp only [api_bind, api_pureM, ok_bind] at hR
    unfold dedx_from_range at hS
    simp only [api_bind, api_pureM, ok_bind] at hS
    obtain ⟨d1, w1', e1, ⟨s1, e2, e3⟩, -⟩ := hR
    obtain ⟨d2, w2', f1, ⟨s2, f2, dd, f3, f4⟩, -⟩ := hS
    rw [hg] at e1 f1
    cases e1
    cases f1
    rw [hgs] at e2 f2
    cases e2
    cases f2
    have f4 : p.A / dd = S e := Except.ok.inj f4
    have hdd : dd ≠ 0 := by
      intro z
      rw [z, div_zero] at f4
      exact hpos.ne f4
    refine ⟨e3, ?_, by positivity⟩
    rw [show rs.deriv e = .ok dd from f3, ← f4]
    congr 1
    field_simp
  obtain ⟨dp, wp, hg, hgs⟩ := hview w hr T (R T - R E)
  have key : ∀ e, E - μ * (T - E) ≤ e → e ≤ T → ∀ x, x = e ∨ x = T →
      ∃ k, 1 - κ ≤ k ∧ k ≤ 1 + μ ∧ R e - R E = k * (p.A / S x) * (e - E) := by
    intro e a b x hx
    obtain ⟨k, k1, k2, hk⟩ := hm e a b x hx
    have sp : 0 < S x := by
      rcases hx with rfl | rfl
      · exact (hS x a b).choose_spec.2
      · exact (hS x (by nlinarith [mul_nonneg h0 (sub_nonneg.mpr hET)]) le_rfl).choose_spec.2
    refine ⟨k, k1, k2, ?_⟩
    have : S x ≠ 0 := sp.ne'
    field_simp
    linear_combination hk
  obtain ⟨v, hv, v1, v2, v3⟩ := energy_out_spline_converges env.debug rs R (fun e => p.A / S e) T E κ μ (R T - R E) h0 h1 h2 hET pt
    (fun e a b => key e a b e (.inl rfl)) (fun e a b => key e a b T (.inr rfl)) hlow rfl hE hN
  refine ⟨v, wp, ?_, v1, v2, v3⟩
  unfold energy_out
  simp only [api_bind, api_pureM, ok_bind]
  exact ⟨dp, wp, hg, ⟨rs, hgs, hv⟩, rfl⟩

/-- Protons in water: in every interval of the energy table above the first, each energy and some energy below it meet the
hypotheses with `κ = μ = 1/2`. -/
example (env : Env ℝ) (hj : SmallJunk env.junk) (w : World ℝ) (hr : ReachableW env w) (k : Nat) (hk1 : 1 ≤ k) (hk2 : k < 599) (T : ℝ)
    (hT1 : (energy_table : EnergyTable ℝ).val k < T) (hT2 : T < (energy_table : EnergyTable ℝ).val (k + 1) - 10 * 2⁻¹ ^ 52) :
    ∃ E RT RE v w', E < T ∧
      (∃ w', range env (⟨1.00794, 1, 1, T⟩ : Projectile ℝ) ⟨1, 1, 18.015, 0, [⟨1.00794, 1, 2⟩, ⟨15.9994, 8, 1⟩]⟩ .default w = .ok (RT, w')) ∧
      (∃ w', range env (⟨1.00794, 1, 1, E⟩ : Projectile ℝ) ⟨1, 1, 18.015, 0, [⟨1.00794, 1, 2⟩, ⟨15.9994, 8, 1⟩]⟩ .default w = .ok (RE, w')) ∧
      energy_out env (⟨1.00794, 1, 1, T⟩ : Projectile ℝ) ⟨1, RT - RE, 18.015, 0, [⟨1.00794, 1, 2⟩, ⟨15.9994, 8, 1⟩]⟩ .default w = .ok (v, w') ∧
      E - 1 / 2 * (T - E) ≤ v ∧ v ≤ T := by
  obtain ⟨d0, rs, h0, hl, hrs, trs, hview⟩ := range_spline env _ 1 _ _ proton_water_computable proton_water_nonDefault
  have tame := range_table_tame env _ 1 _ _ proton_water_computable (proton_stopping_steady env _ _ _ proton_water_hydrogen) d0 h0
  obtain ⟨s', hs', hpos, hinc⟩ := interpolant_increasing env.junk hj env.calcIndex d0.range tame
  unfold newSpline at hrs
  rw [hrs] at hs'
  cases hs'
  have hg := library_table_ordered env.calcIndex
  obtain ⟨s, hs, P, hP, hP0, -, -, -⟩ := spline_pieces env.junk _ _ hg d0.range hl
  obtain ⟨s', hs', f, hf, hd⟩ := spline_deriv env.junk _ _ hg d0.range hl
  rw [hrs] at hs hs'
  cases hs
  cases hs'
  have hk : k + 1 < (energy_table.grid env.calcIndex : Grid ℝ).n := by show k + 1 < 600; omega
  have hfP : ∀ v, (energy_table : EnergyTable ℝ).val k < v → v < (energy_table : EnergyTable ℝ).val (k + 1) - 10 * 2⁻¹ ^ 52 →
      f v = P.at (energy_table : EnergyTable ℝ).val k v ∧ rs.deriv v = .ok (P.slope (energy_table : EnergyTable ℝ).val k v) := by
    intro v hv1 hv2
    have e1 := hP k v hk hv1.le hv2
    rw [hf] at e1
    obtain ⟨d, hd1, hd2⟩ := hd v (.inr (.inr ⟨k, hk, hv1, hv2⟩))
    have hev : f =ᶠ[nhds v] P.at (energy_table : EnergyTable ℝ).val k := by
      filter_upwards [lt_mem_nhds hv1, gt_mem_nhds hv2] with x hx1 hx2
      have := hP k x hk hx1.le hx2
      rw [hf] at this
      exact Except.ok.inj this
    refine ⟨Except.ok.inj e1, ?_⟩
    rw [hd1]
    exact congrArg Except.ok ((hd2.congr_of_eventuallyEq hev.symm).unique (P.hasDerivAt _ k v))
  set F := P.at (energy_table : EnergyTable ℝ).val k with hFdef
  set G := P.slope (energy_table : EnergyTable ℝ).val k with hGdef
  have hFG : ∀ x, HasDerivAt F (G x) x := P.hasDerivAt _ k
  have hGc : Continuous G := by
    rw [hGdef]
    unfold Cubics.slope
    fun_prop
  have pos : ∀ v, (energy_table : EnergyTable ℝ).val k < v → v < (energy_table : EnergyTable ℝ).val (k + 1) - 10 * 2⁻¹ ^ 52 → 0 < G v := by
    intro v a b
    obtain ⟨d, hd1, hd2⟩ := hpos v
    rw [(hfP v a b).2] at hd1
    cases hd1
    exact hd2
  have hfT : 0 < f T := by
    have r0 := (range_slopes env _ 1 _ _ proton_water_computable d0 h0).2.1
    have e0 : f ((energy_table : EnergyTable ℝ).val 0) = 0 := by
      have gap := hg.gap 0 (by show 0 + 1 < 600; norm_num)
      have e1 := hP 0 ((energy_table.grid env.calcIndex : Grid ℝ).val 0) (by show 0 + 1 < 600; norm_num) le_rfl (by linarith)
      rw [hf, hP0 0 (by show 0 < 600; norm_num)] at e1
      have e1 : Except.ok (f ((energy_table : EnergyTable ℝ).val 0)) = Except.ok _ := e1
      rw [List.getElem?_eq_getElem (by omega)] at r0
      rw [Except.ok.inj e1, Option.some.inj r0]
    have step : (energy_table : EnergyTable ℝ).val 0 + 2e-13 ≤ T := by
      have q := gridRatio_sharp
      have hX := abs_le.mp energy_table_range.2.1
      have g1 := grid_geometric 0
      have g2 : (energy_table : EnergyTable ℝ).val 1 ≤ (energy_table : EnergyTable ℝ).val k :=
        (EnergyTable.val_le_iff _ energy_table_bounds.1 energy_table_bounds.2.1 1 k).mpr hk1
      norm_num at q hX g1 ⊢
      nlinarith
    have := hinc _ T _ _ (hf _) (hf T) (.inl step)
    rwa [e0] at this
  have hFT : 0 < F T := by rw [← (hfP T hT1 hT2).1]; exact hfT
  obtain ⟨E, hE1, hE2, hth, hI⟩ := slopes_agree F G hFG hGc T (T - (energy_table : EnergyTable ℝ).val k) (by linarith) (pos T hT1 hT2) hFT
  have ins : ∀ e, E - 1 / 2 * (T - E) ≤ e → e ≤ T → (energy_table : EnergyTable ℝ).val k < e ∧
      e < (energy_table : EnergyTable ℝ).val (k + 1) - 10 * 2⁻¹ ^ 52 := fun e a b => ⟨by linarith, by linarith⟩
  have hRe : ∀ e, E - 1 / 2 * (T - E) ≤ e → e ≤ T → ∃ w', range env (⟨1.00794, 1, 1, e⟩ : Projectile ℝ)
      ⟨1, 1, 18.015, 0, [⟨1.00794, 1, 2⟩, ⟨15.9994, 8, 1⟩]⟩ .default w = .ok (F e, w') := by
    intro e a b
    obtain ⟨dd, wd, hgd, hgr⟩ := hview w hr e 1
    refine ⟨wd, ?_⟩
    unfold range
    simp only [api_bind, api_pureM, ok_bind]
    refine ⟨dd, wd, hgd, ⟨rs, hgr, ?_⟩, rfl⟩
    rw [hf, (hfP e (ins e a b).1 (ins e a b).2).1]
  have hSe : ∀ e, E - 1 / 2 * (T - E) ≤ e → e ≤ T → ∃ w', dedx_from_range env (⟨1.00794, 1, 1, e⟩ : Projectile ℝ)
      ⟨1, 1, 18.015, 0, [⟨1.00794, 1, 2⟩, ⟨15.9994, 8, 1⟩]⟩ .default w = .ok (1.00794 / G e, w') ∧ 0 < 1.00794 / G e := by
    intro e a b
    obtain ⟨dd, wd, hgd, hgr⟩ := hview w hr e 1
    have gp := pos e (ins e a b).1 (ins e a b).2
    refine ⟨wd, ?_, by positivity⟩
    unfold dedx_from_range
    simp only [api_bind, api_pureM, ok_bind]
    exact ⟨dd, wd, hgd, ⟨rs, hgr, _, (hfP e (ins e a b).1 (ins e a b).2).2, rfl⟩, rfl⟩
  have low : (1e-3 : ℝ) ≤ E - 1 / 2 * (T - E) := by
    have hX := abs_le.mp energy_table_range.2.1
    have q := gridRatio_sharp
    have g1 := grid_geometric 0
    have g2 : (energy_table : EnergyTable ℝ).val 1 ≤ (energy_table : EnergyTable ℝ).val k :=
      (EnergyTable.val_le_iff _ energy_table_bounds.1 energy_table_bounds.2.1 1 k).mpr hk1
    norm_num at q hX g1 hE2 ⊢
    nlinarith
  obtain ⟨v, w', hv, v1, v2, -⟩ := energy_out_finds_partial env w hr _ 1 _ _ proton_water_computable proton_water_nonDefault F (fun e => 1.00794 / G e)
    T E (1 / 2) (1 / 2) (by norm_num) le_rfl (by norm_num) hE1.le low hRe hSe (fun e a b x hx => by
      obtain ⟨q, q1, q2, q3⟩ := (hI e a b).2.2 x hx
      refine ⟨q, by linarith, by linarith, ?_⟩
      have gx : G x ≠ 0 := by
        rcases hx with rfl | rfl
        · exact (pos x (ins x a b).1 (ins x a b).2).ne'
        · exact (pos x hT1 hT2).ne'
      show 1.00794 / G x * (F e - F E) = q * (1.00794 * (e - E))
      rw [q3]; field_simp)
    (hI E (by linarith) hE1.le).2.1 (by
      have : (F T - F E) * 2⁻¹ ^ 101 ≤ 1 * 2⁻¹ ^ 101 := mul_le_mul_of_nonneg_right hth (by positivity)
      norm_num at this ⊢
      linarith)
  exact ⟨E, F T, F E, v, w', hE1, hRe T (by linarith) le_rfl, hRe E (by linarith) hE1.le, hv, v1, v2⟩

end Catima
