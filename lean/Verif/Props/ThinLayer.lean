import Verif.Props.StoppingPositive
import Mathlib.Analysis.Calculus.Deriv.Inv

/-!
# Thin layers: the outgoing energy is the first Newton step

For every projectile and material with positive stopping power there are energies in each interval of
the energy table (except the first) at which `energy_out` is `T - th / (dR/dT)` for all sufficiently
small thicknesses.
-/

namespace Catima

/-- An energy at which thin layers behave as expected: the interpolated range is positive, its
derivative there is `d ≠ 0` and is what `derivative` returns. -/
structure Smooth (rs : Spline ℝ) (f : ℝ → ℝ) (T d : ℝ) : Prop where
  eval : ∀ v, rs.evaluate v = .ok (f v)
  pos : 0 < f T
  deriv : rs.deriv T = .ok d
  hasDeriv : HasDerivAt f d T
  ne : d ≠ 0

/-- A quadratic with three zeros vanishes. -/
theorem quadratic_zero (a b c x y z : ℝ) (hxy : x ≠ y) (hxz : x ≠ z) (hyz : y ≠ z)
    (hx : a * x ^ 2 + b * x + c = 0) (hy : a * y ^ 2 + b * y + c = 0) (hz : a * z ^ 2 + b * z + c = 0) :
    a = 0 ∧ b = 0 ∧ c = 0 := by
  have h1 : a * (x + y) + b = 0 := by
    have : (x - y) * (a * (x + y) + b) = 0 := by linear_combination hx - hy
    rcases mul_eq_zero.mp this with h | h
    · exact absurd (sub_eq_zero.mp h) hxy
    · exact h
  have h2 : a * (x + z) + b = 0 := by
    have : (x - z) * (a * (x + z) + b) = 0 := by linear_combination hx - hz
    rcases mul_eq_zero.mp this with h | h
    · exact absurd (sub_eq_zero.mp h) hxz
    · exact h
  have h3 : a = 0 := by
    have : (y - z) * a = 0 := by linear_combination h1 - h2
    rcases mul_eq_zero.mp this with h | h
    · exact absurd (sub_eq_zero.mp h) hyz
    · exact h
  subst h3
  have h4 : b = 0 := by linarith
  subst h4
  exact ⟨rfl, rfl, by linarith⟩

theorem Cubics.hasDerivAt (P : Cubics) (x : Nat → ℝ) (k : Nat) (v : ℝ) :
    HasDerivAt (P.at x k) (P.slope x k v) v := by
  have h : HasDerivAt (fun v => v - x k) 1 v := (hasDerivAt_id v).sub_const _
  have h2 := h.pow 2
  have h3 := h.pow 3
  have := (((h3.const_mul (P.a k)).add (h2.const_mul (P.b k))).add (h.const_mul (P.c k))).add_const (P.y k)
  unfold Cubics.at Cubics.slope
  refine HasDerivAt.congr_deriv (f := fun v => P.a k * (v - x k) ^ 3 + P.b k * (v - x k) ^ 2 +
    P.c k * (v - x k) + P.y k) this ?_
  norm_num
  ring

/-- Between two neighbouring grid points with increasing positive data there are smooth energies,
and with each of them the energies next to it. -/
theorem smooth_energy_near (jk : Junk ℝ) (g : Grid ℝ) (w : ℝ) (hg : g.Ordered w) (y : List ℝ)
    (hy : y.length = g.n) (k : Nat) (hk : k + 1 < g.n) (h0 : 0 < y[k]'(by omega))
    (h1 : y[k]'(by omega) < y[k + 1]'(by omega)) :
    ∃ s, Spline.new jk g y = .ok s ∧ ∃ f T, g.val k < T ∧ T < g.val (k + 1) - w ∧
      ∀ᶠ T' in nhds T, ∃ d, Smooth s f T' d := by
  obtain ⟨s, hs, P, hP, hP0, hP1, -, -⟩ := spline_pieces jk g w hg y hy
  obtain ⟨s', hs', f, hf, hd⟩ := spline_deriv jk g w hg y hy
  rw [hs] at hs'
  cases hs'
  refine ⟨s, hs, f, ?_⟩
  have hgap := hg.gap k hk
  -- positivity just above the grid point
  have hcont : ContinuousAt (P.at g.val k) (g.val k) := (P.hasDerivAt g.val k _).continuousAt
  have hpos : 0 < P.at g.val k (g.val k) := by rw [hP0 k (by omega)]; exact h0
  obtain ⟨η, hη, hη'⟩ := Metric.eventually_nhds_iff.mp (hcont.eventually (lt_mem_nhds hpos))
  set e := min η (g.val (k + 1) - w - g.val k) with he
  have he0 : 0 < e := lt_min hη (by linarith)
  have hslope : ∃ T, g.val k < T ∧ T < g.val k + e ∧ P.slope g.val k T ≠ 0 := by
    by_contra hcon
    push Not at hcon
    have q1 := hcon (g.val k + e / 4) (by linarith) (by linarith)
    have q2 := hcon (g.val k + e / 2) (by linarith) (by linarith)
    have q3 := hcon (g.val k + 3 * e / 4) (by linarith) (by linarith)
    unfold Cubics.slope at q1 q2 q3
    obtain ⟨a0, b0, c0⟩ := quadratic_zero (3 * P.a k) (2 * P.b k) (P.c k) (e / 4) (e / 2) (3 * e / 4)
      (by intro h; linarith) (by intro h; linarith) (by intro h; linarith)
      (by linear_combination q1) (by linear_combination q2) (by linear_combination q3)
    have e1 := hP0 k (by omega)
    have e2 := hP1 k hk
    unfold Cubics.at at e1 e2
    have a0' : P.a k = 0 := by linarith
    have b0' : P.b k = 0 := by linarith
    rw [a0', b0', c0] at e1 e2
    simp only [zero_mul, zero_add] at e1 e2
    rw [← e1, ← e2] at h1
    exact lt_irrefl _ h1
  obtain ⟨T, hT1, hT2, hne⟩ := hslope
  have hTw : T < g.val (k + 1) - w := by
    have := min_le_right η (g.val (k + 1) - w - g.val k)
    linarith
  have hfP : ∀ v, g.val k < v → v < g.val (k + 1) - w → f v = P.at g.val k v := by
    intro v hv1 hv2
    have := hP k v hk hv1.le hv2
    rw [hf] at this
    exact Except.ok.inj this
  have hsc : Continuous (P.slope g.val k) := by
    unfold Cubics.slope
    fun_prop
  refine ⟨T, hT1, hTw, ?_⟩
  filter_upwards [lt_mem_nhds hT1, gt_mem_nhds hTw, gt_mem_nhds hT2,
    hsc.continuousAt.eventually_ne hne] with T' hT1 hTw hT2 hne
  obtain ⟨d, hd1, hd2⟩ := hd T' (.inr (.inr ⟨k, hk, hT1, hTw⟩))
  have hev : f =ᶠ[nhds T'] P.at g.val k := by
    filter_upwards [lt_mem_nhds hT1, gt_mem_nhds hTw] with v hv1 hv2 using hfP v hv1 hv2
  have hdd : d = P.slope g.val k T' :=
    (hd2.congr_of_eventuallyEq hev.symm).unique (P.hasDerivAt g.val k T')
  refine ⟨d, hf, ?_, hd1, hd2, by rw [hdd]; exact hne⟩
  rw [hfP T' hT1 hTw]
  apply hη'
  rw [Real.dist_eq, abs_lt]
  have := min_le_left η (g.val (k + 1) - w - g.val k)
  exact ⟨by linarith, by linarith⟩

/-- At a smooth energy, `energy_out` for sufficiently thin layers is the first Newton step. -/
theorem thin_energy_out {rs : Spline ℝ} {f : ℝ → ℝ} {T d : ℝ} (h : Smooth rs f T d) :
    ∃ δ > 0, ∀ th, 0 ≤ th → th < δ → ∀ debug, energy_out_spline debug T th rs = .ok (T - th / d) := by
  have hc := h.hasDeriv.continuousAt
  obtain ⟨η, hη, hη'⟩ := Metric.continuousAt_iff.mp hc (1e-5 / 2) (by norm_num)
  refine ⟨min (min (η * |d|) (1e-5 / 2)) (f T), ?_, fun th h0 hth debug => ?_⟩
  · have := abs_pos.mpr h.ne
    have := h.pos
    refine lt_min (lt_min (by positivity) (by norm_num)) this
  · obtain ⟨h12, h3⟩ := lt_min_iff.mp hth
    obtain ⟨h1, h2⟩ := lt_min_iff.mp h12
    have e1 : (1.0 : ℝ) / d = 1 / d := by norm_num
    have e2 : T - th * (1.0 / d) = T - th / d := by rw [e1]; ring
    unfold energy_out_spline
    rw [h.eval, bind_ok, h.deriv, bind_ok]
    dsimp only
    rw [if_neg (by rw [le_real]; linarith), e2]
    unfold energyOutLoop
    rw [h.eval, bind_ok]
    have hclose : dist (f (T - th / d)) (f T) < 1e-5 / 2 := by
      apply hη'
      rw [Real.dist_eq]
      have : T - th / d - T = -(th / d) := by ring
      rw [this, abs_neg, abs_div, abs_of_nonneg h0, div_lt_iff₀ (abs_pos.mpr h.ne)]
      exact h1
    rw [Real.dist_eq, abs_lt] at hclose
    have hr : Scalar.lt (Scalar.fabs (f T - f (T - th / d) - th)) (Eout_th_epsilon : ℝ) = true := by
      rw [lt_real, fabs_real, abs_lt]
      unfold Eout_th_epsilon
      norm_num at hclose h2 ⊢
      constructor <;> linarith [hclose.1, hclose.2]
    rw [if_pos hr]
    rfl

/-- Each interval of the energy table above the first contains an energy at which the range
interpolator of the library is smooth, with one interpolator for all energies, thicknesses and
histories. -/
theorem smooth_range_near (env : Env ℝ) (p : Projectile ℝ) (n : Int) (t : Material ℝ) (c : Config ℝ)
    (h : Computable p n t c) (hu : Usual p n t) (hk : NonDefault p t c) (k : Nat) (hk1 : 1 ≤ k)
    (hk2 : k < 599) :
    ∃ rs f T, (energy_table : EnergyTable ℝ).val k < T ∧
      T < (energy_table : EnergyTable ℝ).val (k + 1) - 10 * 2⁻¹ ^ 52 ∧
      rs.Total ∧ (∀ᶠ T' in nhds T, ∃ d, Smooth rs f T' d) ∧
      ∀ w, ReachableW env w → ∀ T th, ∃ d w',
        get_data env (p.withT T) (t.set_thickness th) c w = .ok (d, w') ∧
        get_range_spline env d = .ok rs := by
  obtain ⟨d0, rs, h0, hl, hrs, trs, hview⟩ := range_spline env p n t c h hk
  obtain ⟨d0', h0', -, hz, hinc⟩ := range_table_strict env p n t c h hu
  rw [h0] at h0'
  cases h0'
  have hlt : ∀ i j (hi : i < 600) (hj : j < 600), i < j → d0.range[i] < d0.range[j] := by
    intro i j hi hj hij
    exact List.pairwise_iff_getElem.mp hinc i j (by omega) (by omega) hij
  have hz' : d0.range[0]'(by omega) = 0 := by
    rw [List.getElem?_eq_getElem (by omega)] at hz
    exact Option.some.inj hz
  have hpos : 0 < d0.range[k]'(by omega) := by
    have := hlt 0 k (by omega) (by omega) (by omega)
    rwa [hz'] at this
  obtain ⟨s, hs, f, T, hT1, hT2, hsm⟩ := smooth_energy_near env.junk _ _
    (library_table_ordered env.calcIndex) d0.range hl k (by
      show k + 1 < 600
      omega) hpos (hlt k (k + 1) (by omega) (by omega) (by omega))
  unfold newSpline at hrs
  rw [hrs] at hs
  cases hs
  exact ⟨rs, f, T, hT1, hT2, trs, hsm, hview⟩

/-- One such energy. -/
theorem smooth_range (env : Env ℝ) (p : Projectile ℝ) (n : Int) (t : Material ℝ) (c : Config ℝ)
    (h : Computable p n t c) (hu : Usual p n t) (hk : NonDefault p t c) (k : Nat) (hk1 : 1 ≤ k)
    (hk2 : k < 599) :
    ∃ rs f T d, (energy_table : EnergyTable ℝ).val k < T ∧
      T < (energy_table : EnergyTable ℝ).val (k + 1) - 10 * 2⁻¹ ^ 52 ∧
      rs.Total ∧ Smooth rs f T d ∧
      ∀ w, ReachableW env w → ∀ T th, ∃ d w',
        get_data env (p.withT T) (t.set_thickness th) c w = .ok (d, w') ∧
        get_range_spline env d = .ok rs := by
  obtain ⟨rs, f, T, hT1, hT2, trs, hsm, hview⟩ := smooth_range_near env p n t c h hu hk k hk1 hk2
  obtain ⟨d, hd⟩ := hsm.self_of_nhds
  exact ⟨rs, f, T, d, hT1, hT2, trs, hd, hview⟩

/-- C90: off the energies of the table (and a window of 2e-15 MeV/u below each) the energy loss in a thin
layer is the thickness times the stopping power that `dedx_from_range` returns, if the range there is
positive and the stopping power is not zero. -/
theorem thin_layer_loss (env : Env ℝ) (w : World ℝ) (hr : ReachableW env w) (p : Projectile ℝ) (n : Int)
    (t : Material ℝ) (c : Config ℝ) (h : Computable p n t c) (hk : NonDefault p t c) (k : Nat)
    (hk2 : k < 599) (hT1 : (energy_table : EnergyTable ℝ).val k < p.T)
    (hT2 : p.T < (energy_table : EnergyTable ℝ).val (k + 1) - 10 * 2⁻¹ ^ 52) (R s : ℝ) (w1 w2 : World ℝ)
    (hR : range env p t c w = .ok (R, w1)) (hR0 : 0 < R)
    (hs : dedx_from_range env p t c w = .ok (s, w2)) (hs0 : s ≠ 0) :
    ∃ δ > 0, ∀ th, 0 ≤ th → th < δ → ∃ w',
      energy_out env p (t.set_thickness th) c w = .ok (p.T - th * s / p.A, w') := by
  obtain ⟨d0, rs, h0, hl, hrs, trs, hview⟩ := range_spline env p n t c h hk
  obtain ⟨rs', hrs', f, hf, hd⟩ := spline_deriv env.junk _ _ (library_table_ordered env.calcIndex) d0.range hl
  unfold newSpline at hrs
  rw [hrs] at hrs'
  cases hrs'
  obtain ⟨d, hd1, hd2⟩ := hd p.T (.inr (.inr ⟨k, by show k + 1 < 600; omega, hT1, hT2⟩))
  obtain ⟨dp, wp, hg, hgs⟩ := hview w hr p.T t.th
  have hg' : get_data env p t c w = .ok (dp, wp) := hg
  have hRf : f p.T = R := by
    unfold range at hR
    simp only [api_bind, api_pureM, ok_bind] at hR
    obtain ⟨dp', wp', e1, ⟨rs2, e2, e3⟩, -⟩ := hR
    rw [hg'] at e1
    cases e1
    rw [hgs] at e2
    cases e2
    rw [hf] at e3
    exact Except.ok.inj e3
  have hsd : s = p.A / d := by
    unfold dedx_from_range at hs
    simp only [api_bind, api_pureM, ok_bind] at hs
    obtain ⟨dp', wp', e1, ⟨rs2, e2, d', e3, e4⟩, -⟩ := hs
    rw [hg'] at e1
    cases e1
    rw [hgs] at e2
    cases e2
    rw [hd1] at e3
    cases e3
    exact (Except.ok.inj e4).symm
  have hA : p.A ≠ 0 := h.ion.A.ne'
  have hdne : d ≠ 0 := by
    intro hd0
    rw [hd0, div_zero] at hsd
    exact hs0 hsd
  obtain ⟨δ, hδ, hout⟩ := thin_energy_out (⟨hf, by rw [hRf]; exact hR0, hd1, hd2, hdne⟩ : Smooth rs f p.T d)
  refine ⟨δ, hδ, fun th h1 h2 => ?_⟩
  obtain ⟨dd, wd, hgd, hgr⟩ := hview w hr p.T th
  refine ⟨wd, ?_⟩
  have e : p.T - th * s / p.A = p.T - th / d := by
    rw [hsd]
    field_simp
  rw [e]
  unfold energy_out
  simp only [api_bind, api_pureM, ok_bind]
  exact ⟨dd, wd, hgd, ⟨rs, hgr, hout th h1 h2 _⟩, rfl⟩

/-- Carbon in water, at an energy in each interval of the table but the first. -/
example (env : Env ℝ) (k : Nat) (hk1 : 1 ≤ k) (hk2 : k < 599) : ∃ T s w1,
    (energy_table : EnergyTable ℝ).val k < T ∧ T < (energy_table : EnergyTable ℝ).val (k + 1) ∧
    dedx_from_range env ⟨12, 6, 6, T⟩
      (⟨1, 1, 18.015, 0, [⟨1.00794, 1, 2⟩, ⟨15.9994, 8, 1⟩]⟩ : Material ℝ) .default .init = .ok (s, w1) ∧
    ∃ δ > 0, ∀ th, 0 ≤ th → th < δ → ∃ w', energy_out env ⟨12, 6, 6, T⟩
      (⟨1, th, 18.015, 0, [⟨1.00794, 1, 2⟩, ⟨15.9994, 8, 1⟩]⟩ : Material ℝ) .default .init =
      .ok (T - th * s / 12, w') := by
  obtain ⟨hc, hu⟩ := carbon_water_usual 6 100
  have hnd : ∀ T, NonDefault ⟨12, 6, 6, T⟩
      (⟨1, 1, 18.015, 0, [⟨1.00794, 1, 2⟩, ⟨15.9994, 8, 1⟩]⟩ : Material ℝ) .default := by
    intro T
    simp only [NonDefault, Key.eq, Key.default, Projectile.eq, Projectile.default]
    simp
    intro h
    norm_num at h
  obtain ⟨rs, f, T, d, hT1, hT2, -, hsm, hdata⟩ := smooth_range env _ 6 _ _ hc hu (hnd 100) k hk1 hk2
  obtain ⟨dd, wd, hg, hrs⟩ := hdata .init ⟨[], rfl⟩ T 1
  have hR : range env ⟨12, 6, 6, T⟩ (⟨1, 1, 18.015, 0, [⟨1.00794, 1, 2⟩, ⟨15.9994, 8, 1⟩]⟩ : Material ℝ)
      .default .init = .ok (f T, wd) := by
    unfold range
    simp only [api_bind, api_pureM, ok_bind]
    exact ⟨dd, wd, hg, ⟨rs, hrs, hsm.eval T⟩, rfl⟩
  have hs : dedx_from_range env ⟨12, 6, 6, T⟩
      (⟨1, 1, 18.015, 0, [⟨1.00794, 1, 2⟩, ⟨15.9994, 8, 1⟩]⟩ : Material ℝ) .default .init =
      .ok (12 / d, wd) := by
    unfold dedx_from_range
    simp only [api_bind, api_pureM, ok_bind]
    exact ⟨dd, wd, hg, ⟨rs, hrs, d, hsm.deriv, rfl⟩, rfl⟩
  exact ⟨T, 12 / d, wd, hT1, by norm_num at hT2; linarith, hs, thin_layer_loss env .init ⟨[], rfl⟩ _ 6 _ _
    (carbon_water_usual 6 T).1 (hnd T) k hk2 hT1 hT2 (f T) (12 / d) wd wd hR hsm.pos hs
    (div_ne_zero (by norm_num) hsm.ne)⟩

end Catima
