import Verif.Props.ScatterFactor
import Verif.Props.AngularReal
import Verif.Props.Witness

/-!
# C137, C138: the angular spread follows the scattering factor, the covariance does not
-/

namespace Catima

theorem cumulative_scale (n : Nat) (A s : ℝ) (tab : EnergyTable ℝ) (f g : ℝ → M ℝ) (r : Nat → ℝ)
    (h : ∀ k < n, integrator.integrate g (tab.val k) (tab.val (k + 1)) = .ok (r k))
    (h' : ∀ k < n, integrator.integrate f (tab.val k) (tab.val (k + 1)) = .ok (s * r k)) :
    ∃ l, cumulative n A tab g = .ok l ∧ l.length = n + 1 ∧ cumulative n A tab f = .ok (l.map (s * ·)) := by
  induction n with
  | zero => exact ⟨[0.0], rfl, rfl, by show Except.ok [(0.0 : ℝ)] = Except.ok [s * 0.0]; norm_num⟩
  | succ n ih =>
    obtain ⟨l, h1, hlen, h2⟩ := ih (fun k hk => h k (by omega)) (fun k hk => h' k (by omega))
    have hne : l ≠ [] := by intro hh; rw [hh] at hlen; simp at hlen
    refine ⟨l ++ [A * r n + l.getLastD 0.0], ?_, by simp [hlen], ?_⟩
    · unfold cumulative at h1 ⊢
      rw [List.range_succ, List.foldlM_append, h1]
      simp only [List.foldlM_cons, List.foldlM_nil, bind_ok, h n (by omega)]
      rfl
    · unfold cumulative at h2 ⊢
      rw [List.range_succ, List.foldlM_append, h2]
      simp only [List.foldlM_cons, List.foldlM_nil, bind_ok, h' n (by omega)]
      show Except.ok (l.map (s * ·) ++ [A * (s * r n) + (l.map (s * ·)).getLastD 0.0]) = _
      have e : (l.map (s * ·)).getLastD (0.0 : ℝ) = s * l.getLastD 0.0 := by
        rw [List.getLastD_eq_getLast?, List.getLastD_eq_getLast?, List.getLast?_map]
        obtain ⟨x, hx⟩ : ∃ x, l.getLast? = some x := ⟨_, List.getLast?_eq_getLast_of_ne_nil hne⟩
        rw [hx]
        rfl
      rw [e, List.map_append]
      congr 3
      simp only [List.map_cons, List.map_nil]
      congr 1
      ring

/-- The table of the angular variances is proportional to the scattering factor. -/
theorem angular_table_scale (env : Env ℝ) (p : Projectile ℝ) (n : Int) (t : Material ℝ) (c : Config ℝ) (h : Computable p n t c) :
    ∃ y : List ℝ, y.length = 600 ∧ ∀ f, cumulative 599 p.A energy_table (ftheta env p t (c.withFactor f)) = .ok (y.map (f * ·)) := by
  have hb := energy_table_bounds
  have main : ∀ k < 599, ∃ I, ∀ f, integrator.integrate (ftheta env p t (c.withFactor f)) ((energy_table : EnergyTable ℝ).val k)
      ((energy_table : EnergyTable ℝ).val (k + 1)) = .ok (f * I) := by
    intro k hk
    have hd : ∀ x, Inner ((energy_table : EnergyTable ℝ).val k) ((energy_table : EnergyTable ℝ).val (k + 1)) x →
        ∃ v, dedx env (p.withT x) t c = .ok v := fun x hx => by
      obtain ⟨-, -, -, -, h0, hr⟩ := inner_grid k hk x hx
      exact h.dedx env x h0 hr
    choose! D hD using hd
    set a := (energy_table : EnergyTable ℝ).val k
    set b := (energy_table : EnergyTable ℝ).val (k + 1)
    have hab : a ≤ b := (EnergyTable.val_le_iff _ hb.1 hb.2.1 k (k + 1)).mpr (by omega)
    refine ⟨(b - a) / 2 * wsum integrator.full fun x =>
      angular_scattering_power (p.withT ((b - a) / 2 * x + (b + a) / 2)) t (Es2_of c) / D ((b - a) / 2 * x + (b + a) / 2), fun f => ?_⟩
    rw [integrator.integrate_eq (integrator.shape (GLData.supported_shape _ integrator_supported)).1 _
      (fun x => f * (angular_scattering_power (p.withT x) t (Es2_of c) / D x)) a b fun e he => ?_]
    · rw [wsum_smul]
      refine congrArg Except.ok ?_
      ring
    · have hin := node_inner a b hab e he
      have e1 : dedx env (p.withT ((b - a) / 2 * e.1 + (b + a) / 2)) t (c.withFactor f)
          = .ok (D ((b - a) / 2 * e.1 + (b + a) / 2)) := hD _ hin
      unfold ftheta da2de
      rw [e1]
      show Except.ok (f * _ / _) = _
      rw [mul_div_assoc]
      rfl
  choose! I hI using main
  obtain ⟨y, hy, hlen, -⟩ := cumulative_scale 599 p.A 1 energy_table (ftheta env p t (c.withFactor 1)) (ftheta env p t (c.withFactor 1)) I
    (fun k hk => by rw [hI k hk 1, one_mul]) (fun k hk => hI k hk 1)
  refine ⟨y, hlen, fun f => ?_⟩
  obtain ⟨y', hy', -, hf⟩ := cumulative_scale 599 p.A f energy_table (ftheta env p t (c.withFactor f)) (ftheta env p t (c.withFactor 1)) I
    (fun k hk => by rw [hI k hk 1, one_mul]) (fun k hk => hI k hk f)
  rw [hy] at hy'
  obtain rfl := Except.ok.inj hy'
  exact hf

/-- In the open intervals of the energy table, away from their ends by the tolerance of the index. -/
def InCell (v : ℝ) : Prop :=
  ∃ k, k < 599 ∧ (energy_table : EnergyTable ℝ).val k < v ∧ v < (energy_table : EnergyTable ℝ).val (k + 1) - 10 * 2⁻¹ ^ 52

/-- So are the interpolator and its derivative. -/
theorem spline_scale (env : Env ℝ) (y : List ℝ) (hy : y.length = 600) :
    ∃ F D : ℝ → ℝ, ∀ f, ∃ s, newSpline env (y.map (f * ·)) = .ok s ∧ (∀ v, s.evaluate v = .ok (f * F v)) ∧
      ∀ v, InCell v → s.deriv v = .ok (f * D v) := by
  have hg := library_table_ordered env.calcIndex
  have hn : (energy_table.grid env.calcIndex : Grid ℝ).n = 600 := rfl
  obtain ⟨s1, hs1, F, hF, hd1⟩ := spline_deriv env.junk _ _ hg y (by rw [hy, hn])
  have hcell : ∀ v, InCell v → (v < (energy_table.grid env.calcIndex : Grid ℝ).val 0 ∨
      (energy_table.grid env.calcIndex : Grid ℝ).val ((energy_table.grid env.calcIndex : Grid ℝ).n - 1) < v ∨
      ∃ k, k + 1 < (energy_table.grid env.calcIndex : Grid ℝ).n ∧ (energy_table.grid env.calcIndex : Grid ℝ).val k < v ∧
        v < (energy_table.grid env.calcIndex : Grid ℝ).val (k + 1) - 10 * 2⁻¹ ^ 52) := by
    rintro v ⟨k, h1, h2, h3⟩
    exact .inr (.inr ⟨k, by rw [hn]; omega, h2, h3⟩)
  have hd : ∀ v, InCell v → ∃ d, HasDerivAt F d v := fun v hv => by
    obtain ⟨d, -, h⟩ := hd1 v (hcell v hv)
    exact ⟨d, h⟩
  choose! D hD using hd
  refine ⟨F, D, fun f => ?_⟩
  obtain ⟨sy, sz, s, e1, e2, e3, hs⟩ := spline_linear env.junk _ _ hg f 0 y y (by rw [hy, hn]) (by rw [hy, hn])
  have hz : List.zipWith (fun a b => f * a + 0 * b) y y = y.map (f * ·) := by
    rw [List.zipWith_self]
    refine List.map_congr_left fun a _ => ?_
    ring
  rw [hz] at e3
  have hev : ∀ v, s.evaluate v = .ok (f * F v) := by
    intro v
    obtain ⟨fy, fz, g1, g2, g3⟩ := hs v
    rw [hs1] at e1
    obtain rfl := Except.ok.inj e1
    rw [hF] at g1
    obtain rfl := Except.ok.inj g1
    rw [g3]
    congr 1
    ring
  refine ⟨s, e3, hev, fun v hv => ?_⟩
  obtain ⟨s', hs', G, hG, hd2⟩ := spline_deriv env.junk _ _ hg (y.map (f * ·)) (by rw [List.length_map, hy, hn])
  rw [e3] at hs'
  obtain rfl := Except.ok.inj hs'
  have hGF : G = fun v => f * F v := by
    funext v
    have := hG v
    rw [hev] at this
    exact (Except.ok.inj this).symm
  obtain ⟨d, h1, h2⟩ := hd2 v (hcell v hv)
  rw [h1]
  congr 1
  rw [hGF] at h2
  exact h2.unique ((hD v hv).const_mul f)

set_option maxRecDepth 8000 in
/-- A query to the empty cache is answered with the factor asked for. -/
theorem angular_view_init (env : Env ℝ) (p : Projectile ℝ) (n : Int) (t : Material ℝ) (c : Config ℝ) (h : Computable p n t c)
    (hk : NonDefault p t c) (y : List ℝ) (hy : cumulative 599 p.A energy_table (ftheta env p t c) = .ok y) :
    ∃ d w', get_data env p t c .init = .ok (d, w') ∧ get_angular_variance_spline env d = newSpline env y := by
  obtain ⟨d, d0, hd, hd0, -, -, ha⟩ := compute_defined env p n t c h
  have hmiss : ¬ (Storage.init : Storage ℝ).has ⟨p, t, c⟩ := by
    rintro ⟨e, he, hk'⟩
    rw [mem_init he] at hk'
    have : Key.default.eq ⟨p, t, c⟩ = true := hk'
    rw [hk] at this
    cases this
  have hget := getWith_miss_ok (k := ⟨p, t, c⟩) shape_init hmiss hd
  have hview := computeDP_view eqLaws_real env p t c
  rw [hd0, hd] at hview
  refine ⟨d, ⟨⟨(Storage.init : Storage ℝ).slots.set (Storage.init : Storage ℝ).pos d, (Storage.init : Storage ℝ).pos + 1⟩, .default, 1⟩, ?_, ?_⟩
  · unfold get_data
    show (do
      let (d, s) ← (Storage.init : Storage ℝ).getWith (Storage.computeDP env) p t c
      return (d, (⟨s, Config.default, 1⟩ : World ℝ))) = _
    rw [hget]
    rfl
  · rw [hview.2.2]
    have a := (data_point_parts _ _ _ _ _ hd0).2.1
    rw [hy] at a
    rw [Except.ok.inj a]

/-- C137, what holds: for the option `scattering_atima` the variance `sigma_a²` that `calculate` reports is proportional to the
scattering factor; after other calls the factor is the one asked for up to the tolerance of the cache. -/
theorem sigma_a_partial (env : Env ℝ) (p : Projectile ℝ) (n : Int) (t : Material ℝ) (c : Config ℝ) (h : Computable p n t c)
    (hk : ∀ f, NonDefault p t { c with scattering_factor := f }) (hsc : c.scattering = scattering_atima) (hT : 1e-3 ≤ p.T) (hth : t.th ≠ 0)
    (E : ℝ) (w0 : World ℝ) (hE : energy_out env p t c .init = .ok (E, w0)) (hE0 : 1e-3 ≤ E)
    (hcell : env.thin = false ∨ InCell p.T ∧ InCell E) :
    ∃ Q, ∀ f w, ReachableW env w → ∀ b u, calculate env p t { c with scattering_factor := f } w = .ok (b, u) →
      b.Eout = E ∧ ∃ f', |f' - f| ≤ 1e-3 ∧ (w = .init → f' = f) ∧ b.sigma_a = √(f' * Q) := by
  obtain ⟨y, hy, hcum⟩ := angular_table_scale env p n t c h
  obtain ⟨F, D, hFD⟩ := spline_scale env y hy
  have hk0 : NonDefault p t c := hk c.scattering_factor
  refine ⟨if (env.thin && (thin_target_limit * p.T <? E)) = true then (1 / 2) * (D p.T + D E) * (p.T - E) else F p.T - F E,
    fun f w hr b u hb => ?_⟩
  have hdat : ∃ d w' f', get_data env p t (c.withFactor f) w = .ok (d, w') ∧ |f' - f| ≤ 1e-3 ∧ (w = .init → f' = f) ∧
      get_angular_variance_spline env d = newSpline env (y.map (f' * ·)) := by
    by_cases hw : w = .init
    · subst hw
      obtain ⟨d, w', g1, g2⟩ := angular_view_init env p n t (c.withFactor f) (h.withFactor f) (hk f) _ (hcum f)
      exact ⟨d, w', f, g1, by norm_num, fun _ => rfl, g2⟩
    · obtain ⟨d, w', f', y', g1, g2, g3, g4⟩ := angular_view env w hr p n t (c.withFactor f) (h.withFactor f) (hk f)
      refine ⟨d, w', f', g1, g2, fun e => absurd e hw, ?_⟩
      have g3' : cumulative 599 p.A energy_table (ftheta env p t (c.withFactor f')) = .ok y' := g3
      rw [hcum f'] at g3'
      rw [g4, Except.ok.inj g3']
  obtain ⟨d', w1', f', h1, hf1, hf2, hsp⟩ := hdat
  obtain ⟨rs0, a1, a2⟩ := range_spline_factor env p n t c f h hk0 (hk f)
  have hEz : (Ezero : ℝ) = 1e-3 := by norm_num [Ezero]
  rcases calculate_steps hb with ⟨hs, -⟩ | ⟨-, w1, d, rs, ss, st, hcase⟩
  · unfold tooSlow at hs
    rw [Bool.and_eq_true, lt_real, hEz] at hs
    exact absurd hs.1 (not_lt.mpr hT)
  have e1 : get_data env p t (c.withFactor f) w = .ok (d, w1) := st.data
  have hrs : rs = rs0 := by
    obtain ⟨dx, wx, x1, x2⟩ := a2 w hr
    rw [e1] at x1
    obtain ⟨rfl, rfl⟩ := Prod.mk.inj (Except.ok.inj x1)
    have := st.rspline
    rw [x2] at this
    exact (Except.ok.inj this).symm
  rw [h1] at e1
  obtain ⟨rfl, rfl⟩ := Prod.mk.inj (Except.ok.inj e1)
  rcases hcase with ⟨hb0, -⟩ | ⟨-, hout, -, w2, w3, w4, sx, hthr, -⟩
  · rw [beq_real] at hb0
    norm_num at hb0
    exact absurd hb0 hth
  have hEE : b.Eout = E := by
    obtain ⟨dx, wx, x1, x2⟩ := a1 .init ⟨[], rfl⟩
    unfold energy_out at hE
    simp only [api_bind, api_pureM, ok_bind] at hE
    obtain ⟨dy, wy, y1, ⟨ry, y2, y3⟩, -⟩ := hE
    rw [x1] at y1
    obtain ⟨rfl, rfl⟩ := Prod.mk.inj (Except.ok.inj y1)
    rw [x2] at y2
    obtain rfl := Except.ok.inj y2
    rw [hrs, y3] at hout
    exact (Except.ok.inj hout).symm
  refine ⟨hEE, f', hf1, hf2, ?_⟩
  rcases hthr with ⟨hb0, -⟩ | ⟨-, th⟩
  · rw [lt_real, hEz, hEE] at hb0
    exact absurd hb0 (not_lt.mpr hE0)
  obtain ⟨as_, sa0, b1, b2, -, b3⟩ := th.strag
  have ht : (({ c with scattering_factor := f } : Config ℝ).scattering == scattering_atima) = true := by
    show (c.scattering == scattering_atima) = true
    rw [hsc]; rfl
  rw [ht] at b2 b3
  rw [(b3 rfl).1]
  obtain ⟨s, hs, hev, hder⟩ := hFD f'
  rw [hsp, hs] at b1
  obtain rfl := Except.ok.inj b1
  rw [hEE] at b2
  unfold stragglings at b2
  split at b2
  · rename_i hthin
    rw [if_pos hthin]
    have hc2 : InCell p.T ∧ InCell E := by
      rcases hcell with hc | hc
      · rw [hc] at hthin; cases hthin
      · exact hc
    rw [ok_bind] at b2
    obtain ⟨x1, -, b2⟩ := b2
    rw [ok_bind] at b2
    obtain ⟨x2, -, b2⟩ := b2
    rw [if_pos rfl, ok_bind] at b2
    obtain ⟨x3, c3, b2⟩ := b2
    rw [ok_bind] at b2
    obtain ⟨x4, c4, b2⟩ := b2
    rw [hder _ hc2.1] at c3
    rw [hder _ hc2.2] at c4
    obtain rfl := Except.ok.inj c3
    obtain rfl := Except.ok.inj c4
    have b2 := (Prod.mk.inj (Except.ok.inj b2)).2
    rw [← b2, sqrt_real]
    congr 1
    norm_num
    ring
  · rename_i hthin
    rw [if_neg hthin]
    rw [ok_bind] at b2
    obtain ⟨x1, -, b2⟩ := b2
    rw [ok_bind] at b2
    obtain ⟨x2, -, b2⟩ := b2
    rw [if_pos rfl, ok_bind] at b2
    obtain ⟨x3, c3, b2⟩ := b2
    rw [ok_bind] at b2
    obtain ⟨x4, c4, b2⟩ := b2
    rw [hev] at c3 c4
    obtain rfl := Except.ok.inj c3
    obtain rfl := Except.ok.inj c4
    have b2 := (Prod.mk.inj (Except.ok.inj b2)).2
    rw [← b2, sqrt_real]
    congr 1
    ring

/-- The energy behind a layer does not depend on the scattering factor. -/
theorem energy_out_factor (env : Env ℝ) (p : Projectile ℝ) (n : Int) (t : Material ℝ) (c : Config ℝ) (f : ℝ)
    (h : Computable p n t c) (hk : NonDefault p t c) (hk' : NonDefault p t { c with scattering_factor := f })
    (w1 w2 u1 u2 : World ℝ) (r1 : ReachableW env w1) (r2 : ReachableW env w2) (E E' : ℝ) (hE : energy_out env p t c w1 = .ok (E, u1))
    (hE' : energy_out env p t { c with scattering_factor := f } w2 = .ok (E', u2)) : E' = E := by
  obtain ⟨rs, a1, a2⟩ := range_spline_factor env p n t c f h hk hk'
  obtain ⟨d1, x1, g1, s1⟩ := a1 w1 r1
  obtain ⟨d2, x2, g2, s2⟩ := a2 w2 r2
  unfold energy_out at hE hE'
  simp only [api_bind, api_pureM, ok_bind] at hE hE'
  obtain ⟨dy, wy, y1, ⟨ry, y2, y3⟩, -⟩ := hE
  obtain ⟨dz, wz, z1, ⟨rz, z2, z3⟩, -⟩ := hE'
  rw [g1] at y1
  obtain ⟨rfl, rfl⟩ := Prod.mk.inj (Except.ok.inj y1)
  rw [s1] at y2
  obtain rfl := Except.ok.inj y2
  have z1' : get_data env p t (c.withFactor f) w2 = .ok (dz, wz) := z1
  rw [g2] at z1'
  obtain ⟨rfl, rfl⟩ := Prod.mk.inj (Except.ok.inj z1')
  rw [s2] at z2
  obtain rfl := Except.ok.inj z2
  rw [y3] at z3
  exact (Except.ok.inj z3).symm

/-- C138, refuted: with the option `scattering_atima` (the default) and small scattering factors the spreads behind thin layers are
not those of any distribution: the square of the covariance exceeds the product of the variances. -/
theorem covariance_invalid_wrong (env : Env ℝ) (hdbg : env.debug = false) (hj : SmallJunk env.junk) (p : Projectile ℝ) (n : Int)
    (t : Material ℝ) (c : Config ℝ) (h : UsualIon p n t c) (hk : ∀ f, NonDefault p t { c with scattering_factor := f }) (hrho : 0 < t.rho)
    (hsc : c.scattering = scattering_atima) (hdef : Computable p n t Config.default) (k : Nat) (hk2 : k < 599)
    (hT0 : 1e-3 + 1e-12 ≤ p.T) (hTm : p.T ≤ 9.9e6) (hT1 : (energy_table : EnergyTable ℝ).val k < p.T) (hT2 : p.T < (energy_table : EnergyTable ℝ).val (k + 1) - 10 * 2⁻¹ ^ 52) :
    ∃ δ > 0, ∀ th, 0 < th → th < δ → ∃ f0 > 0, ∀ f, 0 ≤ f → f < f0 → ∃ b u,
      calculate env p (t.set_thickness th) { c with scattering_factor := f } .init = .ok (b, u) ∧
      b.sigma_x ^ 2 * b.sigma_a ^ 2 < b.cov ^ 2 := by
  have hc := h.computable
  have hk0 : NonDefault p t c := hk c.scattering_factor
  have hr : ReachableW env (.init : World ℝ) := ⟨[], rfl⟩
  have hA := hc.ion.A
  obtain ⟨δ1, hδ1, hmom⟩ := thin_layer_scatters env hdbg hj .init hr p n t c h hk0 hrho (by rw [hsc]; decide) (by rw [hsc]; decide) k hk2
    hT0 hT1 hT2
  obtain ⟨R, w1, hR, hR0⟩ := range_positive_partial env hj .init hr p n t c h hk0 hT0
  obtain ⟨s, w2, hs, hs0⟩ := derived_stopping_positive env hj .init hr p n t c h hk0
  obtain ⟨δ2, hδ2, hthin⟩ := thin_layer_loss env .init hr p n t c hc hk0 k hk2 hT1 hT2 R s w1 w2 hR hR0 hs hs0.ne'
  have g1 : 0 < (p.T - (energy_table : EnergyTable ℝ).val k) * p.A / s := div_pos (mul_pos (by linarith) hA) hs0
  have g2 : 0 < 1e-12 * p.A / s := by positivity
  refine ⟨min (min δ1 δ2) (min ((p.T - (energy_table : EnergyTable ℝ).val k) * p.A / s) (1e-12 * p.A / s)), by positivity,
    fun th h0 hlt => ?_⟩
  rw [lt_min_iff, lt_min_iff, lt_min_iff, lt_div_iff₀ hs0, lt_div_iff₀ hs0] at hlt
  obtain ⟨⟨l1, l2⟩, l3, l4⟩ := hlt
  obtain ⟨v1, x1, m1, p1⟩ := hmom th h0 l1 1 (.inr (.inl rfl))
  obtain ⟨v2, x2, m2, p2⟩ := hmom th h0 l1 2 (.inr (.inr rfl))
  obtain ⟨w3, hE⟩ := hthin th h0.le l2
  have k1 : th * s / p.A < p.T - (energy_table : EnergyTable ℝ).val k := by rwa [div_lt_iff₀ hA]
  have k2 : th * s / p.A < 1e-12 := by rwa [div_lt_iff₀ hA]
  have k3 : 0 < th * s / p.A := by positivity
  have hT : 1e-3 ≤ p.T := by norm_num at hT0 ⊢; linarith
  have hE0 : 1e-3 ≤ p.T - th * s / p.A := by norm_num at hT0 k2 ⊢; linarith
  obtain ⟨Q, hQ⟩ := sigma_a_partial env p n (t.set_thickness th) c (hc.thickness th) hk hsc hT h0.ne' _ w3 hE hE0
    (.inr ⟨⟨k, hk2, hT1, hT2⟩, ⟨k, hk2, by linarith, by linarith⟩⟩)
  refine ⟨v1 ^ 2 / (v2 * (|Q| + 1)), by positivity, fun f hf0 hf => ?_⟩
  have top : (9.95e6 : ℝ) ≤ (ls_energy_table : EnergyTable ℝ).val 199 - 10 * 2⁻¹ ^ 52 := by
    rw [ls_top]
    have := (abs_le.mp energy_table_range.2.2).1
    norm_num at this ⊢
    linarith
  have hcf : Computable p n (t.set_thickness th) { c with scattering_factor := f } := (hc.thickness th).withFactor f
  obtain ⟨b, u, hb⟩ := calculate_succeeds env hdbg .init hr p n (t.set_thickness th) { c with scattering_factor := f } hcf
    (hdef.thickness th) (hk f) (fun hg => by
      have : c.scattering = scattering_gottschalk := hg
      rw [hsc] at this
      exact absurd this (by decide)) (by norm_num at top hTm ⊢; linarith) (fun E w' hE' => by
      rw [energy_out_factor env p n (t.set_thickness th) c f (hc.thickness th) hk0 (hk f) .init .init _ _ hr hr _ _ hE hE']
      norm_num at top hTm ⊢
      linarith)
  refine ⟨b, u, hb, ?_⟩
  obtain ⟨-, f', -, hf', hsa⟩ := hQ f .init hr b u hb
  obtain rfl := hf' rfl
  have hT' : ((p.T <? Ezero) && (p.T <? Ezero - numeric_epsilon)) = false := by
    have : (p.T <? (Ezero : ℝ)) = false := by rw [lt_real_false]; norm_num [Ezero] at hT ⊢; exact hT
    rw [this]; rfl
  have hth' : ((t.set_thickness th).th =? (0.0 : ℝ)) = false := by
    rw [← Bool.not_eq_true, beq_real]; norm_num; exact h0.ne'
  obtain ⟨⟨s2, b1, b2⟩, b3, -, -⟩ := calculate_agrees_out env p (t.set_thickness th) _ .init u b hr (key_refl_real _) hT' hth' hb
  have hi := fun o => scattering_factor_ignored env p n (t.set_thickness th) c f' (hc.thickness th) hk0 (hk f') .init .init hr hr o
  have hcov : b.cov = v1 := by
    obtain ⟨x, hx⟩ := (hi 1).1 _ _ m1
    rw [b3] at hx
    exact (Prod.mk.inj (Except.ok.inj hx)).1
  have hsx : b.sigma_x = √v2 := by
    obtain ⟨x, hx⟩ := (hi 2).1 _ _ m2
    rw [b1] at hx
    rw [b2, (Prod.mk.inj (Except.ok.inj hx)).1, sqrt_real]
  rw [hcov, hsx, hsa, Real.sq_sqrt p2.le]
  have q0 : 0 ≤ |Q| := abs_nonneg Q
  have e1 : √(f' * Q) ^ 2 ≤ f' * (|Q| + 1) := by
    rcases le_total 0 (f' * Q) with hq | hq
    · rw [Real.sq_sqrt hq]
      exact mul_le_mul_of_nonneg_left (by have := le_abs_self Q; linarith) hf0
    · rw [Real.sqrt_eq_zero_of_nonpos hq]
      have : 0 ≤ f' * (|Q| + 1) := by positivity
      rwa [zero_pow two_ne_zero]
  calc v2 * √(f' * Q) ^ 2 ≤ v2 * (f' * (|Q| + 1)) := mul_le_mul_of_nonneg_left e1 p2.le
    _ = f' * (v2 * (|Q| + 1)) := by ring
    _ < v1 ^ 2 := by rwa [lt_div_iff₀ (by positivity)] at hf

/-- C138, what holds: the spreads of ions that leave the layer form a covariance matrix for the formula of Rossi and, in layers of at
least 1e-6 radiation lengths, for differential Highland, whatever the scattering factor. -/
theorem calculate_covariance_partial (env : Env ℝ) (hdbg : env.debug = false) (w u : World ℝ) (hr : ReachableW env w) (p : Projectile ℝ)
    (n : Int) (t : Material ℝ) (c : Config ℝ) (h : Computable p n t c) (hk : NonDefault p t c) (hrho : 0 < t.rho) (hth : 0 < t.th)
    (hA : c.scattering ≠ scattering_atima) (hG : c.scattering ≠ scattering_gottschalk)
    (hH : c.scattering = scattering_dhighland → 1e-6 * radiation_length t ≤ t.th) (hT : 1e-3 ≤ p.T) (b : Result ℝ)
    (hb : calculate env p t c w = .ok (b, u)) (hE : 1e-3 ≤ b.Eout) (hR : t.th < b.range) :
    0 ≤ b.cov ∧ b.cov ^ 2 ≤ b.sigma_x ^ 2 * b.sigma_a ^ 2 := by
  have hT' : ((p.T <? Ezero) && (p.T <? Ezero - numeric_epsilon)) = false := by
    have : (p.T <? (Ezero : ℝ)) = false := by rw [lt_real_false]; norm_num [Ezero] at hT ⊢; exact hT
    rw [this]; rfl
  have hth' : (t.th =? (0.0 : ℝ)) = false := by
    rw [← Bool.not_eq_true, beq_real]; norm_num; exact hth.ne'
  have hE' : (b.Eout <? (Ezero : ℝ)) = false := by rw [lt_real_false]; norm_num [Ezero] at hE ⊢; exact hE
  obtain ⟨⟨s2, b1, b2⟩, b3, -, b4⟩ := calculate_agrees_out env p t c w u b hr (key_refl_real _) hT' hth' hb
  obtain ⟨w1, hRg, -⟩ := calculate_agrees env p t c w u b hT' hb
  have k1 := (b4 hE').2.2.2 hA (by rw [lt_real]; exact hR)
  obtain ⟨v0, v1, v2, m0, m1, m2, p0, p1, p2, hcs⟩ := angular_moments_partial env hdbg w hr p n t c h hk hrho hth.le hG b.range w1 hRg
    (hth.trans hR).le (fun hs => by rw [min_eq_right hR.le]; exact hH hs)
  have e0 : b.sigma_a = √v0 := by
    unfold angular_straggling at k1
    simp only [api_bind] at k1
    obtain ⟨v, y, hv, hq⟩ := k1
    rw [m0] at hv
    obtain ⟨rfl, rfl⟩ := Prod.mk.inj (Except.ok.inj hv)
    rw [api_pure] at hq
    rw [← hq.1, sqrt_real]
  have e1 : b.cov = v1 := by
    rw [m1] at b3
    exact (Prod.mk.inj (Except.ok.inj b3)).1.symm
  have e2 : b.sigma_x = √v2 := by
    rw [m2] at b1
    rw [b2, ← (Prod.mk.inj (Except.ok.inj b1)).1, sqrt_real]
  rw [e0, e1, e2, Real.sq_sqrt p0, Real.sq_sqrt p2]
  exact ⟨p1, by linarith⟩

/-- Carbon ions in water. -/
example (env : Env ℝ) (hdbg : env.debug = false) (hj : SmallJunk env.junk) (k : Nat) (hk2 : k < 599) (T : ℝ) (hT0 : 1 ≤ T) (hTm : T ≤ 1000)
    (hT1 : (energy_table : EnergyTable ℝ).val k < T) (hT2 : T < (energy_table : EnergyTable ℝ).val (k + 1) - 10 * 2⁻¹ ^ 52) :
    ∃ (th f : ℝ) (b : Result ℝ) (u : World ℝ), 0 < th ∧ 0 < f ∧
      calculate env ⟨12, 6, 6, T⟩ (⟨1, th, 18.015, 78, [⟨1.00794, 1, 2⟩, ⟨15.9994, 8, 1⟩]⟩ : Material ℝ)
        { (Config.default : Config ℝ) with scattering_factor := f } .init = .ok (b, u) ∧
      b.sigma_x ^ 2 * b.sigma_a ^ 2 < b.cov ^ 2 := by
  have hk : ∀ c : Config ℝ, NonDefault ⟨12, 6, 6, T⟩ (⟨1, 0.5, 18.015, 78, [⟨1.00794, 1, 2⟩, ⟨15.9994, 8, 1⟩]⟩ : Material ℝ) c := by
    intro c
    simp only [NonDefault, Key.eq, Key.default, Projectile.eq, Projectile.default]
    simp
    intro h
    norm_num at h
  have hu := carbon_water T
  obtain ⟨δ, hδ, H⟩ := covariance_invalid_wrong env hdbg hj ⟨12, 6, 6, T⟩ 6 _ .default (.inr (.inr hu)) (fun _ => hk _)
    (by norm_num) rfl hu.computable k hk2 (by norm_num at hT0 ⊢; linarith) (by norm_num; linarith) hT1 hT2
  obtain ⟨f0, hf0, H⟩ := H (δ / 2) (by linarith) (by linarith)
  obtain ⟨b, u, hb, H⟩ := H (f0 / 2) (by linarith) (by linarith)
  exact ⟨δ / 2, f0 / 2, b, u, by linarith, by linarith, hb, H⟩

/-- Carbon ions in water with the formula of Rossi meet the hypotheses of `calculate_covariance_partial` in thin layers. -/
example (env : Env ℝ) (hdbg : env.debug = false) (hj : SmallJunk env.junk) (k : Nat) (hk2 : k < 599) (T : ℝ) (hT0 : 1 ≤ T) (hTm : T ≤ 1000)
    (hT1 : (energy_table : EnergyTable ℝ).val k < T) (hT2 : T < (energy_table : EnergyTable ℝ).val (k + 1) - 10 * 2⁻¹ ^ 52) :
    ∃ (th : ℝ) (b : Result ℝ) (u : World ℝ), 0 < th ∧
      calculate env ⟨12, 6, 6, T⟩ (⟨1, th, 18.015, 78, [⟨1.00794, 1, 2⟩, ⟨15.9994, 8, 1⟩]⟩ : Material ℝ)
        { (Config.default : Config ℝ) with scattering := scattering_fermi_rossi } .init = .ok (b, u) ∧
      1e-3 ≤ b.Eout ∧ th < b.range ∧ b.cov ^ 2 ≤ b.sigma_x ^ 2 * b.sigma_a ^ 2 := by
  have a := carbon_water T
  set t0 : Material ℝ := ⟨1, 0.5, 18.015, 78, [⟨1.00794, 1, 2⟩, ⟨15.9994, 8, 1⟩]⟩ with ht0
  set c : Config ℝ := { (Config.default : Config ℝ) with scattering := scattering_fermi_rossi } with hc0
  have hk : NonDefault ⟨12, 6, 6, T⟩ t0 c := by
    simp only [NonDefault, Key.eq, Key.default, Projectile.eq, Projectile.default]
    simp
    intro h
    norm_num at h
  have hc : Computable (⟨12, 6, 6, T⟩ : Projectile ℝ) 6 t0 c := ⟨a.computable.ion, a.computable.small, a.computable.sound, a.computable.known, Or.inl rfl⟩
  have hu : UsualIon (⟨12, 6, 6, T⟩ : Projectile ℝ) 6 t0 c := .inr (.inr ⟨hc, a.lithium, a.uranium, a.heavy, a.light, a.charge, a.excitation,
    a.excitation', a.excitation'', a.barkas, a.excitation_heavy, a.elements⟩)
  have hr : ReachableW env (.init : World ℝ) := ⟨[], rfl⟩
  have hT : 1e-3 + 1e-12 ≤ T := by norm_num; linarith
  obtain ⟨R, w1, hR, hR0⟩ := range_positive_partial env hj .init hr _ 6 t0 c hu hk hT
  obtain ⟨s, w2, hs, hs0⟩ := derived_stopping_positive env hj .init hr _ 6 t0 c hu hk
  obtain ⟨δ, hδ, hthin⟩ := thin_layer_loss env .init hr _ 6 t0 c hc hk k hk2 hT1 hT2 R s w1 w2 hR hR0 hs hs0.ne'
  set th := min (min δ R) (1 / s) / 2 with hth
  have m0 : 0 < min (min δ R) (1 / s) := by positivity
  have m1 : min (min δ R) (1 / s) ≤ δ := (min_le_left _ _).trans (min_le_left _ _)
  have m2 : min (min δ R) (1 / s) ≤ R := (min_le_left _ _).trans (min_le_right _ _)
  have m3 : min (min δ R) (1 / s) * s ≤ 1 := by
    have := mul_le_mul_of_nonneg_right (min_le_right (min δ R) (1 / s)) hs0.le
    rwa [one_div_mul_cancel hs0.ne'] at this
  have h0 : 0 < th := by linarith
  have h1 : th * s ≤ 1 / 2 := by rw [hth]; linarith
  have h1' : 0 < th * s := by positivity
  obtain ⟨w3, hE⟩ := hthin th h0.le (by linarith)
  have top : (9.95e6 : ℝ) ≤ (ls_energy_table : EnergyTable ℝ).val 199 - 10 * 2⁻¹ ^ 52 := by
    rw [ls_top]
    have := (abs_le.mp energy_table_range.2.2).1
    norm_num at this ⊢
    linarith
  obtain ⟨b, u, hb⟩ := calculate_succeeds env hdbg .init hr _ 6 (t0.set_thickness th) c (hc.thickness th) (a.computable.thickness th) hk
    (fun hg => absurd hg (by decide)) (by show T < _; norm_num at top ⊢; linarith) (fun E w' hE' => by
      rw [hE] at hE'
      obtain ⟨rfl, -⟩ := Prod.mk.inj (Except.ok.inj hE')
      show T - th * s / 12 < _
      norm_num at top ⊢
      linarith)
  have hT' : ((T <? (Ezero : ℝ)) && (T <? Ezero - numeric_epsilon)) = false := by
    have : (T <? (Ezero : ℝ)) = false := by rw [lt_real_false]; norm_num [Ezero]; linarith
    rw [this]; rfl
  obtain ⟨w4, q1, -, -, q4⟩ := calculate_agrees env _ _ _ _ _ _ hT' hb
  have q5 := q4 (by rw [← Bool.not_eq_true, beq_real]; norm_num; exact h0.ne')
  rw [hE] at q5
  have hEb : T - th * s / 12 = b.Eout := (Prod.mk.inj (Except.ok.inj q5)).1
  have hE3 : 1e-3 ≤ b.Eout := by rw [← hEb]; norm_num; linarith
  obtain ⟨d, s', -, -, hv⟩ := range_view env _ 6 t0 c hc hk
  have y1 := (hv .init hr T 0.5).1 R w1 hR
  have y2 := (hv .init hr T th).1 b.range w4 q1
  rw [y1] at y2
  have hRb : R = b.range := Except.ok.inj y2
  have hlt : th < b.range := by rw [← hRb]; linarith
  exact ⟨th, b, u, h0, hb, hE3, hlt, (calculate_covariance_partial env hdbg .init u hr _ 6 (t0.set_thickness th) c (hc.thickness th) hk
    (show (0 : ℝ) < 1 by norm_num) h0 (by decide) (by decide) (fun hg => absurd hg (by decide)) (show (1e-3 : ℝ) ≤ T by norm_num; linarith) b hb hE3 hlt).2⟩

end Catima
