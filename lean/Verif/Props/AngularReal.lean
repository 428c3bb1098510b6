import Verif.Props.PositiveRanges
import Verif.Props.ThinLayer
import Verif.Lemmas.GentleTables

/-!
# C115: the angular straggling taken from the table is a positive number
-/

namespace Catima

set_option maxRecDepth 8000 in
/-- The angular interpolator of the data that a query returns after any history is that of the table of this query with a
scattering factor that differs by at most 1e-3. -/
theorem angular_view (env : Env ℝ) (w : World ℝ) (hr : ReachableW env w) (p : Projectile ℝ) (n : Int)
    (t : Material ℝ) (c : Config ℝ) (h : Computable p n t c) (hk : NonDefault p t c) :
    ∃ d w' f y, get_data env p t c w = .ok (d, w') ∧ |f - c.scattering_factor| ≤ 1e-3 ∧
      cumulative 599 p.A energy_table (ftheta env p t { c with scattering_factor := f }) = .ok y ∧
      get_angular_variance_spline env d = newSpline env y := by
  obtain ⟨d, w', -, hd, -⟩ := get_view env w hr p n t c h hk
  obtain ⟨cs, hcs⟩ := id hr
  have hinv := (history_inv env (fun _ => True) trivial cs w (fun c _ => within_true c) hcs).1
  have main : ∃ k' : Key ℝ, Agree k'.p p k'.t t k'.c c ∧ |k'.c.scattering_factor - c.scattering_factor| ≤ 1e-3 ∧
      Storage.computeDP env k'.p k'.t k'.c = .ok d := by
    unfold get_data at hd
    rw [ok_bind] at hd
    obtain ⟨x, hx, hd⟩ := hd
    cases hd
    by_cases hh : w.storage.has ⟨p, t, c⟩
    · obtain ⟨e, he, hek, hg⟩ := getWith_hit (Storage.computeDP env) w.storage ⟨p, t, c⟩ hh
      rcases hinv.2 e he with rfl | ⟨h1, -⟩
      · rw [show (DataPoint.default : DataPoint ℝ).key = Key.default from rfl, hk] at hek
        cases hek
      · have ha := agree_of_eq eqLaws_real.beqEq hek
        refine ⟨e.key, ha.1, ?_, ?_⟩
        · have := ha.2
          simp only [Scalar.gt, lt_real_false, fabs_real] at this
          norm_num at this ⊢
          exact this
        · dsimp only at hg
          rw [hg] at hx
          cases hx
          exact h1
    · refine ⟨⟨p, t, c⟩, .refl _ _ _, by norm_num, ?_⟩
      dsimp only
      cases hc : Storage.computeDP env p t c with
      | error e => rw [getWith_miss_error hh hc] at hx; cases hx
      | ok d' => rw [getWith_miss_ok (k := ⟨p, t, c⟩) hinv.1 hh hc] at hx; cases hx; rfl
  obtain ⟨k', ha, hf, hc⟩ := main
  have hview := computeDP_view eqLaws_real env k'.p k'.t k'.c
  cases hc' : calculate_DataPoint env k'.p k'.t k'.c with
  | error e => rw [hc', hc] at hview; exact hview.elim
  | ok d2 =>
    rw [hc', hc] at hview
    refine ⟨d, w', k'.c.scattering_factor, d2.angular_variance, hd, hf, ?_, hview.2.2⟩
    have a := (data_point_parts _ _ _ _ _ hc').2.1
    rw [← a, ha.A]
    congr 1
    have ha' : Agree p k'.p t k'.t { c with scattering_factor := k'.c.scattering_factor } k'.c :=
      ⟨ha.A.symm, ha.Z.symm, ha.Q.symm, ha.atoms.symm, ha.ip.symm, ha.mm.symm, ha.z_effective.symm, ha.corrections.symm,
        ha.calculation.symm, ha.low_energy.symm, ha.scattering.symm⟩
    funext x
    unfold ftheta da2de
    rw [dedx_congr (b := env.storeSplines) ha', withStore_self, da2dx_congr ha' rfl]

/-- The table of the angular variances of an ion of `UsualIon` changes its slope gently. -/
theorem angular_table_gentle (env : Env ℝ) (p : Projectile ℝ) (n : Int) (t : Material ℝ) (c : Config ℝ) (h : UsualIon p n t c)
    (f : ℝ) (hf : 0 < f) (y : List ℝ) (hy : cumulative 599 p.A energy_table (ftheta env p t { c with scattering_factor := f }) = .ok y) :
    Gentle y := by
  have hq := gridRatio_bounds
  have hc := h.computable
  have hb := energy_table_bounds
  have hX : 0 < radiation_length t := radiation_length_material_pos t hc.sound fun a ha => (hc.known a ha).trans (by norm_num)
  have hZ : p.Z ≠ 0 := by
    have h2 := hc.ion.pos
    rw [hc.ion.Z]
    exact_mod_cast (by omega : n ≠ 0)
  have hde : ∀ x, dedx env (p.withT x) t { c with scattering_factor := f } = dedx env (p.withT x) t c := fun x => by
    have := dedx_congr (env := env) (b := env.storeSplines) (p := p) (p' := p) (t := t) (t' := t)
      (c := { c with scattering_factor := f }) (c' := c) ⟨rfl, rfl, rfl, rfl, rfl, rfl, rfl, rfl, rfl, rfl, rfl⟩ x
    rwa [withStore_self] at this
  have hfx : ∀ x u, ftheta env p t { c with scattering_factor := f } x = .ok u ↔
      ∃ s, dedx env (p.withT x) t c = .ok s ∧ u = da2dx (p.withT x) t { c with scattering_factor := f } / s := by
    intro x u
    unfold ftheta da2de
    rw [hde, ok_bind]
    exact ⟨fun ⟨s, a, b⟩ => ⟨s, a, (Except.ok.inj b).symm⟩, fun ⟨s, a, b⟩ => ⟨s, a, by rw [b]; rfl⟩⟩
  have v0 := EnergyTable.val_pos (energy_table : EnergyTable ℝ) 0
  obtain ⟨hl, -, hpos, hst⟩ := table_slopes p.A hc.ion.A _ y hy (fun x hx0 hx1 hr => by
      obtain ⟨s, hs⟩ := hc.dedx env x (by linarith) hr
      exact ⟨_, (hfx x _).mpr ⟨s, hs, rfl⟩⟩) 599 (by norm_num) le_rfl 1.37 1.48 (by
    intro x hx0 hx1 hr1 hr2 u v hu hv
    obtain ⟨s, hs, rfl⟩ := (hfx x u).mp hu
    obtain ⟨s', hs', rfl⟩ := (hfx _ v).mp hv
    obtain ⟨p1, p2, p3, p4⟩ := h.steady env x hx0 hx1 hr1 hr2 s s' hs hs'
    obtain ⟨q1, q2, q3, q4⟩ := scattering_power_step p hc.ion.A t { c with scattering_factor := f } hZ hX hf x gridRatio
      (by linarith) (by linarith [hq.1]) (by linarith [hq.2])
    refine ⟨by positivity, by positivity, ?_, ?_⟩
    · rw [div_le_iff₀ p2]
      calc _ ≤ da2dx (p.withT x) t { c with scattering_factor := f } := q3
        _ = da2dx (p.withT x) t { c with scattering_factor := f } / s * s := by field_simp
        _ ≤ da2dx (p.withT x) t { c with scattering_factor := f } / s * (1.37 * s') := mul_le_mul_of_nonneg_left p3 (by positivity)
        _ = _ := by ring
    · rw [div_le_iff₀ p1]
      set D := da2dx (p.withT (gridRatio * x)) t { c with scattering_factor := f } with hD
      have e : D = D / s' * s' := by field_simp
      have e0 : 0 < D / s' := by positivity
      calc _ ≤ 1.0802 * D := q4
        _ = 1.0802 * (D / s' * s') := by rw [← e]
        _ ≤ 1.0802 * (D / s' * (1.37 * s)) := by gcongr
        _ ≤ _ := by nlinarith [mul_pos e0 p1])
  refine ⟨hl, hpos, fun i hi => ?_⟩
  have a1 := hpos i (by omega)
  have a2 := hpos (i + 1) (by omega)
  obtain ⟨a3, a4⟩ := hst i (by omega)
  constructor <;> linarith

/-- C115: with `scattering_atima` the angular straggling behind a layer is taken from differences (or slopes) of the tabulated
angular variances.  It is a positive number after any history: no square root of a negative number is taken. -/
theorem angular_straggling_positive (env : Env ℝ) (hj : SmallJunk env.junk) (w w' : World ℝ) (hr : ReachableW env w) (p : Projectile ℝ)
    (n : Int) (t : Material ℝ) (c : Config ℝ) (h : UsualIon p n t c) (hk : NonDefault p t c) (hsc : c.scattering = scattering_atima)
    (hf : 1e-3 < c.scattering_factor) (hT : Ezero ≤ p.T) (hth : t.th ≠ 0) (r : Result ℝ) (hc : calculate env p t c w = .ok (r, w'))
    (hE : Ezero ≤ r.Eout) (hlt : r.Eout < p.T)
    (hE' : r.Eout + 2e-12 ≤ p.T ∨ env.calcIndex = false ∧ p.T ≤ 9.9e6 ∨ env.thin = true ∧ thin_target_limit * p.T < r.Eout) :
    0 < r.sigma_a := by
  obtain ⟨d', w1', f, y, h1, hff, hy, hsp⟩ := angular_view env w hr p n t c h.computable hk
  have hf0 : 0 < f := by have := (abs_le.mp hff).1; linarith
  obtain ⟨s, hs, hder, hinc⟩ := interpolant_increasing_wide env.junk hj env.calcIndex y (angular_table_gentle env p n t c h f hf0 y hy)
  rcases calculate_steps hc with ⟨hs, -⟩ | ⟨-, w1, d, rs, ss, st, hcase⟩
  · unfold tooSlow at hs
    rw [Bool.and_eq_true, lt_real] at hs
    exact absurd hs.1 (not_lt.mpr hT)
  have e1 := st.data
  rw [h1] at e1
  cases e1
  rcases hcase with ⟨hb, -⟩ | ⟨-, -, -, w2, w3, w4, sx, ⟨hb, -⟩ | ⟨-, th⟩, -⟩
  · rw [beq_real] at hb
    norm_num at hb
    exact absurd hb hth
  · rw [lt_real] at hb
    exact absurd hb (not_lt.mpr hE)
  obtain ⟨as_, sa0, a1, a2, -, a3⟩ := th.strag
  have ht : (c.scattering == scattering_atima) = true := by rw [hsc]; rfl
  rw [ht] at a2 a3
  rw [(a3 rfl).1]
  rw [hsp] at a1
  unfold newSpline at a1
  rw [hs] at a1
  cases a1
  unfold stragglings at a2
  split at a2
  · rename_i hthin
    rw [ok_bind] at a2
    obtain ⟨x1, -, a2⟩ := a2
    rw [ok_bind] at a2
    obtain ⟨x2, -, a2⟩ := a2
    rw [if_pos rfl, ok_bind] at a2
    obtain ⟨x3, b3, a2⟩ := a2
    rw [ok_bind] at a2
    obtain ⟨x4, b4, a2⟩ := a2
    obtain ⟨d3, c3, c3'⟩ := hder p.T
    obtain ⟨d4, c4, c4'⟩ := hder r.Eout
    rw [b3] at c3
    rw [b4] at c4
    cases c3
    cases c4
    have a2 := (Prod.mk.inj (Except.ok.inj a2)).2
    rw [← a2, sqrt_real, Real.sqrt_pos]
    have : 0 < p.T - r.Eout := by linarith
    norm_num
    positivity
  · rename_i hthin
    rw [ok_bind] at a2
    obtain ⟨x1, -, a2⟩ := a2
    rw [ok_bind] at a2
    obtain ⟨x2, -, a2⟩ := a2
    rw [if_pos rfl, ok_bind] at a2
    obtain ⟨x3, b3, a2⟩ := a2
    rw [ok_bind] at a2
    obtain ⟨x4, b4, a2⟩ := a2
    have a2 := (Prod.mk.inj (Except.ok.inj a2)).2
    rw [← a2, sqrt_real, Real.sqrt_pos]
    refine sub_pos.mpr (hinc _ _ _ _ b4 b3 ?_)
    rcases hE' with e | ⟨e, e'⟩ | ⟨e, e'⟩
    · exact .inl e
    · exact .inr ⟨e, hlt, e'⟩
    · exfalso
      apply hthin
      rw [Bool.and_eq_true, lt_real]
      exact ⟨e, e'⟩

/-- Uranium ions in water (default configuration): in every interval of the energy table above 1 MeV/u there are energies at
which `calculate` reports a positive angular straggling behind every layer that is thin enough. -/
example (env : Env ℝ) (hdbg : env.debug = false) (hj : SmallJunk env.junk) (hth : env.thin = true) (k : Nat) (hk1 : 190 ≤ k) (hk2 : k < 596) :
    ∃ T, (energy_table : EnergyTable ℝ).val k < T ∧ T < (energy_table : EnergyTable ℝ).val (k + 1) ∧
    ∃ δ > 0, ∀ th, 0 < th → th < δ → ∃ r w',
      calculate env (⟨238, 92, 92, T⟩ : Projectile ℝ) ⟨1, th, 18.015, 78, [⟨1.00794, 1, 2⟩, ⟨15.9994, 8, 1⟩]⟩ .default .init = .ok (r, w') ∧
      0 < r.Eout ∧ r.Eout < T ∧ 0 < r.sigma_a := by
  have hk : ∀ T th, NonDefault (⟨238, 92, 92, T⟩ : Projectile ℝ) (⟨1, th, 18.015, 78, [⟨1.00794, 1, 2⟩, ⟨15.9994, 8, 1⟩]⟩ : Material ℝ) .default := by
    intro T th
    simp only [NonDefault, Key.eq, Key.default, Projectile.eq, Projectile.default]
    simp
    intro h
    norm_num at h
  have hu : ∀ T, UsualIon (⟨238, 92, 92, T⟩ : Projectile ℝ) 92 (⟨1, 0.5, 18.015, 78, [⟨1.00794, 1, 2⟩, ⟨15.9994, 8, 1⟩]⟩ : Material ℝ) .default :=
    fun T => .inr (.inr (uranium_water T))
  obtain ⟨rs, f, T, d, hT1, hT2, -, hsm, hdata⟩ := smooth_range env _ 92 _ _ (uranium_water_computable 1) (hu 1).usual (hk 1 0.5) k (by omega) (by omega)
  have hd0 : 0 < d := by
    obtain ⟨s', -, -, hder, -, hv⟩ := usual_interpolator env hj _ 92 _ _ (hu 1) (hk 1 0.5)
    obtain ⟨d1, w1, g1, g2⟩ := hdata .init ⟨[], rfl⟩ 1 0.5
    obtain ⟨d2, w2, g3, g4⟩ := hv .init ⟨[], rfl⟩ 1
    have g1 : get_data env (⟨238, 92, 92, 1⟩ : Projectile ℝ) (⟨1, 0.5, 18.015, 78, [⟨1.00794, 1, 2⟩, ⟨15.9994, 8, 1⟩]⟩ : Material ℝ) .default .init = .ok (d1, w1) := g1
    have g3 : get_data env (⟨238, 92, 92, 1⟩ : Projectile ℝ) (⟨1, 0.5, 18.015, 78, [⟨1.00794, 1, 2⟩, ⟨15.9994, 8, 1⟩]⟩ : Material ℝ) .default .init = .ok (d2, w2) := g3
    rw [g1] at g3
    cases g3
    rw [g2] at g4
    cases g4
    obtain ⟨x, hx, hx0⟩ := hder T
    rw [hsm.deriv] at hx
    cases hx
    exact hx0
  have hb := energy_table_bounds
  have hq := gridRatio_bounds
  have pow : ∀ j, (energy_table : EnergyTable ℝ).val j = gridRatio ^ j * (energy_table : EnergyTable ℝ).val 0 := by
    intro j
    induction j with
    | zero => simp
    | succ j ih => rw [grid_geometric, ih]; ring
  have hT0 : (1 : ℝ) < T := by
    have h0 := (abs_le.mp energy_table_range.2.1).1
    have h1 : (9e-4 : ℝ) ≤ (energy_table : EnergyTable ℝ).val 0 := by norm_num at h0 ⊢; linarith
    have h2 : (1200 : ℝ) ≤ gridRatio ^ 190 := le_trans (by norm_num) (pow_le_pow_left₀ (by norm_num) hq.1 190)
    have h3 := (EnergyTable.val_le_iff (energy_table : EnergyTable ℝ) hb.1 hb.2.1 190 k).mpr hk1
    rw [pow 190] at h3
    have : (1 : ℝ) < 1200 * 9e-4 := by norm_num
    have : (1200 : ℝ) * 9e-4 ≤ gridRatio ^ 190 * (energy_table : EnergyTable ℝ).val 0 := mul_le_mul h2 h1 (by norm_num) (by positivity)
    linarith
  have hTtop : T < 9.95e6 := by
    have h0 := (abs_le.mp energy_table_range.2.2).2
    have h1 := (EnergyTable.val_le_iff (energy_table : EnergyTable ℝ) hb.1 hb.2.1 (k + 1) 597).mpr (by omega)
    have h2 : (energy_table : EnergyTable ℝ).val 599 = gridRatio * (gridRatio * (energy_table : EnergyTable ℝ).val 597) := by
      rw [← grid_geometric, ← grid_geometric]
    rw [h2] at h0
    have h3 := EnergyTable.val_pos (energy_table : EnergyTable ℝ) 597
    have h4 : (1.0391 : ℝ) * (1.0391 * (energy_table : EnergyTable ℝ).val 597) ≤
        gridRatio * (gridRatio * (energy_table : EnergyTable ℝ).val 597) := by
      have := hq.1
      gcongr
    norm_num at h0 h4 hT2 ⊢
    linarith
  obtain ⟨δ, hδ, hout⟩ := thin_energy_out hsm
  refine ⟨T, hT1, by norm_num at hT2; linarith, min δ (d * 0.001), by positivity, fun th h1 h2 => ?_⟩
  obtain ⟨h3, h4⟩ := lt_min_iff.mp h2
  have hE : ∀ E w', energy_out env (⟨238, 92, 92, T⟩ : Projectile ℝ) ⟨1, th, 18.015, 78, [⟨1.00794, 1, 2⟩, ⟨15.9994, 8, 1⟩]⟩ .default .init = .ok (E, w') →
      E = T - th / d := by
    intro E w' h
    unfold energy_out at h
    simp only [api_bind, api_pureM, ok_bind] at h
    obtain ⟨dd, wd, e1, ⟨rs', e2, e3⟩, -⟩ := h
    obtain ⟨d1, w1, g1, g2⟩ := hdata .init ⟨[], rfl⟩ T th
    have g1 : get_data env (⟨238, 92, 92, T⟩ : Projectile ℝ) (⟨1, th, 18.015, 78, [⟨1.00794, 1, 2⟩, ⟨15.9994, 8, 1⟩]⟩ : Material ℝ) .default .init = .ok (d1, w1) := g1
    rw [g1] at e1
    cases e1
    rw [g2] at e2
    cases e2
    have := hout th h1.le h3 env.debug
    rw [this] at e3
    exact (Except.ok.inj e3).symm
  have hcomp : Computable (⟨238, 92, 92, T⟩ : Projectile ℝ) 92 (⟨1, th, 18.015, 78, [⟨1.00794, 1, 2⟩, ⟨15.9994, 8, 1⟩]⟩ : Material ℝ) .default := by
    have h := uranium_water_computable T
    exact ⟨h.ion, h.small, ⟨h.sound.1, h.sound.2, h.sound.3, h.sound.4, h.sound.5⟩, h.known, h.charge⟩
  have hu' : UsualIon (⟨238, 92, 92, T⟩ : Projectile ℝ) 92 (⟨1, th, 18.015, 78, [⟨1.00794, 1, 2⟩, ⟨15.9994, 8, 1⟩]⟩ : Material ℝ) .default := by
    have h := uranium_water T
    exact .inr (.inr ⟨hcomp, h.lithium, h.uranium, h.heavy, h.light, h.charge, h.excitation, h.excitation', h.excitation'', h.barkas,
      h.excitation_heavy, h.elements⟩)
  have top : (9.95e6 : ℝ) ≤ (ls_energy_table : EnergyTable ℝ).val 199 - 10 * 2⁻¹ ^ 52 := by
    rw [ls_top]
    have := (abs_le.mp energy_table_range.2.2).1
    norm_num at this ⊢
    linarith
  have hq0 : 0 < th / d := by positivity
  have hq1 : th / d < 0.001 := by rw [div_lt_iff₀ hd0]; linarith
  obtain ⟨r, w', hc⟩ := calculate_succeeds env hdbg .init ⟨[], rfl⟩ _ 92 _ _ hcomp hcomp (hk T th) (fun h => by cases h)
    (by show T < _; linarith) (fun E w' h => by rw [hE E w' h]; linarith)
  have hEo : r.Eout = T - th / d := by
    have hs : tooSlow T = false := by
      unfold tooSlow
      rw [Bool.and_eq_false_iff, lt_real_false]
      left
      refine le_trans ?_ hT0.le
      norm_num [Ezero]
    obtain ⟨w1, -, -, -, a⟩ := calculate_agrees env (⟨238, 92, 92, T⟩ : Projectile ℝ) _ _ _ _ _ hs hc
    exact hE _ _ (a (by rw [beq_real_false]; norm_num; exact h1.ne'))
  refine ⟨r, w', hc, by rw [hEo]; linarith, by rw [hEo]; linarith, ?_⟩
  refine angular_straggling_positive env hj .init w' ⟨[], rfl⟩ _ 92 _ _ hu' (hk T th) rfl (by show (1e-3 : ℝ) < 1.0; norm_num) ?_ h1.ne' r hc ?_ ?_
    (.inr (.inr ⟨hth, ?_⟩))
  · refine le_trans ?_ hT0.le
    norm_num [Ezero]
  · rw [hEo]
    refine le_trans (b := 0.999) (by norm_num [Ezero]) ?_
    linarith
  · rw [hEo]; show _ < T; linarith
  · rw [hEo]
    show thin_target_limit * T < _
    unfold thin_target_limit
    norm_num at hq1 ⊢
    linarith

end Catima
