import Verif.Props.SplineIncreasing
import Verif.Props.EnergyOutBounds

/-!
# C108: ranges increase with the energy
-/

namespace Catima

/-- The stopping power is positive and changes by at most 37 % from an energy to `gridRatio` (1.0392) times this energy. -/
def SteadyStopping (env : Env ℝ) (p : Projectile ℝ) (m : Material ℝ) (c : Config ℝ) : Prop :=
  ∀ x, (energy_table : EnergyTable ℝ).val 0 ≤ x → gridRatio * x ≤ (energy_table : EnergyTable ℝ).val 599 →
    LindhardReadable x → LindhardReadable (gridRatio * x) → ∀ u v, dedx env (p.withT x) m c = .ok u →
    dedx env (p.withT (gridRatio * x)) m c = .ok v → 0 < u ∧ 0 < v ∧ u ≤ 1.37 * v ∧ v ≤ 1.37 * u

theorem wsum_le (l : List (ℝ × ℝ)) (f g : ℝ → ℝ) (h : ∀ e ∈ l, 0 ≤ e.2) (hfg : ∀ e ∈ l, f e.1 ≤ g e.1) :
    wsum l f ≤ wsum l g := by
  unfold wsum
  exact List.sum_le_sum fun e he => mul_le_mul_of_nonneg_left (hfg e he) (h e he)

theorem wsum_mul (l : List (ℝ × ℝ)) (f : ℝ → ℝ) (k : ℝ) : (wsum l fun x => k * f x) = k * wsum l f := by
  unfold wsum
  induction l with
  | nil => simp
  | cons a l ih => simp only [List.map_cons, List.sum_cons, ih]; ring

set_option maxRecDepth 8000 in
/-- The table of ranges for a steady stopping power. -/
theorem range_table_tame (env : Env ℝ) (p : Projectile ℝ) (n : Int) (m : Material ℝ) (c : Config ℝ)
    (h : Computable p n m c) (hS : SteadyStopping env p m c) (d : DataPoint ℝ)
    (hd : calculate_DataPoint env p m c = .ok d) : Tame d.range := by
  have hb := energy_table_bounds
  set X := (energy_table : EnergyTable ℝ).val with hX
  have ord : ∀ k, X k < X (k + 1) := fun k => (EnergyTable.val_lt_iff _ hb.1 hb.2.1 k (k + 1)).mpr (by omega)
  have hq := gridRatio_bounds
  have q0 : 0 < gridRatio := by linarith [hq.1]
  have hgeo : ∀ k, X (k + 1) = gridRatio * X k := grid_geometric
  have key : ∀ k < 599, ∃ g : ℝ → ℝ, (∀ x, Inner (X k) (X (k + 1)) x → ∃ s, dedx env (p.withT x) m c = .ok s ∧ g x = 1 / s) ∧
      integrator.integrate (fdedx env p m c) (X k) (X (k + 1)) = .ok ((X (k + 1) - X k) / 2 *
        wsum integrator.full fun x => g ((X (k + 1) - X k) / 2 * x + (X (k + 1) + X k) / 2)) := by
    intro k hk
    obtain ⟨g, hg, hI⟩ := integrator_value (fdedx env p m c) (X k) (X (k + 1)) (ord k).le (fun _ => True) fun x hx => by
      obtain ⟨-, -, ha, hb, h0, hr⟩ := inner_grid k hk x hx
      obtain ⟨v, hv⟩ := h.dedx env x h0 hr
      exact ⟨1 / v, by unfold fdedx; rw [hv]; norm_num [bind, Except.bind, pure, Except.pure], trivial⟩
    refine ⟨g, fun x hx => ?_, hI⟩
    obtain ⟨-, -, ha, hb, h0, hr⟩ := inner_grid k hk x hx
    obtain ⟨v, hv⟩ := h.dedx env x h0 hr
    have := (hg x hx).1
    unfold fdedx at this
    rw [hv] at this
    refine ⟨v, hv, ?_⟩
    have e : (1.0 : ℝ) / v = g x := by
      simpa [bind, Except.bind, pure, Except.pure] using this
    rw [← e]; norm_num
  choose! g hg hI using key
  obtain ⟨hl, hz, hs⟩ := table_step p.A _ _ (data_point_parts env p m c d hd).1 _ hI
  have hA := h.ion.A
  -- mean slopes
  have hm : ∀ k < 599, meanSlope d.range k = p.A * (1 / 2 * wsum integrator.full fun x =>
      g k ((X (k + 1) - X k) / 2 * x + (X (k + 1) + X k) / 2)) := by
    intro k hk
    obtain ⟨a, b, ha, hb, hab⟩ := hs k hk
    have hne : X (k + 1) - X k ≠ 0 := by linarith [ord k]
    unfold meanSlope
    rw [List.getD_eq_getElem?_getD, List.getD_eq_getElem?_getD, ha, hb]
    simp only [Option.getD_some]
    rw [hab, ← hX]
    field_simp
  have wpos : ∀ e ∈ integrator.full, (0 : ℝ) < e.2 := fun e he => (integrator_nodes e he).2.2
  -- the stopping power at corresponding points
  have steady : ∀ k, k + 1 < 599 → ∀ e ∈ integrator.full, ∃ u v, 0 < u ∧ 0 < v ∧ u ≤ 1.37 * v ∧ v ≤ 1.37 * u ∧
      g k ((X (k + 1) - X k) / 2 * e.1 + (X (k + 1) + X k) / 2) = 1 / u ∧
      g (k + 1) ((X (k + 1 + 1) - X (k + 1)) / 2 * e.1 + (X (k + 1 + 1) + X (k + 1)) / 2) = 1 / v := by
    intro k hk e he
    have i1 := node_inner (X k) (X (k + 1)) (ord k).le e he
    have i2 := node_inner (X (k + 1)) (X (k + 1 + 1)) (ord (k + 1)).le e he
    obtain ⟨u, hu, gu⟩ := hg k (by omega) _ i1
    obtain ⟨v, hv, gv⟩ := hg (k + 1) hk _ i2
    obtain ⟨-, -, a1, -, -, r1⟩ := inner_grid k (by omega) _ i1
    obtain ⟨-, -, -, b1, -, r2⟩ := inner_grid (k + 1) hk _ i2
    have e1 : (X (k + 1 + 1) - X (k + 1)) / 2 * e.1 + (X (k + 1 + 1) + X (k + 1)) / 2 =
        gridRatio * ((X (k + 1) - X k) / 2 * e.1 + (X (k + 1) + X k) / 2) := by
      rw [hgeo (k + 1), hgeo k]; ring
    rw [e1] at hv b1 r2
    obtain ⟨h1, h2, h3, h4⟩ := hS _ a1 b1 r1 r2 u v hu hv
    exact ⟨u, v, h1, h2, h3, h4, gu, gv⟩
  have pos : ∀ k < 599, 0 < meanSlope d.range k := by
    intro k hk
    rw [hm k hk]
    refine mul_pos hA (mul_pos (by norm_num) ?_)
    refine sum_pos_of_forall _ _ (fun e he => mul_pos (wpos e he) ?_) integrator_full_ne
    rcases Nat.lt_or_ge (k + 1) 599 with h1 | h1
    · obtain ⟨u, v, hu, hv, -, -, e1, -⟩ := steady k h1 e he
      show 0 < g k _
      rw [e1]; positivity
    · obtain ⟨u, v, hu, hv, -, -, -, e1⟩ := steady (k - 1) (by omega) e he
      rw [show k - 1 + 1 = k by omega] at e1
      show 0 < g k _
      rw [e1]; positivity
  refine ⟨hl, pos, fun k hk => ?_⟩
  rw [hm k (by omega), hm (k + 1) (by omega)]
  have one : ∀ f f' : ℝ → ℝ, (∀ e ∈ integrator.full, f e.1 ≤ 1.37 * f' e.1) →
      p.A * (1 / 2 * wsum integrator.full f) ≤ 1.37 * (p.A * (1 / 2 * wsum integrator.full f')) := by
    intro f f' hff
    have := wsum_le integrator.full f (fun x => 1.37 * f' x) (fun e he => (wpos e he).le) hff
    rw [wsum_mul] at this
    nlinarith
  constructor
  · refine one _ _ fun e he => ?_
    obtain ⟨u, v, hu, hv, h1, h2, e1, e2⟩ := steady k (by omega) e he
    rw [e1, e2, mul_one_div, div_le_div_iff₀ hu hv]
    linarith
  · refine one _ _ fun e he => ?_
    obtain ⟨u, v, hu, hv, h1, h2, e1, e2⟩ := steady k (by omega) e he
    rw [e1, e2, mul_one_div, div_le_div_iff₀ hv hu]
    linarith

/-- What `range` and `energy_out` return after any history, for one ion and material and every energy and thickness. -/
theorem range_view (env : Env ℝ) (p : Projectile ℝ) (n : Int) (t : Material ℝ) (c : Config ℝ)
    (h : Computable p n t c) (hk : NonDefault p t c) : ∃ d s, calculate_DataPoint env p t c = .ok d ∧
      newSpline env d.range = .ok s ∧ ∀ (w : World ℝ), ReachableW env w → ∀ T th,
      (∀ R w', range env (p.withT T) { t with th := th } c w = .ok (R, w') → s.evaluate T = .ok R) ∧
      (∀ E w', energy_out env (p.withT T) { t with th := th } c w = .ok (E, w') → energy_out_spline env.debug T th s = .ok E) := by
  obtain ⟨d, hd, hl, -, -⟩ := data_point_defined env p n t c h
  obtain ⟨s, hs, -⟩ := spline_total env.junk _ _ (library_table_ordered env.calcIndex) d.range hl
  have hs : newSpline env d.range = .ok s := hs
  refine ⟨d, s, hd, hs, fun w hr T th => ?_⟩
  have h' : Computable (p.withT T) n { t with th := th } c := by
    obtain ⟨h1, h2, h3, h4, h5⟩ := h
    exact ⟨⟨h1.Z, h1.pos, h1.int, h1.A⟩, h2, ⟨h3.nonempty, h3.Z, h3.A, h3.stn, h3.molar⟩, h4, h5⟩
  obtain ⟨d1, w1, d0, hd1, -, -, h0, e1, -, -, -, -⟩ := get_view env w hr (p.withT T) n { t with th := th } c h' hk
  have e0 : d0.range = d.range := by
    have a := (data_point_parts _ _ _ _ _ h0).1
    have b := (data_point_parts _ _ _ _ _ hd).1
    have : cumulative 599 p.A energy_table (fdedx env p t c) = .ok d0.range := a
    rw [b] at this
    exact (Except.ok.inj this).symm
  rw [e0] at e1
  constructor
  · intro R w' hR
    unfold range at hR
    rw [api_bind] at hR
    obtain ⟨d2, w2, hd2, hR⟩ := hR
    rw [hd1] at hd2
    cases hd2
    rw [api_pureM, ok_bind] at hR
    obtain ⟨⟨s', hs', hR⟩, -⟩ := hR
    rw [e1, hs] at hs'
    cases hs'
    exact hR
  · intro E w' hE
    unfold energy_out at hE
    rw [api_bind] at hE
    obtain ⟨d2, w2, hd2, hE⟩ := hE
    rw [hd1] at hd2
    cases hd2
    rw [api_pureM, ok_bind] at hE
    obtain ⟨⟨s', hs', hE⟩, -⟩ := hE
    rw [e1, hs] at hs'
    cases hs'
    exact hE

/-- C108: after any histories, with at most 0.02 in the uninitialised cells, the range of an ion in a material increases with the
energy: strictly for the searched index (up to 9.9e6 MeV/u), and over distances of at least 2e-13 MeV/u otherwise. -/
theorem range_increasing (env : Env ℝ) (hj : SmallJunk env.junk) (p : Projectile ℝ) (n : Int) (t : Material ℝ)
    (c : Config ℝ) (h : Computable p n t c) (hk : NonDefault p t c) (hS : SteadyStopping env p t c) (w1 w2 : World ℝ)
    (r1 : ReachableW env w1) (r2 : ReachableW env w2) (T1 T2 R1 R2 : ℝ) (w1' w2' : World ℝ)
    (hT : T1 + 2e-13 ≤ T2 ∨ env.calcIndex = false ∧ T1 < T2 ∧ T2 ≤ 9.9e6)
    (h1 : range env (p.withT T1) t c w1 = .ok (R1, w1')) (h2 : range env (p.withT T2) t c w2 = .ok (R2, w2')) : R1 < R2 := by
  obtain ⟨d, s, hd, hs, hv⟩ := range_view env p n t c h hk
  have ht := range_table_tame env p n t c h hS d hd
  obtain ⟨s', hs', -, hinc⟩ := interpolant_increasing env.junk hj env.calcIndex d.range ht
  unfold newSpline at hs
  rw [hs'] at hs
  cases hs
  exact hinc T1 T2 R1 R2 ((hv w1 r1 T1 t.th).1 R1 w1' h1) ((hv w2 r2 T2 t.th).1 R2 w2' h2) hT

/-- C108: the energy behind a layer of at least 1e-5 g/cm2 is not above the energy in front of it. -/
theorem energy_out_below (env : Env ℝ) (hj : SmallJunk env.junk) (p : Projectile ℝ) (n : Int) (t : Material ℝ)
    (c : Config ℝ) (h : Computable p n t c) (hk : NonDefault p t c) (hS : SteadyStopping env p t c) (w w' : World ℝ)
    (hr : ReachableW env w) (hT : 0 ≤ p.T) (hth : 1e-5 ≤ t.th) (E : ℝ) (hE : energy_out env p t c w = .ok (E, w')) :
    E < p.T + 2e-13 := by
  obtain ⟨d, s, hd, hs, hv⟩ := range_view env p n t c h hk
  have ht := range_table_tame env p n t c h hS d hd
  obtain ⟨s', hs', -, hinc⟩ := interpolant_increasing env.junk hj env.calcIndex d.range ht
  unfold newSpline at hs
  rw [hs'] at hs
  cases hs
  have he := (hv w hr p.T t.th).2 E w' hE
  unfold energy_out_spline at he
  rw [ok_bind] at he
  obtain ⟨R, hR, he⟩ := he
  rw [ok_bind] at he
  obtain ⟨dR, hdR, he⟩ := he
  dsimp only at he
  rw [ok_ite] at he
  rcases he with ⟨_, he⟩ | ⟨hle, he⟩
  · cases he; norm_num; linarith
  rcases loop_cases he with he | he | ⟨RE, hRE, he⟩
  · rw [he]; norm_num; linarith
  · rw [he]; norm_num; linarith
  · by_contra hc
    have := hinc p.T E R RE hR hRE (.inl (not_lt.mp hc))
    rw [lt_real, fabs_real] at he
    have h' : |R - RE - t.th| < 1e-5 := lt_of_lt_of_eq he (by norm_num)
    rw [abs_lt] at h'
    linarith

/-- C108: behind more material (by at least 2e-5 g/cm2) the energy is lower, for results other than the codes 0 and -1. -/
theorem energy_out_decreasing (env : Env ℝ) (hj : SmallJunk env.junk) (p : Projectile ℝ) (n : Int) (t : Material ℝ)
    (c : Config ℝ) (h : Computable p n t c) (hk : NonDefault p t c) (hS : SteadyStopping env p t c) (w1 w2 w1' w2' : World ℝ)
    (r1 : ReachableW env w1) (r2 : ReachableW env w2) (th1 th2 E1 E2 : ℝ) (hth : th1 + 2e-5 ≤ th2)
    (h1 : energy_out env p { t with th := th1 } c w1 = .ok (E1, w1'))
    (h2 : energy_out env p { t with th := th2 } c w2 = .ok (E2, w2'))
    (n1 : E1 ≠ 0 ∧ E1 ≠ -1) (n2 : E2 ≠ 0 ∧ E2 ≠ -1) : E2 < E1 + 2e-13 := by
  obtain ⟨d, s, hd, hs, hv⟩ := range_view env p n t c h hk
  have ht := range_table_tame env p n t c h hS d hd
  obtain ⟨s', hs', -, hinc⟩ := interpolant_increasing env.junk hj env.calcIndex d.range ht
  unfold newSpline at hs
  rw [hs'] at hs
  cases hs
  have key : ∀ w w' th E, ReachableW env w → energy_out env p { t with th := th } c w = .ok (E, w') → E ≠ 0 ∧ E ≠ -1 →
      ∃ R RE, s.evaluate p.T = .ok R ∧ s.evaluate E = .ok RE ∧ |R - RE - th| < 1e-5 := by
    intro w w' th E hr hE hne
    have he := (hv w hr p.T th).2 E w' hE
    unfold energy_out_spline at he
    rw [ok_bind] at he
    obtain ⟨R, hR, he⟩ := he
    rw [ok_bind] at he
    obtain ⟨dR, hdR, he⟩ := he
    dsimp only at he
    rw [ok_ite] at he
    rcases he with ⟨_, he⟩ | ⟨hle, he⟩
    · cases he; exact absurd (by norm_num) hne.1
    rcases loop_cases he with he | he | ⟨RE, hRE, he⟩
    · exact absurd (by rw [he]; norm_num) hne.1
    · exact absurd (by rw [he]; norm_num) hne.2
    · rw [lt_real, fabs_real] at he
      exact ⟨R, RE, hR, hRE, lt_of_lt_of_eq he (by norm_num)⟩
  obtain ⟨R, RE1, hR, hRE1, a1⟩ := key w1 w1' th1 E1 r1 h1 n1
  obtain ⟨R', RE2, hR', hRE2, a2⟩ := key w2 w2' th2 E2 r2 h2 n2
  rw [hR] at hR'
  cases hR'
  by_contra hc
  have := hinc E1 E2 RE1 RE2 hRE1 hRE2 (.inl (not_lt.mp hc))
  rw [abs_lt] at a1 a2
  linarith

end Catima
