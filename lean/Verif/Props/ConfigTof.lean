import Verif.Props.ThinLayer

/-!
# C57: the time of flight ignores the supplied configuration
-/

namespace Catima

/-- Two integrals over the same non-empty interval differ if one integrand is everywhere above the
other. -/
theorem integrator_ne (f1 f2 : ℝ → M ℝ) (a b lo hi : ℝ) (hab : a ≠ b) (ha : lo < a ∧ a < hi)
    (hb : lo < b ∧ b < hi)
    (h : ∀ x, lo < x → x < hi → ∃ v1 v2, f1 x = .ok v1 ∧ f2 x = .ok v2 ∧ v1 < v2) :
    ∃ I1 I2, integrator.integrate f1 a b = .ok I1 ∧ integrator.integrate f2 a b = .ok I2 ∧ I1 ≠ I2 := by
  choose! g1 g2 hg1 hg2 hlt using h
  have hs := GLData.supported_shape _ integrator_supported
  have hin : ∀ e ∈ integrator.full, lo < (b - a) / 2 * e.1 + (b + a) / 2 ∧
      (b - a) / 2 * e.1 + (b + a) / 2 < hi := by
    intro e he
    obtain ⟨h1, h2, -⟩ := integrator_nodes e he
    have h3 : (b - a) / 2 * e.1 + (b + a) / 2 = b * ((1 + e.1) / 2) + a * ((1 - e.1) / 2) := by ring
    rw [h3]
    have p1 : 0 < (1 + e.1) / 2 := by linarith
    have p2 : 0 < (1 - e.1) / 2 := by linarith
    have := mul_lt_mul_of_pos_right ha.1 p2
    have := mul_lt_mul_of_pos_right ha.2 p2
    have := mul_lt_mul_of_pos_right hb.1 p1
    have := mul_lt_mul_of_pos_right hb.2 p1
    constructor <;> linarith
  refine ⟨_, _, integrator.integrate_eq (integrator.shape hs).1 f1 g1 a b fun e he =>
    hg1 _ (hin e he).1 (hin e he).2, integrator.integrate_eq (integrator.shape hs).1 f2 g2 a b fun e he =>
    hg2 _ (hin e he).1 (hin e he).2, fun heq => ?_⟩
  have hba : (b - a) / 2 ≠ 0 := by
    intro h0
    apply hab
    linarith
  have heq' := mul_left_cancel₀ hba heq
  have hpos := sum_pos_of_forall integrator.full (fun e => e.2 *
    (g2 ((b - a) / 2 * e.1 + (b + a) / 2) - g1 ((b - a) / 2 * e.1 + (b + a) / 2)))
    (fun e he => mul_pos (integrator_nodes e he).2.2 (sub_pos.mpr (hlt _ (hin e he).1 (hin e he).2)))
    integrator_full_ne
  have hsum : ∀ l : List (ℝ × ℝ), (l.map fun e => e.2 *
      (g2 ((b - a) / 2 * e.1 + (b + a) / 2) - g1 ((b - a) / 2 * e.1 + (b + a) / 2))).sum =
      (wsum l fun x => g2 ((b - a) / 2 * x + (b + a) / 2)) -
        wsum l fun x => g1 ((b - a) / 2 * x + (b + a) / 2) := by
    intro l
    induction l with
    | nil => simp
    | cons e l ih =>
      rw [List.map_cons, List.sum_cons, ih, wsum_cons, wsum_cons]
      ring
  rw [hsum, heq', sub_self] at hpos
  exact lt_irrefl _ hpos

/-- A neutral projectile has no electronic stopping in the Bethe formula. -/
theorem bethe_neutral (env : Env ℝ) {p : Projectile ℝ} {n : Int} {m : Material ℝ} {c : Config ℝ}
    (h : Computable p n m c) (hc : c.z_effective = 0) (hq : p.Q = 0) (h0 : 0 < p.T)
    (h1 : p.T ≤ 50000) (hr : LindhardReadable p.T) : bethek_dedx_e env p m c = .ok 0 := by
  have htar : ∀ t ∈ m.atoms, bethek_dedx_e_target env p t c m.i_potential = .ok 0 := by
    intro t ht
    have tZ := h.sound.Z t ht
    have tA := h.sound.A t ht
    have hZ : 0 < p.Z := h.posZ
    have hz : z_effective env.debug p t c = .ok 0 := by
      rw [(z_effective_basic env.debug p t c).1 hc, hq]
    unfold bethek_dedx_e_target
    rw [cassert_true _ _ (by
        rw [Bool.and_eq_true]
        refine ⟨by simpa using (by omega : 0 < t.Z), ?_⟩
        rw [lt_real]; norm_num; exact hZ), bind_ok,
      cassert_true _ _ (by
        rw [Bool.and_eq_true, lt_real, lt_real]
        norm_num
        exact ⟨tA, h.ion.A⟩), bind_ok,
      cassert_true _ _ (by rw [lt_real]; norm_num; exact h0), bind_ok,
      if_neg (by rw [beq_real]; norm_num; exact h0.ne'), hz]
    dsimp only
    rw [bind_ok, cassert_true _ _ (by rw [le_real]; norm_num), bind_ok]
    have hIp : (0 : ℝ) < (if Scalar.lt 0.0 m.i_potential = true then m.i_potential else ipot t.Z) := by
      split
      · rename_i h
        rw [lt_real] at h
        norm_num at h
        exact h
      · exact ipot_pos _ tZ (h.known t ht)
    rw [cassert_true _ _ (by rw [lt_real]; exact lt_of_eq_of_lt (by norm_num) hIp), bind_ok]
    obtain ⟨d, hd⟩ := density_defined (√(1.0 - 1.0 / ((1.0 + p.T / atomic_mass_unit) *
      (1.0 + p.T / atomic_mass_unit)))) t.Z tZ
    simp only [sqrt_real, pow_real]
    have hz2 : (0 : ℝ) ^ (2.0 : ℝ) = 0 := by
      rw [show (2.0 : ℝ) = ((2 : ℕ) : ℝ) by norm_num, Real.rpow_natCast]; norm_num
    have hnot : ¬(Scalar.lt (50000.0 : ℝ) p.T && !c.corrections.testBit 3) = true := by
      rw [Bool.and_eq_true, lt_real]
      norm_num
      intro h
      linarith
    rw [hd, bind_ok]
    obtain ⟨l, hl⟩ := lindhard_defined env.calcIndex h.ion h.small hr
    by_cases hb : (!c.corrections.testBit 1) = true
    · rw [if_pos hb, hl, bind_ok, if_neg hnot]
      rw [hz2, mul_zero, zero_mul, zero_div, mul_zero]
      rfl
    · rw [if_neg hb, pure_bind, if_neg hnot]
      rw [hz2, mul_zero, zero_mul, zero_div, mul_zero]
      rfl
  unfold bethek_dedx_e
  rw [componentSum_ok m _ (fun _ => 0) htar]
  simp

/-- The default configuration but with the charge of the projectile instead of an effective charge. -/
noncomputable def bareConfig : Config ℝ := { (Config.default : Config ℝ) with z_effective := 0 }

theorem dedx_high (env : Env ℝ) (p : Projectile ℝ) (m : Material ℝ) (c : Config ℝ) (h : 30 ≤ p.T) :
    dedx env p m c = (do
      let n ← dedx_n env.debug p m
      let e ← bethek_dedx_e env p m c
      return n + e) := by
  rw [dedx_eq env p m c (by linarith)]
  unfold electronic
  rw [if_neg (by rw [le_real]; norm_num; linarith),
    if_neg (by rw [Bool.and_eq_true, lt_real, lt_real]; norm_num; intro; linarith)]

/-- Neutral carbon is stopped less than ionised carbon. -/
theorem neutral_stops_less (env : Env ℝ) (x : ℝ) (h0 : 30 < x) (h1 : x < 50000) : ∃ v1 v2,
    dedx env ⟨12, 6, 0, x⟩ (⟨1, 1, 18.015, 0, [⟨1.00794, 1, 2⟩, ⟨15.9994, 8, 1⟩]⟩ : Material ℝ)
      bareConfig = .ok v1 ∧
    dedx env ⟨12, 6, 0, x⟩ (⟨1, 1, 18.015, 0, [⟨1.00794, 1, 2⟩, ⟨15.9994, 8, 1⟩]⟩ : Material ℝ)
      .default = .ok v2 ∧ 0 < v1 ∧ v1 < v2 := by
  obtain ⟨hc, hu⟩ := carbon_water_usual 0 x
  have hc' : Computable ⟨12, 6, 0, x⟩ 6
      (⟨1, 1, 18.015, 0, [⟨1.00794, 1, 2⟩, ⟨15.9994, 8, 1⟩]⟩ : Material ℝ) bareConfig :=
    ⟨hc.ion, hc.small, hc.sound, hc.known, Or.inr ⟨rfl, le_rfl⟩⟩
  have hr : LindhardReadable x := Or.inl (below_top x (by norm_num; linarith))
  obtain ⟨a, ha, -, ha1⟩ := nuclear_nonneg env.debug ⟨12, 6, 0, x⟩ hc.posZ hc.ion.A _ hc.sound
  have ha0 : 0 < a := ha1.mpr (by show 0 < x; linarith)
  obtain ⟨e, he, -, he1⟩ := bethe_nonneg env _ 6 _ _ hc hu (by show 10 ≤ x; linarith) hr
  have hn := bethe_neutral env hc' rfl rfl (by show 0 < x; linarith) h1.le hr
  refine ⟨a, a + e, ?_, ?_, ha0, ?_⟩
  · rw [dedx_high env _ _ _ h0.le, ha, bind_ok, hn, bind_ok, add_zero]; rfl
  · rw [dedx_high env _ _ _ h0.le, ha, bind_ok, he, bind_ok]; rfl
  · have := he1 (Or.inl rfl)
    linarith

/-- An interval of the energy table around 100 MeV/u. -/
theorem table_around_100 : 40 < (energy_table : EnergyTable ℝ).val 300 ∧
    (energy_table : EnergyTable ℝ).val 301 < 1000 := by
  have hst : (energy_table : EnergyTable ℝ).step = 10 / 599 := by
    rw [EnergyTable.step_eq]; norm_num [energy_table, logEmax, logEmin, max_datapoints]
  have h3 : (LN10 : ℝ) = 2.30258509299404568401799145468 := rfl
  have h27 := Real.exp_one_gt_d9
  have h28 := Real.exp_one_lt_d9
  rw [EnergyTable.val_eq, EnergyTable.val_eq, hst, h3]
  constructor
  · have e : Real.exp (4 : ℝ) = Real.exp 1 ^ 4 := by rw [← Real.exp_nat_mul]; norm_num
    calc (40 : ℝ) < 2.718 ^ 4 := by norm_num
      _ ≤ Real.exp 4 := by rw [e]; gcongr; linarith
      _ ≤ _ := Real.exp_le_exp.mpr (by norm_num [energy_table, logEmin])
  · have e : Real.exp (5 : ℝ) = Real.exp 1 ^ 5 := by rw [← Real.exp_nat_mul]; norm_num
    calc _ ≤ Real.exp 5 := Real.exp_le_exp.mpr (by norm_num [energy_table, logEmin])
      _ ≤ 2.719 ^ 5 := by rw [e]; gcongr; linarith
      _ < 1000 := by norm_num

/-- C57, what fails: with a configuration other than the default one the time of flight that
`calculate` returns is not the time of flight for that configuration between the two energies. -/
theorem calculate_tof_wrong (env : Env ℝ) (hdbg : env.debug = false) :
    ∃ (p : Projectile ℝ) (t : Material ℝ) (c : Config ℝ) (r : Result ℝ) (w' : World ℝ) (tof : ℝ),
      calculate env p t c .init = .ok (r, w') ∧ 1e-3 ≤ p.T ∧ t.th ≠ 0 ∧ 1e-3 ≤ r.Eout ∧
      calculate_tof_from_E env p r.Eout t c = .ok tof ∧ r.tof ≠ tof := by
  obtain ⟨hc, hu⟩ := carbon_water_usual 0 100
  have hsound : ∀ th, (⟨1, th, 18.015, 0, [⟨1.00794, 1, 2⟩, ⟨15.9994, 8, 1⟩]⟩ : Material ℝ).Sound :=
    fun th => ⟨by simp, by simp, by simp; norm_num, by simp, by norm_num⟩
  have hcb : ∀ T th, Computable ⟨12, 6, 0, T⟩ 6
      (⟨1, th, 18.015, 0, [⟨1.00794, 1, 2⟩, ⟨15.9994, 8, 1⟩]⟩ : Material ℝ) bareConfig := fun T th =>
    ⟨(carbon_water_usual 0 T).1.ion, hc.small, hsound th, by simp, Or.inr ⟨rfl, le_rfl⟩⟩
  have hcd : ∀ T th, Computable ⟨12, 6, 0, T⟩ 6
      (⟨1, th, 18.015, 0, [⟨1.00794, 1, 2⟩, ⟨15.9994, 8, 1⟩]⟩ : Material ℝ) .default := fun T th =>
    ⟨(carbon_water_usual 0 T).1.ion, hc.small, hsound th, by simp, Or.inl rfl⟩
  have hnd : ∀ T th, NonDefault ⟨12, 6, 0, T⟩
      (⟨1, th, 18.015, 0, [⟨1.00794, 1, 2⟩, ⟨15.9994, 8, 1⟩]⟩ : Material ℝ) bareConfig := by
    intro T th
    simp only [NonDefault, Key.eq, Key.default, Projectile.eq, Projectile.default]
    simp
    intro h
    norm_num at h
  obtain ⟨rs, f, T, d, hT1, hT2, -, hsm, hdata⟩ :=
    smooth_range env _ 6 _ _ (hcb 100 1) hu (hnd 100 1) 300 (by norm_num) (by norm_num)
  obtain ⟨hb1, hb2⟩ := table_around_100
  obtain ⟨δ, hδ, hout⟩ := thin_energy_out hsm
  have hd := abs_pos.mpr hsm.ne
  obtain ⟨th, h0, h1, h2⟩ : ∃ th : ℝ, 0 < th ∧ th < δ ∧ th / |d| < 1 := by
    refine ⟨min (δ / 2) (|d| / 2), by positivity, ?_, ?_⟩
    · have := min_le_left (δ / 2) (|d| / 2)
      linarith
    · rw [div_lt_one hd]
      have := min_le_right (δ / 2) (|d| / 2)
      linarith
  have habs : |th / d| < 1 := by rwa [abs_div, abs_of_pos h0]
  obtain ⟨ha1, ha2⟩ := abs_lt.mp habs
  have hne : T - th / d ≠ T := by
    intro h
    have : th / d = 0 := by linarith
    exact (div_ne_zero h0.ne' hsm.ne) this
  obtain ⟨dd, wd, hg, hrs⟩ := hdata .init ⟨[], rfl⟩ T th
  have hEo : energy_out env ⟨12, 6, 0, T⟩
      (⟨1, th, 18.015, 0, [⟨1.00794, 1, 2⟩, ⟨15.9994, 8, 1⟩]⟩ : Material ℝ) bareConfig .init =
      .ok (T - th / d, wd) := by
    unfold energy_out
    simp only [api_bind, api_pureM, ok_bind]
    exact ⟨dd, wd, hg, ⟨rs, hrs, hout th h0.le h1 _⟩, rfl⟩
  obtain ⟨r, w', hr⟩ := calculate_succeeds env hdbg .init ⟨[], rfl⟩ ⟨12, 6, 0, T⟩ 6
    (⟨1, th, 18.015, 0, [⟨1.00794, 1, 2⟩, ⟨15.9994, 8, 1⟩]⟩ : Material ℝ) bareConfig (hcb T th) (hcd T th)
    (hnd T th) (fun h => by simp [bareConfig, Config.default, scattering_gottschalk, scattering_fermi_rossi] at h) (below_top T (by norm_num; linarith)) (fun E w'' h => by
      rw [hEo] at h
      cases h
      exact below_top _ (by norm_num; linarith))
  have hslow : ((T <? Ezero) && (T <? Ezero - numeric_epsilon)) = false := by
    rw [Bool.and_eq_false_iff]
    left
    rw [Bool.eq_false_iff, ne_eq, lt_real]
    unfold Ezero
    norm_num
    linarith
  have hth0 : (th =? 0.0) = false := by
    rw [Bool.eq_false_iff, ne_eq, beq_real]
    norm_num
    exact h0.ne'
  obtain ⟨w1, -, -, -, hE⟩ := calculate_agrees env _ _ _ _ _ r hslow hr
  have hE' := hE hth0
  rw [hEo] at hE'
  have hEr : r.Eout = T - th / d := by
    injection hE' with h
    injection h with h _
    exact h.symm
  have hr3 : 1e-3 ≤ r.Eout := by rw [hEr]; norm_num; linarith
  obtain ⟨htof, -⟩ := calculate_tof_partial env _ _ _ _ _ r ⟨[], rfl⟩ (by norm_num; linarith) h0.ne' hr hr3
  obtain ⟨I1, I2, hI1, hI2, hI⟩ := integrator_ne
    (tofIntegrand env ⟨12, 6, 0, T⟩
      (⟨1, th, 18.015, 0, [⟨1.00794, 1, 2⟩, ⟨15.9994, 8, 1⟩]⟩ : Material ℝ) .default)
    (tofIntegrand env ⟨12, 6, 0, T⟩
      (⟨1, th, 18.015, 0, [⟨1.00794, 1, 2⟩, ⟨15.9994, 8, 1⟩]⟩ : Material ℝ) bareConfig)
    r.Eout T 30 50000 (by rw [hEr]; exact hne) (by rw [hEr]; constructor <;> linarith)
    ⟨by linarith, by linarith⟩ (fun x hx1 hx2 => by
      obtain ⟨v1, v2, e1, e2, p1, p2⟩ := neutral_stops_less env x hx1 hx2
      have hbeta := (gamma_beta_bounds x (by linarith)).2.1
      refine ⟨1.0 / (v2 * beta_from_T x), 1.0 / (v1 * beta_from_T x), ?_, ?_, ?_⟩
      · show (do return 1.0 / ((← dedx env ⟨12, 6, 0, x⟩ (⟨1, 1, 18.015, 0, [⟨1.00794, 1, 2⟩, ⟨15.9994, 8, 1⟩]⟩ : Material ℝ) .default) * beta_from_T x) : M ℝ) = _
        rw [e2]; rfl
      · show (do return 1.0 / ((← dedx env ⟨12, 6, 0, x⟩ (⟨1, 1, 18.015, 0, [⟨1.00794, 1, 2⟩, ⟨15.9994, 8, 1⟩]⟩ : Material ℝ) bareConfig) * beta_from_T x) : M ℝ) = _
        rw [e1]; rfl
      · apply div_lt_div_of_pos_left (by norm_num) (by positivity)
        exact mul_lt_mul_of_pos_right p2 hbeta)
  refine ⟨_, _, _, r, w', I2 * 10.0 * 12 / (c_light * 1), hr, by norm_num; linarith, h0.ne', hr3, ?_, ?_⟩
  · unfold calculate_tof_from_E
    rw [hI2]; rfl
  · intro heq
    unfold calculate_tof_from_E at htof
    change ((integrator.integrate _ _ _ : M ℝ) >>= _) = _ at htof
    rw [show (World.init : World ℝ).default_config = .default from rfl, hI1, bind_ok] at htof
    have : I1 * 10.0 * 12 / (c_light * 1) = r.tof := by injection htof
    rw [heq] at this
    have hcl : (c_light : ℝ) ≠ 0 := by norm_num [c_light]
    field_simp at this
    exact hI (by linarith)

end Catima
