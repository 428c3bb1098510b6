import Verif.Lemmas.BethePositive
import Verif.Props.CalculateDefined
import Verif.Props.Flight

/-!
# C88: the stopping power is positive at every energy, and what follows from it
-/

namespace Catima

theorem energy_table_pos (k : Nat) : 0 < (energy_table : EnergyTable ℝ).val k := by
  rw [EnergyTable.val_eq]; exact Real.exp_pos _

theorem pierce_blann_pos (z b : ℝ) (hz : 0 < z) (hb : 0 < b) : 0 < z_eff_Pierce_Blann z b := by
  rw [pierce_blann_eq]
  have hk := pierce_rate_pos z hz
  generalize 0.95 * fine_structure_inverted / z ^ ((2 : ℝ) / 3) = k at hk
  have h1 : Real.exp (-(k * b)) < 1 := by
    rw [Real.exp_lt_one_iff]
    have := mul_pos hk hb
    linarith
  exact mul_pos hz (by linarith)

/-- C88 for the Bethe formula: from 10 MeV/u on it is defined and not negative, and strictly positive
unless the effective charge vanishes, for every combination of corrections. -/
theorem bethe_nonneg (env : Env ℝ) (p : Projectile ℝ) (n : Int) (m : Material ℝ) (c : Config ℝ)
    (h : Computable p n m c) (hu : Usual p n m) (hT : 10 ≤ p.T) (hr : LindhardReadable p.T) :
    ∃ v, bethek_dedx_e env p m c = .ok v ∧ 0 ≤ v ∧ (c.z_effective = 1 ∨ 0 < p.Q → 0 < v) := by
  have hZ := h.posZ
  have hT0 : 0 < p.T := by linarith
  obtain ⟨g, hg⟩ := exists_values m.atoms
      (fun t => bethek_dedx_e_target env p t c m.i_potential)
      (fun v => 0 ≤ v ∧ (c.z_effective = 1 ∨ 0 < p.Q → 0 < v)) fun t ht => by
        obtain ⟨z, hz, hz0, hz1⟩ : ∃ z, z_effective env.debug p t c = .ok z ∧ 0 ≤ z ∧
            (c.z_effective = 1 ∨ 0 < p.Q → 0 < z) := by
          rcases h.charge with hc | ⟨hc, hq⟩
          · have := pierce_blann_bounds p.Z _ hZ (gamma_beta_bounds p.T hT0).2.1.le
            refine ⟨_, (z_effective_basic env.debug p t c).2 hc, this.1, fun _ => ?_⟩
            exact pierce_blann_pos p.Z _ hZ (gamma_beta_bounds p.T hT0).2.1
          · refine ⟨_, (z_effective_basic env.debug p t c).1 hc, hq, fun h => ?_⟩
            rcases h with h | h
            · omega
            · exact h
        obtain ⟨v, hv, hv0, hv1⟩ := bethe_target_nonneg env h.ion h.small hu.mass t (h.sound.Z t ht)
          (h.sound.A t ht) c m.i_potential hT hr z hz hz0 (hu.excitation t ht)
        exact ⟨v, hv, hv0, fun h => hv1 (hz1 h)⟩
  refine ⟨_, componentSum_ok m _ g fun t ht => (hg t ht).1, ?_, fun hq => ?_⟩
  · exact sum_nonneg_map _ _ fun t ht => mul_nonneg (m.wfrac_pos h.sound t ht).le (hg t ht).2.1
  · exact sum_pos_of_forall _ _ (fun t ht => mul_pos (m.wfrac_pos h.sound t ht) ((hg t ht).2.2 hq))
      h.sound.nonempty

/-- C88: the stopping power is defined and strictly positive at every positive energy, for every ion
up to Z = 108 of at most five atomic weights, every material with usual mean excitation energies,
every combination of corrections, both low-energy models and both builds. -/
theorem stopping_positive (env : Env ℝ) (p : Projectile ℝ) (n : Int) (m : Material ℝ) (c : Config ℝ)
    (h : Computable p n m c) (hu : Usual p n m) (h0 : 0 < p.T) (hr : LindhardReadable p.T) :
    ∃ v, dedx env p m c = .ok v ∧ 0 < v := by
  rcases le_or_gt p.T 10 with h1 | h1
  · exact stopping_positive_low env p n h.ion m h.sound c h0 h1
  obtain ⟨a, ha, -, ha1⟩ := nuclear_nonneg env.debug p h.posZ h.ion.A m h.sound
  obtain ⟨b, hb, hb0⟩ := sezi_pos h.ion h.sound c h0
  obtain ⟨e, he, he0, -⟩ := bethe_nonneg env p n m c h hu h1.le hr
  have ha0 : 0 < a := ha1.mpr h0
  rw [dedx_eq env p m c h0, ha]
  unfold electronic
  rw [if_neg (by rw [le_real]; norm_num; exact h1)]
  by_cases h3 : p.T < 30
  · rw [if_pos (by rw [Bool.and_eq_true, lt_real, lt_real]; norm_num; exact ⟨h1, h3⟩), hb, he]
    refine ⟨_, rfl, ?_⟩
    norm_num
    have h4 : 0 ≤ 1 - 1 / 20 * (p.T - 10) := by linarith
    have h5 : 0 ≤ 1 / 20 * (p.T - 10) := by linarith
    have := mul_nonneg h4 hb0.le
    have := mul_nonneg h5 he0
    linarith
  · rw [if_neg (by rw [Bool.and_eq_true, lt_real, lt_real]; norm_num; intro; linarith), he]
    exact ⟨_, rfl, by linarith⟩

/-- Carbon in water at 290 MeV/u meets the hypotheses. -/
theorem carbon_water_usual (q T : ℝ) : Computable ⟨12, 6, q, T⟩ 6
      (⟨1, 1, 18.015, 0, [⟨1.00794, 1, 2⟩, ⟨15.9994, 8, 1⟩]⟩ : Material ℝ) .default ∧
    Usual ⟨12, 6, q, T⟩ 6 (⟨1, 1, 18.015, 0, [⟨1.00794, 1, 2⟩, ⟨15.9994, 8, 1⟩]⟩ : Material ℝ) := by
  refine ⟨⟨⟨by norm_num, by norm_num, by norm_num, by norm_num⟩, by norm_num,
    ⟨by simp, by simp, by simp; norm_num, by simp, by norm_num⟩, by simp, Or.inl rfl⟩, ?_, ?_⟩
  · have : (element_atomic_weight 6 : ℝ) = (Dec.toScalar ⟨120107, 4⟩ : ℝ) := rfl
    rw [this, Dec.toScalar_real]; norm_num
  · simp [TypicalI]

example (env : Env ℝ) (q : ℝ) : ∃ v, dedx env ⟨12, 6, q, 290⟩
    (⟨1, 1, 18.015, 0, [⟨1.00794, 1, 2⟩, ⟨15.9994, 8, 1⟩]⟩ : Material ℝ) .default = .ok v ∧ 0 < v :=
  stopping_positive env _ 6 _ _ (carbon_water_usual q 290).1 (carbon_water_usual q 290).2
    (by norm_num) (Or.inl (below_top 290 (by norm_num)))

theorem Usual.withT {p : Projectile ℝ} {n : Int} {m : Material ℝ} (h : Usual p n m) (x : ℝ) :
    Usual (p.withT x) n m := ⟨h.mass, h.excitation⟩

theorem stopping_positive_at (env : Env ℝ) (p : Projectile ℝ) (n : Int) (m : Material ℝ) (c : Config ℝ)
    (h : Computable p n m c) (hu : Usual p n m) (x : ℝ) (h0 : 0 < x) (hr : LindhardReadable x) :
    ∃ v, dedx env (p.withT x) m c = .ok v ∧ 0 < v :=
  stopping_positive env (p.withT x) n m c (h.withT x) (hu.withT x) h0 hr

/-- C48 without a condition on the stopping power: the range table has 600 entries, starts at 0 and is
strictly increasing. -/
theorem range_table_strict (env : Env ℝ) (p : Projectile ℝ) (n : Int) (m : Material ℝ) (c : Config ℝ)
    (h : Computable p n m c) (hu : Usual p n m) :
    ∃ d, calculate_DataPoint env p m c = .ok d ∧ d.range.length = 600 ∧ d.range[0]? = some 0 ∧
      d.range.Pairwise (· < ·) := by
  obtain ⟨d, hd, -⟩ := data_point_defined env p n m c h
  refine ⟨d, hd, range_table_increasing env p n m c h (fun x hx _ hr v hv => ?_) d hd⟩
  obtain ⟨v', hv', h0⟩ := stopping_positive_at env p n m c h hu x (by
    have := energy_table_pos 0
    linarith) hr
  rw [hv] at hv'
  cases hv'
  exact h0

/-- C48 without a condition on the stopping power: the angular variance table starts at 0 and does not
decrease. -/
theorem angular_table_nondecreasing (env : Env ℝ) (p : Projectile ℝ) (n : Int) (m : Material ℝ)
    (c : Config ℝ) (h : Computable p n m c) (hu : Usual p n m) (hsf : 0 ≤ c.scattering_factor) :
    ∃ d, calculate_DataPoint env p m c = .ok d ∧ d.angular_variance.length = 600 ∧
      d.angular_variance[0]? = some 0 ∧ d.angular_variance.Pairwise (· ≤ ·) := by
  obtain ⟨d, hd, -⟩ := data_point_defined env p n m c h
  refine ⟨d, hd, angular_table_monotone env p n m c h hsf (fun x hx _ hr v hv => ?_) d hd⟩
  obtain ⟨v', hv', h0⟩ := stopping_positive_at env p n m c h hu x (by
    have := energy_table_pos 0
    linarith) hr
  rw [hv] at hv'
  cases hv'
  exact h0

/-- C58 without a condition on the stopping power: the time of flight is positive whenever energy is
lost. -/
theorem tof_positive (env : Env ℝ) (p : Projectile ℝ) (n : Int) (m : Material ℝ) (c : Config ℝ)
    (h : Computable p n m c) (hu : Usual p n m) (hrho : 0 < m.rho) (E : ℝ) (h0 : 0 ≤ E) (hE : E < p.T)
    (hT : p.T ≤ 9.8e6) : ∃ r, calculate_tof_from_E env p E m c = .ok r ∧ 0 < r :=
  tof_nonneg env p m c E h.ion.A hrho h0 hE fun x h1 h2 =>
    stopping_positive_at env p n m c h hu x (by linarith) (Or.inl (below_top x (by linarith)))

/-- Carbon slowing down from 290 to 100 MeV/u in water takes a positive time. -/
example (env : Env ℝ) (q : ℝ) : ∃ r, calculate_tof_from_E env ⟨12, 6, q, 290⟩ 100
    (⟨1, 1, 18.015, 0, [⟨1.00794, 1, 2⟩, ⟨15.9994, 8, 1⟩]⟩ : Material ℝ) .default = .ok r ∧ 0 < r :=
  tof_positive env _ 6 _ _ (carbon_water_usual q 290).1 (carbon_water_usual q 290).2 (by norm_num) 100
    (by norm_num) (by norm_num) (by norm_num)

end Catima
