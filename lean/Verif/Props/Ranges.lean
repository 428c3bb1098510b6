import Verif.Lemmas.Ranges

/-!
# C48: the tables of ranges, range straggling and angular variance
-/

namespace Catima

/-- The tables are computed without a fault: every ion up to Z = 108, every sound material with
elements up to Z = 120, default effective charge or given charge, any build. -/
theorem data_point_defined (env : Env ℝ) (p : Projectile ℝ) (n : Int) (m : Material ℝ) (c : Config ℝ)
    (h : Computable p n m c) :
    ∃ d, calculate_DataPoint env p m c = .ok d ∧ d.range.length = 600 ∧
      d.range_straggling.length = 600 ∧ d.angular_variance.length = 600 := by
  have hb := energy_table_bounds
  have ord : ∀ k, (energy_table : EnergyTable ℝ).val k ≤ (energy_table : EnergyTable ℝ).val (k + 1) :=
    fun k => (EnergyTable.val_le_iff _ hb.1 hb.2.1 k (k + 1)).mpr (by omega)
  have hd : ∀ x, 0 < x → LindhardReadable x → ∃ v, dedx env (p.withT x) m c = .ok v := h.dedx env
  have h1 : ∀ k < 599, ∃ I, integrator.integrate (fdedx env p m c) ((energy_table : EnergyTable ℝ).val k)
      ((energy_table : EnergyTable ℝ).val (k + 1)) = .ok I := fun k hk =>
    integrator_defined _ _ _ (ord k) fun x hx => by
      obtain ⟨-, -, -, -, h0, hr⟩ := inner_grid k hk x hx
      obtain ⟨v, hv⟩ := hd x h0 hr
      unfold fdedx
      rw [hv]
      exact ⟨_, rfl⟩
  have h2 : ∀ k < 599, ∃ I, integrator.integrate (ftheta env p m c) ((energy_table : EnergyTable ℝ).val k)
      ((energy_table : EnergyTable ℝ).val (k + 1)) = .ok I := fun k hk =>
    integrator_defined _ _ _ (ord k) fun x hx => by
      obtain ⟨-, -, -, -, h0, hr⟩ := inner_grid k hk x hx
      obtain ⟨v, hv⟩ := hd x h0 hr
      unfold ftheta da2de
      rw [hv]
      exact ⟨_, rfl⟩
  have h3 : ∀ k < 599, ∃ I, integrator.integrate (fomega env p m c) ((energy_table : EnergyTable ℝ).val k)
      ((energy_table : EnergyTable ℝ).val (k + 1)) = .ok I := fun k hk =>
    integrator_defined _ _ _ (ord k) fun x hx => by
      obtain ⟨-, -, -, -, h0, hr⟩ := inner_grid k hk x hx
      obtain ⟨v, hv⟩ := hd x h0 hr
      obtain ⟨w, hw⟩ := h.variance env x hr
      unfold fomega
      rw [hv, hw]
      exact ⟨_, rfl⟩
  obtain ⟨r1, g1⟩ := cumulative_inv 599 energy_table _ h1
  obtain ⟨r2, g2⟩ := cumulative_inv 599 energy_table _ h2
  obtain ⟨r3, g3⟩ := cumulative_inv 599 energy_table _ h3
  obtain ⟨l1, e1, n1, -⟩ := cumulative_ok 599 p.A energy_table _ r1 g1
  obtain ⟨l2, e2, n2, -⟩ := cumulative_ok 599 p.A energy_table _ r2 g2
  obtain ⟨l3, e3, n3, -⟩ := cumulative_ok 599 p.A energy_table _ r3 g3
  refine ⟨⟨p, m, c, l1, l3, l2, none⟩, ?_, n1, n3, n2⟩
  unfold calculate_DataPoint
  have hn : max_datapoints - 1 = 599 := rfl
  simp only [hn, e1, e2, e3, bind_ok]
  rfl

/-- What an entry of a table adds to the previous one. -/
theorem table_step (A : ℝ) (f : ℝ → M ℝ) (l : List ℝ) (hl : cumulative 599 A energy_table f = .ok l)
    (I : Nat → ℝ) (hI : ∀ k < 599, integrator.integrate f ((energy_table : EnergyTable ℝ).val k)
      ((energy_table : EnergyTable ℝ).val (k + 1)) = .ok (I k)) :
    l.length = 600 ∧ l[0]? = some 0 ∧
      ∀ k < 599, ∃ a b, l[k]? = some a ∧ l[k + 1]? = some b ∧ b - a = A * I k := by
  obtain ⟨l', e, n, z, s⟩ := cumulative_ok 599 A energy_table f I hI
  rw [hl] at e
  cases e
  refine ⟨n, z, fun k hk => ?_⟩
  obtain ⟨a, b, ha, hb, hab⟩ := s k hk
  exact ⟨a, b, ha, hb, by rw [hab]; ring⟩

theorem data_point_parts (env : Env ℝ) (p : Projectile ℝ) (m : Material ℝ) (c : Config ℝ)
    (d : DataPoint ℝ) (hd : calculate_DataPoint env p m c = .ok d) :
    cumulative 599 p.A energy_table (fdedx env p m c) = .ok d.range ∧
    cumulative 599 p.A energy_table (ftheta env p m c) = .ok d.angular_variance ∧
    cumulative 599 p.A energy_table (fomega env p m c) = .ok d.range_straggling := by
  unfold calculate_DataPoint at hd
  have hn : max_datapoints - 1 = 599 := rfl
  rw [hn] at hd
  dsimp only at hd
  cases e1 : cumulative 599 p.A energy_table (fdedx env p m c) <;> rw [e1] at hd
  · cases hd
  cases e2 : cumulative 599 p.A energy_table (ftheta env p m c) <;> rw [e2] at hd
  · cases hd
  cases e3 : cumulative 599 p.A energy_table (fomega env p m c) <;> rw [e3] at hd
  · cases hd
  cases hd
  exact ⟨rfl, rfl, rfl⟩

/-- C48 for ranges: if the stopping power is positive on the grid, the range table has 600 entries,
starts at 0 and is strictly increasing. -/
theorem range_table_increasing (env : Env ℝ) (p : Projectile ℝ) (n : Int) (m : Material ℝ)
    (c : Config ℝ) (h : Computable p n m c)
    (hpos : ∀ x, (energy_table : EnergyTable ℝ).val 0 ≤ x → x ≤ (energy_table : EnergyTable ℝ).val 599 →
      LindhardReadable x → ∀ v, dedx env (p.withT x) m c = .ok v → 0 < v)
    (d : DataPoint ℝ) (hd : calculate_DataPoint env p m c = .ok d) :
    d.range.length = 600 ∧ d.range[0]? = some 0 ∧ d.range.Pairwise (· < ·) := by
  have hb := energy_table_bounds
  have ord : ∀ k, (energy_table : EnergyTable ℝ).val k < (energy_table : EnergyTable ℝ).val (k + 1) :=
    fun k => (EnergyTable.val_lt_iff _ hb.1 hb.2.1 k (k + 1)).mpr (by omega)
  have key : ∀ k < 599, ∃ I, integrator.integrate (fdedx env p m c) ((energy_table : EnergyTable ℝ).val k)
      ((energy_table : EnergyTable ℝ).val (k + 1)) = .ok I ∧ 0 < I := fun k hk =>
    integrator_pos _ _ _ (ord k) fun x hx => by
      obtain ⟨-, -, ha, hb, h0, hr⟩ := inner_grid k hk x hx
      obtain ⟨v, hv⟩ := h.dedx env x h0 hr
      have := hpos x ha hb hr v hv
      unfold fdedx
      rw [hv]
      refine ⟨_, rfl, ?_⟩
      positivity
  choose! I hI hI0 using key
  obtain ⟨hl, hz, hs⟩ := table_step p.A _ _ (data_point_parts env p m c d hd).1 I hI
  refine ⟨hl, hz, pairwise_of_neighbours _ fun k hk => ?_⟩
  obtain ⟨a, b, ha, hb, hab⟩ := hs k (by omega)
  exact ⟨a, b, ha, hb, by have := mul_pos h.ion.A (hI0 k (by omega)); linarith⟩

/-- C48 for angular variances: non-decreasing from 0, for non-negative scattering factors. -/
theorem angular_table_monotone (env : Env ℝ) (p : Projectile ℝ) (n : Int) (m : Material ℝ)
    (c : Config ℝ) (h : Computable p n m c) (hsf : 0 ≤ c.scattering_factor)
    (hpos : ∀ x, (energy_table : EnergyTable ℝ).val 0 ≤ x → x ≤ (energy_table : EnergyTable ℝ).val 599 →
      LindhardReadable x → ∀ v, dedx env (p.withT x) m c = .ok v → 0 < v)
    (d : DataPoint ℝ) (hd : calculate_DataPoint env p m c = .ok d) :
    d.angular_variance.length = 600 ∧ d.angular_variance[0]? = some 0 ∧
      d.angular_variance.Pairwise (· ≤ ·) := by
  have hb := energy_table_bounds
  have ord : ∀ k, (energy_table : EnergyTable ℝ).val k ≤ (energy_table : EnergyTable ℝ).val (k + 1) :=
    fun k => (EnergyTable.val_le_iff _ hb.1 hb.2.1 k (k + 1)).mpr (by omega)
  have key : ∀ k < 599, ∃ I, integrator.integrate (ftheta env p m c) ((energy_table : EnergyTable ℝ).val k)
      ((energy_table : EnergyTable ℝ).val (k + 1)) = .ok I ∧ 0 ≤ I := fun k hk =>
    integrator_nonneg _ _ _ (ord k) fun x hx => by
      obtain ⟨-, -, ha, hb, h0, hr⟩ := inner_grid k hk x hx
      obtain ⟨v, hv⟩ := h.dedx env x h0 hr
      have hv0 := hpos x ha hb hr v hv
      unfold ftheta da2de
      rw [hv]
      refine ⟨_, rfl, div_nonneg (mul_nonneg hsf ?_) hv0.le⟩
      exact angular_power_nonneg _ m h.sound (fun t ht => (h.known t ht).trans (by norm_num)) _
        (Es2_nonneg c)
  choose! I hI hI0 using key
  obtain ⟨hl, hz, hs⟩ := table_step p.A _ _ (data_point_parts env p m c d hd).2.1 I hI
  refine ⟨hl, hz, pairwise_of_neighbours _ fun k hk => ?_⟩
  obtain ⟨a, b, ha, hb, hab⟩ := hs k (by omega)
  exact ⟨a, b, ha, hb, by have := mul_nonneg h.ion.A.le (hI0 k (by omega)); linarith⟩

/-- C48 for range straggling, the part that holds: from 0, and non-decreasing on every stretch of
the table on which the tabulated X correction is non-negative.  Missing: the rest, see
`straggling_table_decreases`. -/
theorem straggling_table_partial (env : Env ℝ) (p : Projectile ℝ) (n : Int) (m : Material ℝ)
    (c : Config ℝ) (h : Computable p n m c) (N : Nat) (hN : N ≤ 599)
    (hX : ∀ x, (energy_table : EnergyTable ℝ).val 0 ≤ x → x ≤ (energy_table : EnergyTable ℝ).val N →
      ∀ X, precalculated_lindhard_X env.calcIndex (p.withT x) = .ok X → 0 ≤ X)
    (d : DataPoint ℝ) (hd : calculate_DataPoint env p m c = .ok d) :
    d.range_straggling.length = 600 ∧ d.range_straggling[0]? = some 0 ∧
      (d.range_straggling.take (N + 1)).Pairwise (· ≤ ·) := by
  have hb := energy_table_bounds
  have ord : ∀ k, (energy_table : EnergyTable ℝ).val k ≤ (energy_table : EnergyTable ℝ).val (k + 1) :=
    fun k => (EnergyTable.val_le_iff _ hb.1 hb.2.1 k (k + 1)).mpr (by omega)
  have hdef : ∀ k < 599, ∃ I, integrator.integrate (fomega env p m c) ((energy_table : EnergyTable ℝ).val k)
      ((energy_table : EnergyTable ℝ).val (k + 1)) = .ok I := fun k hk =>
    integrator_defined _ _ _ (ord k) fun x hx => by
      obtain ⟨-, -, -, -, h0, hr⟩ := inner_grid k hk x hx
      obtain ⟨v, hv⟩ := h.dedx env x h0 hr
      obtain ⟨w, hw⟩ := h.variance env x hr
      unfold fomega
      rw [hv, hw]
      exact ⟨_, rfl⟩
  choose! I hI using hdef
  have hnn : ∀ k < N, 0 ≤ I k := fun k hk => by
    obtain ⟨I', hI', h0'⟩ := integrator_nonneg (fomega env p m c) _ _ (ord k) fun x hx => by
      obtain ⟨ha, hb', h00, -, h0, hr⟩ := inner_grid k (by omega) x hx
      obtain ⟨v, hv⟩ := h.dedx env x h0 hr
      have hkN := (EnergyTable.val_le_iff (energy_table : EnergyTable ℝ) hb.1 hb.2.1 (k + 1) N).mpr (by omega)
      obtain ⟨X, hXe⟩ := lindhard_X_defined env.calcIndex (withT_ion h.ion x) h.small hr
      have hX0 := hX x h00 (by linarith) X hXe
      obtain ⟨w, hw, hw0⟩ := straggling_nonneg env (p.withT x) m h.sound c X
        (fun t _ => h.zeff env.debug x t) hXe hX0 h0.le (h.withT x).posZ.le
      unfold fomega
      rw [hv, hw]
      exact ⟨_, rfl, div_nonneg hw0 (Real.exp_pos _).le⟩
    rw [hI k (by omega)] at hI'
    cases hI'
    exact h0'
  obtain ⟨hl, hz, hs⟩ := table_step p.A _ _ (data_point_parts env p m c d hd).2.2 I hI
  refine ⟨hl, hz, pairwise_of_neighbours _ fun k hk => ?_⟩
  rw [List.length_take] at hk
  obtain ⟨a, b, ha, hb, hab⟩ := hs k (by omega)
  refine ⟨a, b, by rw [List.getElem?_take_of_lt (by omega)]; exact ha,
    by rw [List.getElem?_take_of_lt (by omega)]; exact hb, ?_⟩
  have := mul_nonneg h.ion.A.le (hnn k (by omega))
  linarith

/-- Entry 478 of the energy table (95 GeV/u) is below the energy up to which X is known to be
non-negative, and entries 564, 565 are inside the interval of negative X for helium-3. -/
theorem grid_positions :
    (energy_table : EnergyTable ℝ).val 478 ≤ (ls_energy_table : EnergyTable ℝ).val 142 ∧
    (ls_energy_table : EnergyTable ℝ).val 182 ≤ (energy_table : EnergyTable ℝ).val 564 ∧
    (energy_table : EnergyTable ℝ).val 565 ≤ (ls_energy_table : EnergyTable ℝ).val 183 := by
  have hs : (ls_energy_table : EnergyTable ℝ).step = 7 / 199 := by
    rw [EnergyTable.step_eq]; norm_num [ls_energy_table]
  have hs' : (energy_table : EnergyTable ℝ).step = 10 / 599 := by
    rw [EnergyTable.step_eq]; norm_num [energy_table, logEmin, logEmax, max_datapoints]
  simp only [EnergyTable.val_eq, hs, hs', Real.exp_le_exp]
  norm_num [energy_table, ls_energy_table, logEmin, LN10]

/-- C48 for range straggling: up to 95 GeV/u (entry 478) the table is non-decreasing for every ion
with at most three times the atomic weight of its element. -/
theorem straggling_table_low_partial (env : Env ℝ) (p : Projectile ℝ) (n : Int) (m : Material ℝ)
    (c : Config ℝ) (h : Computable p n m c) (hA : p.A ≤ 3 * element_atomic_weight n)
    (d : DataPoint ℝ) (hd : calculate_DataPoint env p m c = .ok d) :
    (d.range_straggling.take 479).Pairwise (· ≤ ·) := by
  refine (straggling_table_partial env p n m c h 478 (by norm_num) ?_ d hd).2.2
  intro x _ hx X hX
  obtain ⟨X', hX', h0⟩ := lindhard_X_low_partial env.calcIndex (p.withT x) n (withT_ion h.ion x) h.small hA
    (hx.trans grid_positions.1)
  rw [hX] at hX'
  cases hX'
  exact h0

/-- C48, refuted for range straggling: for helium-3 in every sound material the straggling table
decreases from entry 564 to 565 (2.6 TeV/u). -/
theorem straggling_table_decreases (env : Env ℝ) (q T : ℝ) (m : Material ℝ) (c : Config ℝ)
    (hc : c.z_effective = 1) (h : Computable ⟨3.016, 2, q, T⟩ 2 m c)
    (d : DataPoint ℝ) (hd : calculate_DataPoint env ⟨3.016, 2, q, T⟩ m c = .ok d) :
    ∃ a b, d.range_straggling[564]? = some a ∧ d.range_straggling[565]? = some b ∧ b < a := by
  have hb := energy_table_bounds
  have ord : ∀ k, (energy_table : EnergyTable ℝ).val k < (energy_table : EnergyTable ℝ).val (k + 1) :=
    fun k => (EnergyTable.val_lt_iff _ hb.1 hb.2.1 k (k + 1)).mpr (by omega)
  set p : Projectile ℝ := ⟨3.016, 2, q, T⟩ with hp
  have hdef : ∀ k < 599, ∃ I, integrator.integrate (fomega env p m c) ((energy_table : EnergyTable ℝ).val k)
      ((energy_table : EnergyTable ℝ).val (k + 1)) = .ok I := fun k hk =>
    integrator_defined _ _ _ (ord k).le fun x hx => by
      obtain ⟨-, -, -, -, h0, hr⟩ := inner_grid k hk x hx
      obtain ⟨v, hv⟩ := h.dedx env x h0 hr
      obtain ⟨w, hw⟩ := h.variance env x hr
      unfold fomega
      rw [hv, hw]
      exact ⟨_, rfl⟩
  choose! I hI using hdef
  have hneg : I 564 < 0 := by
    obtain ⟨I', hI', h0'⟩ := integrator_neg (fomega env p m c) _ _ (ord 564)
      fun x hx => by
        obtain ⟨ha, hb', -, -, h0, hr⟩ := inner_grid 564 (by norm_num) x hx
        obtain ⟨v, hv⟩ := h.dedx env x h0 hr
        have hgap := energy_gap 564
        unfold Inner at hx
        have hx1 : (ls_energy_table : EnergyTable ℝ).val 182 ≤ x := grid_positions.2.1.trans ha
        have hx2 : x < (ls_energy_table : EnergyTable ℝ).val 183 - 10 * 2⁻¹ ^ 52 := by
          have := grid_positions.2.2
          norm_num at hgap this hx ⊢
          linarith [hx.2]
        obtain ⟨g, hg⟩ := exists_values m.atoms (fun t => dedx_variance env (p.withT x) t c)
          (fun v => v < 0) fun t ht =>
            variance_negative env x q hx1 hx2 t (h.sound.Z t ht) (h.sound.A t ht) c hc
        have hsum := componentSum_ok m (fun t => dedx_variance env (p.withT x) t c) g
          fun t ht => (hg t ht).1
        have hs := sum_neg_of_forall m.atoms (fun t => m.wfrac t * g t) (fun t ht =>
          mul_neg_of_pos_of_neg (m.wfrac_pos h.sound t ht) (hg t ht).2) h.sound.nonempty
        have hw : domega2dx env (p.withT x) m c = .ok (m.atoms.map fun t => m.wfrac t * g t).sum := hsum
        unfold fomega
        rw [hv, hw]
        refine ⟨_, rfl, ?_⟩
        exact div_neg_of_neg_of_pos hs (Real.exp_pos _)
    rw [hI 564 (by norm_num)] at hI'
    cases hI'
    exact h0'
  obtain ⟨hl, hz, hs⟩ := table_step p.A _ _ (data_point_parts env p m c d hd).2.2 I hI
  obtain ⟨a, b, ha, hb, hab⟩ := hs 564 (by norm_num)
  refine ⟨a, b, ha, hb, ?_⟩
  have : p.A * I 564 < 0 := mul_neg_of_pos_of_neg h.ion.A hneg
  linarith

/-- Protons in water, with the default configuration. -/
theorem proton_water_computable : Computable ⟨1.00794, 1, 1, 100⟩ 1
    (⟨1, 1, 18.015, 0, [⟨1.00794, 1, 2⟩, ⟨15.9994, 8, 1⟩]⟩ : Material ℝ) .default where
  ion := ⟨by norm_num, by norm_num, by norm_num, by norm_num⟩
  small := by norm_num
  sound := ⟨by simp, by simp, by simp; norm_num, by simp, by norm_num⟩
  known := by simp
  charge := Or.inl rfl

/-- The tables of a proton in water exist and the first 479 entries of the straggling table do not
decrease. -/
example (env : Env ℝ) : ∃ d, calculate_DataPoint env ⟨1.00794, 1, 1, 100⟩
    (⟨1, 1, 18.015, 0, [⟨1.00794, 1, 2⟩, ⟨15.9994, 8, 1⟩]⟩ : Material ℝ) .default = .ok d ∧
      (d.range_straggling.take 479).Pairwise (· ≤ ·) := by
  obtain ⟨d, hd, -⟩ := data_point_defined env _ 1 _ _ proton_water_computable
  refine ⟨d, hd, straggling_table_low_partial env _ 1 _ _ proton_water_computable ?_ d hd⟩
  have : element_atomic_weights[1]? = some ⟨100794, 5⟩ := rfl
  norm_num [element_atomic_weight, this, Dec.toScalar]

/-- The refutation of the straggling table applies to He-3 in carbon. -/
example (env : Env ℝ) : ∃ d a b, calculate_DataPoint env ⟨3.016, 2, 2, 100⟩
    (⟨2, 1, 12, 0, [⟨12, 6, 1⟩]⟩ : Material ℝ) .default = .ok d ∧
      d.range_straggling[564]? = some a ∧ d.range_straggling[565]? = some b ∧ b < a := by
  have h : Computable ⟨3.016, 2, 2, 100⟩ 2 (⟨2, 1, 12, 0, [⟨12, 6, 1⟩]⟩ : Material ℝ) .default :=
    ⟨⟨by norm_num, by norm_num, by norm_num, by norm_num⟩, by norm_num,
      ⟨by simp, by simp, by simp, by simp, by norm_num⟩, by simp, Or.inl rfl⟩
  obtain ⟨d, hd, -⟩ := data_point_defined env _ 2 _ _ h
  obtain ⟨a, b, r⟩ := straggling_table_decreases env 2 100 _ .default rfl h d hd
  exact ⟨d, a, b, hd, r⟩

end Catima
