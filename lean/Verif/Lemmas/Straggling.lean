import Verif.Props.Witness

/-!
# Helper lemmas: the straggling tables of two configurations differ

For slow protons in copper the energy straggling with the Pierce-Blann charge is smaller than with the
charge of the projectile.
-/

namespace Catima

theorem integrator_lt (f g : ℝ → M ℝ) (a b : ℝ) (hab : a < b)
    (h : ∀ x, Inner a b x → ∃ u v, f x = .ok u ∧ g x = .ok v ∧ u < v) :
    ∃ I J, integrator.integrate f a b = .ok I ∧ integrator.integrate g a b = .ok J ∧ I < J := by
  choose! u v hu hv huv using h
  have hs := GLData.supported_shape _ integrator_supported
  have e1 := integrator.integrate_eq (integrator.shape hs).1 f u a b fun e he =>
    hu _ (node_inner a b hab.le e he)
  have e2 := integrator.integrate_eq (integrator.shape hs).1 g v a b fun e he =>
    hv _ (node_inner a b hab.le e he)
  refine ⟨_, _, e1, e2, mul_lt_mul_of_pos_left ?_ (by linarith)⟩
  have hpos := sum_pos_of_forall integrator.full
    (fun e => e.2 * (v ((b - a) / 2 * e.1 + (b + a) / 2) - u ((b - a) / 2 * e.1 + (b + a) / 2)))
    (fun e he => mul_pos (integrator_nodes e he).2.2
      (sub_pos.mpr (huv _ (node_inner a b hab.le e he)))) integrator_full_ne
  unfold wsum
  generalize integrator.full = l at hpos ⊢
  have key : ∀ l : List (ℝ × ℝ), (l.map fun e => e.2 * (v ((b - a) / 2 * e.1 + (b + a) / 2) -
      u ((b - a) / 2 * e.1 + (b + a) / 2))).sum =
      (l.map fun e => e.2 * v ((b - a) / 2 * e.1 + (b + a) / 2)).sum -
      (l.map fun e => e.2 * u ((b - a) / 2 * e.1 + (b + a) / 2)).sum := by
    intro l
    induction l with
    | nil => simp
    | cons e l ih =>
      simp only [List.map_cons, List.sum_cons, ih]
      ring
  rw [key] at hpos
  linarith

theorem X_low (ci : Bool) (p : Projectile ℝ) (n : Int) (hp : p.Ion n)
    (h1 : p.T < (ls_energy_table : EnergyTable ℝ).val 0) : precalculated_lindhard_X ci p = .ok 1 := by
  unfold precalculated_lindhard_X
  obtain ⟨k, hk⟩ : ∃ k, lsZ p = .ok k := by
    unfold lsZ
    rw [hp.Z, castInt_real n (by linarith [hp.pos]) hp.int]
    exact ⟨_, rfl⟩
  rw [hk, bind_ok, if_pos (by rw [lt_real]; exact h1)]
  norm_num [pure, Except.pure]

theorem firsov_dominates (T a : ℝ) (hT : 0 < T) (hT1 : T < 1) (ha : 0 < a) :
    domega2dx_constant * (z_eff_Pierce_Blann 1 (beta_from_T T)) ^ 2 * 29 / a *
      (gamma_from_T T * gamma_from_T T) < energy_straggling_firsov 1 T 29 a := by
  have hpow : (900 : ℝ) ≤ (30 : ℝ) ^ ((8 : ℝ) / 3) := by
    have : (900 : ℝ) = (30 : ℝ) ^ (2 : ℝ) := by norm_num
    rw [this]
    exact Real.rpow_le_rpow_of_exponent_le (by norm_num) (by norm_num)
  obtain ⟨hg1, hb0, hb1⟩ := gamma_beta_bounds T hT
  set g : ℝ := gamma_from_T T with hg
  have hg2 : g * g ≤ 1.003 := by
    have : g ≤ 1.0011 := by
      rw [hg]
      unfold gamma_from_T atomic_mass_unit
      have : T / 931.4940954 ≤ 0.0011 := by
        rw [div_le_iff₀ (by norm_num)]
        linarith
      linarith
    nlinarith
  set b2 : ℝ := 1 - 1 / (g * g) with hb2
  have hb2pos : 0 < b2 := by
    rw [hb2, sub_pos, div_lt_one (by positivity)]
    nlinarith
  have hbb : beta_from_T T * beta_from_T T = b2 := by
    unfold beta_from_T
    dsimp only
    rw [sqrt_real, ← hg, show (1.0 : ℝ) = 1 by norm_num]
    exact Real.mul_self_sqrt hb2pos.le
  have hq0 := (pierce_blann_bounds 1 (beta_from_T T) one_pos hb0.le).1
  have hq1 : z_eff_Pierce_Blann 1 (beta_from_T T) ≤ 130.2 * beta_from_T T := by
    rw [pierce_blann_eq, Real.one_rpow, one_mul, div_one]
    have h1 := Real.add_one_le_exp (-(0.95 * (fine_structure_inverted : ℝ) * beta_from_T T))
    have h2 : 0.95 * (fine_structure_inverted : ℝ) ≤ 130.2 := by
      norm_num [fine_structure_inverted, fine_structure]
    have h3 := mul_le_mul_of_nonneg_right h2 hb0.le
    linarith
  set q : ℝ := z_eff_Pierce_Blann 1 (beta_from_T T) with hq
  have hqq : q ^ 2 ≤ 16953 * b2 := by
    have h1 : q * q ≤ (130.2 * beta_from_T T) * (130.2 * beta_from_T T) :=
      mul_self_le_mul_self hq0 hq1
    have h2 : (130.2 * beta_from_T T) * (130.2 * beta_from_T T) = 16952.04 * b2 := by
      rw [← hbb]; ring
    nlinarith
  have hF : energy_straggling_firsov 1 T 29 a =
      4.8184e-3 * (30 : ℝ) ^ ((8 : ℝ) / 3) / a * b2 / fine_structure / fine_structure := by
    unfold energy_straggling_firsov
    dsimp only
    rw [pow_real, ← hg]
    norm_num [hb2]
  rw [hF]
  have hd : (domega2dx_constant : ℝ) ≤ 0.15692 := by
    norm_num [domega2dx_constant, dedx_constant, electron_mass]
  have hd0 : (0 : ℝ) < domega2dx_constant := by norm_num [domega2dx_constant, dedx_constant, electron_mass]
  have hL : domega2dx_constant * q ^ 2 * 29 / a * (g * g) ≤ 0.15692 * (16953 * b2) * 29 / a * 1.003 := by
    have : 0 ≤ g * g := by positivity
    gcongr
  have hR : 4.8184e-3 * 900 / a * b2 * 18778 ≤
      4.8184e-3 * (30 : ℝ) ^ ((8 : ℝ) / 3) / a * b2 / fine_structure / fine_structure := by
    have hfs : (18778 : ℝ) ≤ 1 / fine_structure / fine_structure := by norm_num [fine_structure]
    have e : 4.8184e-3 * (30 : ℝ) ^ ((8 : ℝ) / 3) / a * b2 / fine_structure / fine_structure =
        4.8184e-3 * (30 : ℝ) ^ ((8 : ℝ) / 3) / a * b2 * (1 / fine_structure / fine_structure) := by ring
    rw [e]
    gcongr
  refine lt_of_le_of_lt hL (lt_of_lt_of_le ?_ hR)
  have hx : 0 < b2 / a := div_pos hb2pos ha
  have e1 : 0.15692 * (16953 * b2) * 29 / a * 1.003 = (0.15692 * 16953 * 29 * 1.003) * (b2 / a) := by ring
  have e2 : 4.8184e-3 * 900 / a * b2 * 18778 = (4.8184e-3 * 900 * 18778) * (b2 / a) := by ring
  rw [e1, e2]
  exact mul_lt_mul_of_pos_right (by norm_num) hx

/-- Straggling of slow protons in copper with the two charges. -/
theorem variance_charge (env : Env ℝ) (A T : ℝ) (hA : 0 < A) (hT : 0 < T) (hT1 : T < 1) (t : Target ℝ)
    (ht : t.Z = 29) (ha : 0 < t.A) (c c' : Config ℝ) (hc : c.z_effective = 1) (hc' : c'.z_effective = 0)
    (hk : c.calculation ≠ 0) (hk' : c'.calculation ≠ 0) :
    ∃ u v, dedx_variance env ⟨A, 1, 1, T⟩ t c = .ok u ∧ dedx_variance env ⟨A, 1, 1, T⟩ t c' = .ok v ∧
      0 ≤ u ∧ u < v := by
  have hp : (⟨A, 1, 1, T⟩ : Projectile ℝ).Ion 1 := ⟨by norm_num, by norm_num, by norm_num, hA⟩
  have hX := X_low env.calcIndex ⟨A, 1, 1, T⟩ 1 hp (by rw [ls_first]; exact hT1)
  have hz := (z_effective_basic env.debug ⟨A, 1, 1, T⟩ t c).2 hc
  have hz' := (z_effective_basic env.debug ⟨A, 1, 1, T⟩ t c').1 hc'
  have hdom := firsov_dominates T t.A hT hT1 ha
  have hb := (gamma_beta_bounds T hT)
  have hq := pierce_blann_bounds 1 (beta_from_T T) one_pos hb.2.1.le
  dsimp only at hz hz' hX
  have hlt30 : T < 30 := by linarith
  have val : ∀ (z : ℝ) (c : Config ℝ), z_effective env.debug ⟨A, 1, 1, T⟩ t c = .ok z →
      c.calculation ≠ 0 → dedx_variance env ⟨A, 1, 1, T⟩ t c =
        .ok (min (domega2dx_constant * z ^ 2 * 29 / t.A * (gamma_from_T T * gamma_from_T T))
          (energy_straggling_firsov 1 T 29 t.A)) := by
    intro z c hz hk
    unfold dedx_variance
    rw [hz, hX]
    dsimp only
    simp only [bind_ok]
    rw [if_neg hk, if_pos (by rw [lt_real]; norm_num; exact hlt30), smin_real, ht]
    refine congrArg Except.ok ?_
    have e1 : (ofInt (29 : Int) : ℝ) = 29 := by rw [ofInt_real]; norm_num
    rw [e1]
    have e2 : ipow z 2 = z ^ 2 := by rw [pow_two]; rfl
    rw [e2]
    norm_num
  rw [val _ c hz hk, val _ c' hz' hk']
  have hd0 : (0 : ℝ) < domega2dx_constant := by norm_num [domega2dx_constant, dedx_constant, electron_mass]
  have hg : (0 : ℝ) < gamma_from_T T := by linarith [hb.1]
  refine ⟨_, _, rfl, rfl, le_min (by positivity) ?_, ?_⟩
  · refine le_trans ?_ hdom.le
    positivity
  · rw [min_eq_left hdom.le]
    refine lt_min ?_ hdom
    have hq2 : z_eff_Pierce_Blann 1 (beta_from_T T) ^ 2 < 1 ^ 2 := by
      have := hq.1
      have := hq.2
      nlinarith
    have hc0 : 0 < domega2dx_constant * 29 / t.A * (gamma_from_T T * gamma_from_T T) := by positivity
    have := mul_lt_mul_of_pos_right hq2 hc0
    calc _ = z_eff_Pierce_Blann 1 (beta_from_T T) ^ 2 *
        (domega2dx_constant * 29 / t.A * (gamma_from_T T * gamma_from_T T)) := by ring
      _ < _ := this
      _ = _ := by ring

theorem energy_val_one : (energy_table : EnergyTable ℝ).val 1 < 1 := by
  have hs : (energy_table : EnergyTable ℝ).step = 10 / 599 := by
    rw [EnergyTable.step_eq]; norm_num [energy_table, logEmin, logEmax, max_datapoints]
  rw [EnergyTable.val_eq, hs]
  rw [← Real.exp_zero]
  apply Real.exp_lt_exp.mpr
  norm_num [energy_table, logEmin, LN10]

/-- The range straggling at the second energy of the table is larger with the charge of the projectile
than with the Pierce-Blann charge (slow protons in copper). -/
theorem straggling_charge (env : Env ℝ) (A T : ℝ) (m : Material ℝ) (c c' : Config ℝ)
    (h : Computable ⟨A, 1, 1, T⟩ 1 m c) (h' : Computable ⟨A, 1, 1, T⟩ 1 m c')
    (hm : ∀ t ∈ m.atoms, t.Z = 29) (hc : c.z_effective = 1) (hc' : c'.z_effective = 0)
    (hk : c.calculation ≠ 0) (hk' : c'.calculation ≠ 0) (hl : c.low_energy = c'.low_energy)
    (d d' : DataPoint ℝ)
    (hd : calculate_DataPoint env ⟨A, 1, 1, T⟩ m c = .ok d)
    (hd' : calculate_DataPoint env ⟨A, 1, 1, T⟩ m c' = .ok d') :
    ∃ u v, d.range_straggling[1]? = some u ∧ d'.range_straggling[1]? = some v ∧ 0 ≤ u ∧ u < v := by
  have hb := energy_table_bounds
  have ord : ∀ k, (energy_table : EnergyTable ℝ).val k < (energy_table : EnergyTable ℝ).val (k + 1) :=
    fun k => (EnergyTable.val_lt_iff _ hb.1 hb.2.1 k (k + 1)).mpr (by omega)
  set p : Projectile ℝ := ⟨A, 1, 1, T⟩ with hp
  have hv1 := energy_val_one
  have hpw : ∀ x, p.withT x = ⟨A, 1, 1, x⟩ := fun x => rfl
  have hA : 0 < A := h.ion.A
  have key : ∀ x, Inner ((energy_table : EnergyTable ℝ).val 0) ((energy_table : EnergyTable ℝ).val 1) x →
      ∃ u v, fomega env p m c x = .ok u ∧ fomega env p m c' x = .ok v ∧ 0 ≤ u ∧ u < v := by
    intro x hx
    obtain ⟨-, h9, -, -, h0, -⟩ := inner_grid 0 (by norm_num) x hx
    norm_num at h9
    have hx1 : x < 1 := h9.trans_lt hv1
    obtain ⟨s, hs, hs0⟩ := stopping_positive_low env (p.withT x) 1 (withT_ion h.ion x) m h.sound c h0
      (by show x ≤ 10; linarith)
    have hs' : dedx env (p.withT x) m c' = .ok s := by
      rw [← hs]
      have hx10 : ((p.withT x).T ≤? 10.0) = true := by
        rw [le_real]; show x ≤ 10.0; norm_num; linarith
      have hx0 : ¬ (((p.withT x).T ≤? 0.0) = true) := by
        rw [le_real]; show ¬ x ≤ 0.0; norm_num; exact h0
      have hse : sezi_dedx_e (p.withT x) m c' = sezi_dedx_e (p.withT x) m c := by
        unfold sezi_dedx_e
        rw [hl]
      unfold dedx
      rw [if_neg hx0, if_neg hx0]
      dsimp only
      simp only [if_pos hx10, hse]
    have hvar : ∀ t ∈ m.atoms, ∃ u v, dedx_variance env (p.withT x) t c = .ok u ∧
        dedx_variance env (p.withT x) t c' = .ok v ∧ 0 ≤ u ∧ u < v := fun t ht =>
      variance_charge env A x hA h0 hx1 t (hm t ht) (h.sound.A t ht) c c' hc hc' hk hk'
    choose! u v hu hv hu0 huv using hvar
    have d1 : domega2dx env (p.withT x) m c = .ok _ := componentSum_ok m _ u hu
    have d2 : domega2dx env (p.withT x) m c' = .ok _ := componentSum_ok m _ v hv
    unfold fomega
    rw [d1, d2, hs, hs']
    have hw : ∀ t ∈ m.atoms, 0 < m.wfrac t := fun t ht => m.wfrac_pos h.sound t ht
    have hpow : 0 < power s 3.0 := Real.exp_pos _
    refine ⟨_, _, rfl, rfl, div_nonneg ?_ hpow.le, div_lt_div_of_pos_right ?_ hpow⟩
    · refine List.sum_nonneg ?_
      intro y hy
      obtain ⟨t, ht, rfl⟩ := List.mem_map.mp hy
      exact mul_nonneg (hw t ht).le (hu0 t ht)
    · exact List.sum_lt_sum_of_ne_nil h.sound.nonempty _ _ fun t ht =>
        mul_lt_mul_of_pos_left (huv t ht) (hw t ht)
  have entry : ∀ (c : Config ℝ) (_ : Computable p 1 m c) (d : DataPoint ℝ)
      (_ : calculate_DataPoint env p m c = .ok d) (I : ℝ)
      (_ : integrator.integrate (fomega env p m c) ((energy_table : EnergyTable ℝ).val 0)
        ((energy_table : EnergyTable ℝ).val 1) = .ok I), d.range_straggling[1]? = some (A * I) := by
    intro c h d hd I0 hI0
    have hdef : ∀ k < 599, ∃ I, integrator.integrate (fomega env p m c) ((energy_table : EnergyTable ℝ).val k)
        ((energy_table : EnergyTable ℝ).val (k + 1)) = .ok I := fun k hk =>
      integrator_defined _ _ _ (ord k).le fun x hx => by
        obtain ⟨-, -, -, -, h0, hr⟩ := inner_grid k hk x hx
        obtain ⟨v, hv⟩ := h.dedx env x h0 hr
        obtain ⟨w, hw⟩ := h.variance env x hr
        unfold fomega
        rw [hv, hw]
        exact ⟨_, rfl⟩
    choose! I hI using hdef
    obtain ⟨-, hz, hst⟩ := table_step p.A _ _ (data_point_parts env p m c d hd).2.2 I hI
    obtain ⟨a, b, ha, hb', hab⟩ := hst 0 (by norm_num)
    have e0 : I 0 = I0 := by
      have := hI 0 (by norm_num)
      rw [hI0] at this
      exact (Except.ok.inj this).symm
    rw [hz] at ha
    have := Option.some.inj ha
    rw [hb', ← e0]
    refine congrArg some ?_
    have : b = p.A * I 0 := by linarith
    exact this
  obtain ⟨I, J, hI, hJ, hIJ⟩ := integrator_lt _ _ _ _ (ord 0) fun x hx => by
    obtain ⟨u, v, h1, h2, -, h3⟩ := key x hx
    exact ⟨u, v, h1, h2, h3⟩
  obtain ⟨I', hI', hI0⟩ := integrator_nonneg (fomega env p m c) _ _ (ord 0).le fun x hx => by
    obtain ⟨u, v, h1, -, h2, -⟩ := key x hx
    exact ⟨u, h1, h2⟩
  rw [hI] at hI'
  cases hI'
  exact ⟨_, _, entry c h d hd I hI, entry c' h' d' hd' J hJ, mul_nonneg hA.le hI0,
    mul_lt_mul_of_pos_left hIJ hA⟩

end Catima
