import Verif.Lemmas.BetheOrder
import Verif.Props.StoppingPositive
import Verif.Props.Wrapper

/-!
# C123, C124: what the correction switches and the mean excitation energy do to stopping powers and ranges
-/

namespace Catima

/-- Sums with non-negative weights are ordered like their terms. -/
theorem weighted_sum_order {β : Type} (l : List β) (w g g' : β → ℝ) (hw : ∀ t ∈ l, 0 < w t) (h : ∀ t ∈ l, g t ≤ g' t) :
    (l.map fun t => w t * g t).sum ≤ (l.map fun t => w t * g' t).sum ∧
      ((∃ t ∈ l, g t < g' t) → (l.map fun t => w t * g t).sum < (l.map fun t => w t * g' t).sum) := by
  refine ⟨List.sum_le_sum fun t ht => mul_le_mul_of_nonneg_left (h t ht) (hw t ht).le, fun ⟨t, ht, hlt⟩ => ?_⟩
  exact List.sum_lt_sum _ _ (fun t ht => mul_le_mul_of_nonneg_left (h t ht) (hw t ht).le)
    ⟨t, ht, mul_lt_mul_of_pos_left hlt (hw t ht)⟩

theorem integrator_le (f g : ℝ → M ℝ) (a b : ℝ) (hab : a < b)
    (h : ∀ x, Inner a b x → ∃ u v, f x = .ok u ∧ g x = .ok v ∧ u ≤ v) :
    ∃ I J, integrator.integrate f a b = .ok I ∧ integrator.integrate g a b = .ok J ∧ I ≤ J := by
  choose! u v hu hv huv using h
  have hs := GLData.supported_shape _ integrator_supported
  have e1 := integrator.integrate_eq (integrator.shape hs).1 f u a b fun e he => hu _ (node_inner a b hab.le e he)
  have e2 := integrator.integrate_eq (integrator.shape hs).1 g v a b fun e he => hv _ (node_inner a b hab.le e he)
  refine ⟨_, _, e1, e2, mul_le_mul_of_nonneg_left ?_ (by linarith)⟩
  unfold wsum
  exact List.sum_le_sum fun e he => mul_le_mul_of_nonneg_left (huv _ (node_inner a b hab.le e he)) (integrator_nodes e he).2.2.le

/-- The mean excitation energy `I'` is not above `I` for any component; a value that is not positive stands for the table. -/
def ExcitationBelow (m : Material ℝ) (I' I : ℝ) : Prop :=
  ∀ t ∈ m.atoms, (if 0 < I' then I' else ipot t.Z) ≤ (if 0 < I then I else ipot t.Z)

/-- It is smaller for some component. -/
def ExcitationSmaller (m : Material ℝ) (I' I : ℝ) : Prop :=
  ∃ t ∈ m.atoms, (if 0 < I' then I' else ipot t.Z) < (if 0 < I then I else ipot t.Z)

/-- The configuration `c'` switches on no correction that lowers the stopping power (bit 2, shell) and switches off none that
raises it (bit 0, Barkas; bit 3, radiation), compared with `c`; set bits mean switched off.  The rest that stopping powers
depend on is the same. -/
structure CorrectedUp (c c' : Config ℝ) : Prop where
  charge : c'.z_effective = c.z_effective
  low : c'.low_energy = c.low_energy
  lindhard : c'.corrections.testBit 1 = c.corrections.testBit 1
  barkas : c'.corrections.testBit 0 = true → c.corrections.testBit 0 = true
  shell : c.corrections.testBit 2 = true → c'.corrections.testBit 2 = true
  radiation : c'.corrections.testBit 3 = true → c.corrections.testBit 3 = true

/-- One of the corrections differs that matter at energy `T`. -/
def CorrectedOtherwise (c c' : Config ℝ) (T : ℝ) : Prop :=
  c.corrections.testBit 2 ≠ c'.corrections.testBit 2 ∨ c.corrections.testBit 0 ≠ c'.corrections.testBit 0 ∨
    50000 < T ∧ c.corrections.testBit 3 ≠ c'.corrections.testBit 3

theorem sezi_same (p : Projectile ℝ) (m : Material ℝ) (I I' : ℝ) (c c' : Config ℝ) (h : c'.low_energy = c.low_energy) :
    sezi_dedx_e p { m with i_potential := I' } c' = sezi_dedx_e p { m with i_potential := I } c := by
  unfold sezi_dedx_e
  rw [h]
  rfl

theorem bethe_order (env : Env ℝ) (p : Projectile ℝ) (n : Int) (m : Material ℝ) (c c' : Config ℝ) (I I' : ℝ)
    (h : Computable p n m c) (hu : Usual p n { m with i_potential := I }) (hu' : Usual p n { m with i_potential := I' })
    (hc : CorrectedUp c c') (hI : ExcitationBelow m I' I) (hT : 10 ≤ p.T) (hr : LindhardReadable p.T) :
    ∃ v v', bethek_dedx_e env p { m with i_potential := I } c = .ok v ∧
      bethek_dedx_e env p { m with i_potential := I' } c' = .ok v' ∧ v ≤ v' ∧
      (c.z_effective = 1 ∨ 0 < p.Q → ExcitationSmaller m I' I ∨ CorrectedOtherwise c c' p.T → v < v') := by
  have hT0 : 0 < p.T := by linarith
  have key : ∀ t ∈ m.atoms, ∃ v v', bethek_dedx_e_target env p t c I = .ok v ∧ bethek_dedx_e_target env p t c' I' = .ok v' ∧
      v ≤ v' ∧ (c.z_effective = 1 ∨ 0 < p.Q →
        ((if 0 < I' then I' else ipot t.Z) < (if 0 < I then I else ipot t.Z)) ∨ CorrectedOtherwise c c' p.T → v < v') := by
    intro t ht
    obtain ⟨z, hz, hz', hz0, hz1⟩ : ∃ z, z_effective env.debug p t c = .ok z ∧ z_effective env.debug p t c' = .ok z ∧ 0 ≤ z ∧
        (c.z_effective = 1 ∨ 0 < p.Q → 0 < z) := by
      rcases h.charge with hq | ⟨hq, hq'⟩
      · have := pierce_blann_bounds p.Z _ h.posZ (gamma_beta_bounds p.T hT0).2.1.le
        exact ⟨_, (z_effective_basic env.debug p t c).2 hq, (z_effective_basic env.debug p t c').2 (hc.charge.trans hq), this.1,
          fun _ => pierce_blann_pos p.Z _ h.posZ (gamma_beta_bounds p.T hT0).2.1⟩
      · refine ⟨_, (z_effective_basic env.debug p t c).1 hq, (z_effective_basic env.debug p t c').1 (hc.charge.trans hq), hq',
          fun h => ?_⟩
        rcases h with h | h
        · omega
        · exact h
    obtain ⟨v, v', e, e', hle, hlt⟩ := bethe_target_order env h.ion h.small hu.mass t (h.sound.Z t ht) (h.sound.A t ht) c c' I I'
      hT hr z hz hz' hz0 (hu.excitation t ht) (hu'.excitation t ht) (hI t ht) hc.barkas hc.lindhard hc.shell hc.radiation
    exact ⟨v, v', e, e', hle, fun hq hd => hlt (hz1 hq) (h.known t ht) hd⟩
  choose! g g' hg hg' hle hlt using key
  obtain ⟨s1, s2⟩ := weighted_sum_order m.atoms m.wfrac g g' (fun t ht => m.wfrac_pos h.sound t ht) hle
  refine ⟨_, _, componentSum_ok { m with i_potential := I } _ g hg, componentSum_ok { m with i_potential := I' } _ g' hg', s1,
    fun hq hd => s2 ?_⟩
  rcases hd with ⟨t, ht, hd⟩ | hd
  · exact ⟨t, ht, hlt t ht hq (.inl hd)⟩
  · obtain ⟨t, ht⟩ := List.exists_mem_of_ne_nil _ h.sound.nonempty
    exact ⟨t, ht, hlt t ht hq (.inr hd)⟩

/-- Stopping powers under two configurations and two mean excitation energies. -/
theorem stopping_order (env : Env ℝ) (p : Projectile ℝ) (n : Int) (m : Material ℝ) (c c' : Config ℝ) (I I' : ℝ)
    (h : Computable p n m c) (hu : Usual p n { m with i_potential := I }) (hu' : Usual p n { m with i_potential := I' })
    (hc : CorrectedUp c c') (hI : ExcitationBelow m I' I) (h0 : 0 < p.T) (hr : LindhardReadable p.T) :
    ∃ v v', dedx env p { m with i_potential := I } c = .ok v ∧ dedx env p { m with i_potential := I' } c' = .ok v' ∧
      0 < v ∧ v ≤ v' ∧ (p.T ≤ 10 → v = v') ∧
      (10 < p.T → c.z_effective = 1 ∨ 0 < p.Q → ExcitationSmaller m I' I ∨ CorrectedOtherwise c c' p.T → v < v') := by
  have hm : Computable p n { m with i_potential := I } c := ⟨h.ion, h.small, ⟨h.sound.1, h.sound.2, h.sound.3, h.sound.4, h.sound.5⟩,
    h.known, h.charge⟩
  obtain ⟨v, hv, hv0⟩ := stopping_positive env p n _ c hm hu h0 hr
  have hn : dedx_n env.debug p { m with i_potential := I' } = dedx_n env.debug p { m with i_potential := I } := rfl
  obtain ⟨a, ha, -, -⟩ := nuclear_nonneg env.debug p h.posZ h.ion.A _ hm.sound
  obtain ⟨b, hb, -⟩ := sezi_pos h.ion hm.sound c h0
  rw [dedx_eq env p _ c h0, ha] at hv
  rw [dedx_eq env p _ c h0, dedx_eq env p _ c' h0, hn, ha]
  unfold electronic at hv ⊢
  rw [sezi_same p m I I' c c' hc.low]
  rw [hb] at hv ⊢
  rcases le_or_gt p.T 10 with h1 | h1
  · have k : (Scalar.le p.T 10.0) = true := by rw [le_real]; norm_num; exact h1
    simp only [k, if_true] at hv ⊢
    exact ⟨v, v, hv, hv, hv0, le_rfl, fun _ => rfl, fun h => absurd h1 (not_le.mpr h)⟩
  obtain ⟨e, e', he, he', hle, hlt⟩ := bethe_order env p n m c c' I I' h hu hu' hc hI h1.le hr
  have k : (Scalar.le p.T 10.0) = false := by rw [← Bool.not_eq_true, le_real]; norm_num; exact h1
  rw [he] at hv ⊢
  rw [he']
  simp only [k, Bool.false_eq_true, if_false] at hv ⊢
  by_cases h3 : p.T < 30
  · have k3 : (Scalar.gt p.T 10.0 && Scalar.lt p.T 30.0) = true := by
      rw [Bool.and_eq_true, lt_real, lt_real]; norm_num; exact ⟨h1, h3⟩
    simp only [k3, if_true] at hv ⊢
    refine ⟨v, _, hv, rfl, hv0, ?_, fun h => absurd h1 (not_lt.mpr h), fun _ hq hd => ?_⟩ <;> cases hv
    · have := mul_le_mul_of_nonneg_left hle (show 0 ≤ 5e-2 * (p.T - 10.0) by norm_num; linarith)
      linarith
    · have := mul_lt_mul_of_pos_left (hlt hq hd) (show 0 < 5e-2 * (p.T - 10.0) by norm_num; linarith)
      linarith
  · have k3 : (Scalar.gt p.T 10.0 && Scalar.lt p.T 30.0) = false := by
      rw [← Bool.not_eq_true, Bool.and_eq_true, lt_real, lt_real]; norm_num; intro; linarith
    simp only [k3, Bool.false_eq_true, if_false] at hv ⊢
    refine ⟨v, _, hv, rfl, hv0, ?_, fun h => absurd h1 (not_lt.mpr h), fun _ hq hd => ?_⟩ <;> cases hv
    · linarith
    · linarith [hlt hq hd]

/-- Range tables under two configurations and two mean excitation energies. -/
theorem range_table_order (env : Env ℝ) (p : Projectile ℝ) (n : Int) (m : Material ℝ) (c c' : Config ℝ) (I I' : ℝ)
    (h : Computable p n m c) (hu : Usual p n { m with i_potential := I }) (hu' : Usual p n { m with i_potential := I' })
    (hc : CorrectedUp c c') (hI : ExcitationBelow m I' I) (d d' : DataPoint ℝ)
    (hd : calculate_DataPoint env p { m with i_potential := I } c = .ok d)
    (hd' : calculate_DataPoint env p { m with i_potential := I' } c' = .ok d') (i : Nat) (hi : i < 600) :
    ∃ R R', d.range[i]? = some R ∧ d'.range[i]? = some R' ∧ R' ≤ R := by
  have hb := energy_table_bounds
  have ord : ∀ k, (energy_table : EnergyTable ℝ).val k < (energy_table : EnergyTable ℝ).val (k + 1) :=
    fun k => (EnergyTable.val_lt_iff _ hb.1 hb.2.1 k (k + 1)).mpr (by omega)
  have key : ∀ k < 599, ∃ J J', integrator.integrate (fdedx env p { m with i_potential := I' } c') ((energy_table : EnergyTable ℝ).val k)
      ((energy_table : EnergyTable ℝ).val (k + 1)) = .ok J ∧
      integrator.integrate (fdedx env p { m with i_potential := I } c) ((energy_table : EnergyTable ℝ).val k)
      ((energy_table : EnergyTable ℝ).val (k + 1)) = .ok J' ∧ J ≤ J' := fun k hk =>
    integrator_le _ _ _ _ (ord k) fun x hx => by
      obtain ⟨-, -, -, -, h0, hr⟩ := inner_grid k hk x hx
      obtain ⟨v, v', hv, hv', v0, hle, -⟩ := stopping_order env (p.withT x) n m c c' I I' (h.withT x) (hu.withT x) (hu'.withT x)
        hc hI h0 hr
      unfold fdedx
      rw [hv, hv']
      refine ⟨_, _, rfl, rfl, ?_⟩
      exact div_le_div_of_nonneg_left (by norm_num) v0 hle
  choose! J J' hJ hJ' hle using key
  obtain ⟨hl, hz, hs⟩ := table_step p.A _ _ (data_point_parts env p _ c d hd).1 J' hJ'
  obtain ⟨hl', hz', hs'⟩ := table_step p.A _ _ (data_point_parts env p _ c' d' hd').1 J hJ
  induction i with
  | zero => exact ⟨0, 0, hz, hz', le_rfl⟩
  | succ i ih =>
    obtain ⟨R, R', e, e', hR⟩ := ih (by omega)
    obtain ⟨a, b, ha, hb, hab⟩ := hs i (by omega)
    obtain ⟨a', b', ha', hb', hab'⟩ := hs' i (by omega)
    rw [e] at ha
    rw [e'] at ha'
    cases ha
    cases ha'
    refine ⟨b, b', hb, hb', ?_⟩
    have := mul_le_mul_of_nonneg_left (hle i (by omega)) h.ion.A.le
    linarith

/-- C123: switching the Barkas correction or the radiative losses on, or the shell correction off, raises the stopping power at
every energy above 10 MeV/u (radiative losses: above 50 GeV/u), and changes nothing up to 10 MeV/u. -/
theorem corrections_directed (env : Env ℝ) (p : Projectile ℝ) (n : Int) (m : Material ℝ) (c c' : Config ℝ)
    (h : Computable p n m c) (hu : Usual p n m) (hc : CorrectedUp c c') (h0 : 0 < p.T) (hr : LindhardReadable p.T) :
    ∃ v v', dedx env p m c = .ok v ∧ dedx env p m c' = .ok v' ∧ 0 < v ∧ v ≤ v' ∧ (p.T ≤ 10 → v = v') ∧
      (10 < p.T → c.z_effective = 1 ∨ 0 < p.Q → CorrectedOtherwise c c' p.T → v < v') := by
  obtain ⟨v, v', a, b, a0, hle, heq, hlt⟩ := stopping_order env p n m c c' m.i_potential m.i_potential h hu hu hc
    (fun _ _ => le_rfl) h0 hr
  exact ⟨v, v', a, b, a0, hle, heq, fun h1 h2 h3 => hlt h1 h2 (.inr h3)⟩

/-- C123 for ranges: at the energies of the table the range does not grow when the stopping power is corrected upwards, after
any histories. -/
theorem corrections_directed_range (env : Env ℝ) (p : Projectile ℝ) (n : Int) (m : Material ℝ) (c c' : Config ℝ)
    (h : Computable p n m c) (hu : Usual p n m) (hc : CorrectedUp c c') (hk : NonDefault p m c) (hk' : NonDefault p m c')
    (w w' : World ℝ) (hw : ReachableW env w) (hw' : ReachableW env w') (i : Nat) (hi : i < 600)
    (hT : p.T = (energy_table : EnergyTable ℝ).val i) :
    ∃ R R', (Call.range p m c).respond env w = .ok (.num R) ∧ (Call.range p m c').respond env w' = .ok (.num R') ∧ R' ≤ R := by
  have h' : Computable p n m c' := ⟨h.ion, h.small, h.sound, h.known, by rw [hc.charge]; exact h.charge⟩
  obtain ⟨d, R, hd, hR, e⟩ := range_at_knot env w hw p n m c h hk i hi hT
  obtain ⟨d', R', hd', hR', e'⟩ := range_at_knot env w' hw' p n m c' h' hk' i hi hT
  obtain ⟨Q, Q', hQ, hQ', hle⟩ := range_table_order env p n m c c' m.i_potential m.i_potential h hu hu hc (fun _ _ => le_rfl)
    d d' hd hd' i hi
  rw [hR] at hQ
  rw [hR'] at hQ'
  cases hQ
  cases hQ'
  exact ⟨R, R', e, e', hle⟩

/-- Carbon in water at 290 MeV/u, with and without the shell correction. -/
example (env : Env ℝ) (q : ℝ) : ∃ v v', dedx env ⟨12, 6, q, 290⟩ (⟨1, 1, 18.015, 0, [⟨1.00794, 1, 2⟩, ⟨15.9994, 8, 1⟩]⟩ : Material ℝ)
      .default = .ok v ∧
    dedx env ⟨12, 6, q, 290⟩ (⟨1, 1, 18.015, 0, [⟨1.00794, 1, 2⟩, ⟨15.9994, 8, 1⟩]⟩ : Material ℝ) { Config.default with corrections := 4 } = .ok v' ∧
    v < v' := by
  obtain ⟨v, v', a, b, -, -, -, hlt⟩ := corrections_directed env ⟨12, 6, q, 290⟩ 6 _ .default { Config.default with corrections := 4 }
    (carbon_water_usual q 290).1 (carbon_water_usual q 290).2 ⟨rfl, rfl, rfl, by decide, by decide, by decide⟩ (by norm_num)
    (Or.inl (below_top 290 (by norm_num)))
  exact ⟨v, v', a, b, hlt (by norm_num) (.inl rfl) (.inl (by decide))⟩

/-- Ranges of carbon in water at any energy of the table, with and without the Barkas correction. -/
example (env : Env ℝ) (w : World ℝ) (hw : ReachableW env w) (i : Nat) (hi : i < 600) : ∃ R R',
    (Call.range ⟨12, 6, 6, (energy_table : EnergyTable ℝ).val i⟩ (⟨1, 1, 18.015, 0, [⟨1.00794, 1, 2⟩, ⟨15.9994, 8, 1⟩]⟩ : Material ℝ)
      { Config.default with corrections := 1 }).respond env w = .ok (.num R) ∧
    (Call.range ⟨12, 6, 6, (energy_table : EnergyTable ℝ).val i⟩ (⟨1, 1, 18.015, 0, [⟨1.00794, 1, 2⟩, ⟨15.9994, 8, 1⟩]⟩ : Material ℝ)
      .default).respond env w = .ok (.num R') ∧ R' ≤ R := by
  have hk : ∀ c : Config ℝ, NonDefault ⟨12, 6, 6, (energy_table : EnergyTable ℝ).val i⟩
      (⟨1, 1, 18.015, 0, [⟨1.00794, 1, 2⟩, ⟨15.9994, 8, 1⟩]⟩ : Material ℝ) c := by
    intro c
    simp only [NonDefault, Key.eq, Key.default, Projectile.eq, Projectile.default]
    simp
    intro h
    norm_num at h
  have hc := carbon_water_usual 6 ((energy_table : EnergyTable ℝ).val i)
  exact corrections_directed_range env _ 6 _ { Config.default with corrections := 1 } .default
    ⟨hc.1.ion, hc.1.small, hc.1.sound, hc.1.known, .inl rfl⟩ hc.2 ⟨rfl, rfl, rfl, by decide, by decide, by decide⟩ (hk _) (hk _) w w hw hw i hi rfl

/-- C124: a material whose mean excitation energy is smaller stops ions more strongly at every energy above 10 MeV/u, and
equally up to 10 MeV/u. -/
theorem excitation_directed (env : Env ℝ) (p : Projectile ℝ) (n : Int) (m : Material ℝ) (c : Config ℝ) (I I' : ℝ)
    (h : Computable p n m c) (hu : Usual p n { m with i_potential := I }) (hu' : Usual p n { m with i_potential := I' })
    (hI : ExcitationBelow m I' I) (h0 : 0 < p.T) (hr : LindhardReadable p.T) :
    ∃ v v', dedx env p { m with i_potential := I } c = .ok v ∧ dedx env p { m with i_potential := I' } c = .ok v' ∧
      0 < v ∧ v ≤ v' ∧ (p.T ≤ 10 → v = v') ∧
      (10 < p.T → c.z_effective = 1 ∨ 0 < p.Q → ExcitationSmaller m I' I → v < v') := by
  obtain ⟨v, v', a, b, a0, hle, heq, hlt⟩ := stopping_order env p n m c c I I' h hu hu' ⟨rfl, rfl, rfl, id, id, id⟩ hI h0 hr
  exact ⟨v, v', a, b, a0, hle, heq, fun h1 h2 h3 => hlt h1 h2 (.inl h3)⟩

/-- C124 for ranges: at the energies of the table the range in the material of smaller mean excitation energy is not longer. -/
theorem excitation_directed_range (env : Env ℝ) (p : Projectile ℝ) (n : Int) (m : Material ℝ) (c : Config ℝ) (I I' : ℝ)
    (h : Computable p n m c) (hu : Usual p n { m with i_potential := I }) (hu' : Usual p n { m with i_potential := I' })
    (hI : ExcitationBelow m I' I) (hk : NonDefault p { m with i_potential := I } c)
    (hk' : NonDefault p { m with i_potential := I' } c) (w w' : World ℝ) (hw : ReachableW env w) (hw' : ReachableW env w')
    (i : Nat) (hi : i < 600) (hT : p.T = (energy_table : EnergyTable ℝ).val i) :
    ∃ R R', (Call.range p { m with i_potential := I } c).respond env w = .ok (.num R) ∧
      (Call.range p { m with i_potential := I' } c).respond env w' = .ok (.num R') ∧ R' ≤ R := by
  have hm : ∀ I, Computable p n { m with i_potential := I } c := fun I =>
    ⟨h.ion, h.small, ⟨h.sound.1, h.sound.2, h.sound.3, h.sound.4, h.sound.5⟩, h.known, h.charge⟩
  obtain ⟨d, R, hd, hR, e⟩ := range_at_knot env w hw p n _ c (hm I) hk i hi hT
  obtain ⟨d', R', hd', hR', e'⟩ := range_at_knot env w' hw' p n _ c (hm I') hk' i hi hT
  obtain ⟨Q, Q', hQ, hQ', hle⟩ := range_table_order env p n m c c I I' h hu hu' ⟨rfl, rfl, rfl, id, id, id⟩ hI d d' hd hd' i hi
  rw [hR] at hQ
  rw [hR'] at hQ'
  cases hQ
  cases hQ'
  exact ⟨R, R', e, e', hle⟩

/-- Carbon at 290 MeV/u in water with 78 eV and with 67.2 eV. -/
example (env : Env ℝ) (q : ℝ) : ∃ v v', dedx env ⟨12, 6, q, 290⟩ (⟨1, 1, 18.015, 78, [⟨1.00794, 1, 2⟩, ⟨15.9994, 8, 1⟩]⟩ : Material ℝ)
      .default = .ok v ∧
    dedx env ⟨12, 6, q, 290⟩ (⟨1, 1, 18.015, 67.2, [⟨1.00794, 1, 2⟩, ⟨15.9994, 8, 1⟩]⟩ : Material ℝ) .default = .ok v' ∧ v < v' := by
  have hu : ∀ I : ℝ, 0 < I → I ≤ 100 → Usual ⟨12, 6, q, 290⟩ 6 (⟨1, 1, 18.015, I, [⟨1.00794, 1, 2⟩, ⟨15.9994, 8, 1⟩]⟩ : Material ℝ) :=
    fun I h0 h1 => ⟨(carbon_water_usual q 290).2.mass, by
      intro t ht
      have hz : (1 : ℝ) ≤ t.Z := by exact_mod_cast (carbon_water_usual q 290).1.sound.Z t ht
      exact ⟨fun _ => ⟨by linarith, by nlinarith⟩, fun h => absurd h0 (not_lt.mpr h)⟩⟩
  obtain ⟨v, v', a, b, -, -, -, hlt⟩ := excitation_directed env ⟨12, 6, q, 290⟩ 6
    (⟨1, 1, 18.015, 0, [⟨1.00794, 1, 2⟩, ⟨15.9994, 8, 1⟩]⟩ : Material ℝ) .default 78 67.2
    (carbon_water_usual q 290).1 (hu 78 (by norm_num) (by norm_num)) (hu 67.2 (by norm_num) (by norm_num))
    (fun t _ => by rw [if_pos (by norm_num), if_pos (by norm_num)]; norm_num) (by norm_num)
    (Or.inl (below_top 290 (by norm_num)))
  exact ⟨v, v', a, b, hlt (by norm_num) (.inl rfl) ⟨⟨1.00794, 1, 2⟩, by simp, by
    rw [if_pos (by norm_num), if_pos (by norm_num)]; norm_num⟩⟩

/-- Ranges of carbon in water with 78 eV and with 67.2 eV at any energy of the table. -/
example (env : Env ℝ) (w : World ℝ) (hw : ReachableW env w) (i : Nat) (hi : i < 600) : ∃ R R',
    (Call.range ⟨12, 6, 6, (energy_table : EnergyTable ℝ).val i⟩ (⟨1, 1, 18.015, 78, [⟨1.00794, 1, 2⟩, ⟨15.9994, 8, 1⟩]⟩ : Material ℝ)
      .default).respond env w = .ok (.num R) ∧
    (Call.range ⟨12, 6, 6, (energy_table : EnergyTable ℝ).val i⟩ (⟨1, 1, 18.015, 67.2, [⟨1.00794, 1, 2⟩, ⟨15.9994, 8, 1⟩]⟩ : Material ℝ)
      .default).respond env w = .ok (.num R') ∧ R' ≤ R := by
  have hk : ∀ I : ℝ, NonDefault ⟨12, 6, 6, (energy_table : EnergyTable ℝ).val i⟩
      (⟨1, 1, 18.015, I, [⟨1.00794, 1, 2⟩, ⟨15.9994, 8, 1⟩]⟩ : Material ℝ) .default := by
    intro I
    simp only [NonDefault, Key.eq, Key.default, Projectile.eq, Projectile.default]
    simp
    intro h
    norm_num at h
  have hc := carbon_water_usual 6 ((energy_table : EnergyTable ℝ).val i)
  have hu : ∀ I : ℝ, 0 < I → I ≤ 100 → Usual ⟨12, 6, 6, (energy_table : EnergyTable ℝ).val i⟩ 6
      (⟨1, 1, 18.015, I, [⟨1.00794, 1, 2⟩, ⟨15.9994, 8, 1⟩]⟩ : Material ℝ) :=
    fun I h0 h1 => ⟨hc.2.mass, by
      intro t ht
      have hz : (1 : ℝ) ≤ t.Z := by exact_mod_cast hc.1.sound.Z t ht
      exact ⟨fun _ => ⟨by linarith, by nlinarith⟩, fun h => absurd h0 (not_lt.mpr h)⟩⟩
  exact excitation_directed_range env _ 6 (⟨1, 1, 18.015, 0, [⟨1.00794, 1, 2⟩, ⟨15.9994, 8, 1⟩]⟩ : Material ℝ) .default 78 67.2 hc.1
    (hu 78 (by norm_num) (by norm_num)) (hu 67.2 (by norm_num) (by norm_num))
    (fun t _ => by rw [if_pos (by norm_num), if_pos (by norm_num)]; norm_num) (hk _) (hk _) w w hw hw i hi rfl

end Catima
