import Verif.Props.StragglingOption

/-!
# C141: what the energy-loss variance depends on
-/

namespace Catima

/-- Electrons of the material per unit of mass, `Σ w Z/A`. -/
noncomputable def electronsPerMass (m : Material ℝ) : ℝ := (m.atoms.map fun t => m.wfrac t * (t.Z / t.A)).sum

theorem electronsPerMass_pos {m : Material ℝ} (h : m.Sound) : 0 < electronsPerMass m := by
  unfold electronsPerMass
  refine List.sum_pos _ ?_ (by simpa using h.nonempty)
  intro x hx
  obtain ⟨t, ht, rfl⟩ := List.mem_map.mp hx
  have tZ : (1 : ℝ) ≤ t.Z := by exact_mod_cast h.Z t ht
  exact mul_pos (Material.wfrac_pos h t ht) (div_pos (by linarith) (h.A t ht))

/-- C141: with the option bohr, from 2.5 MeV/u on, the energy-loss variance is a number that depends on the ion and its energy times the
number of electrons per mass of the material. -/
theorem straggling_value (env : Env ℝ) {p : Projectile ℝ} {n : Int} (c : Config ℝ) (hc : c.calculation ≠ 0) (hT : 2.5 ≤ p.T) (hr : LindhardReadable p.T)
    (hA : p.T < 30 → p.A ≤ 3 * element_atomic_weight n) (hQ : c.z_effective = 0 → p.Q ≤ p.Z) (hp : p.Ion n) (hn : n ≤ 108)
    (hz : c.z_effective = 1 ∨ c.z_effective = 0 ∧ 0 ≤ p.Q) :
    ∃ D, ∀ m : Material ℝ, m.Sound → (∀ t ∈ m.atoms, t.Z ≤ 120) → domega2dx env p m c = .ok (D * electronsPerMass m) := by
  have T0 : 0 < p.T := by norm_num at hT; linarith
  have pZ : 1 ≤ p.Z := by rw [hp.Z]; exact_mod_cast hp.pos
  have pZ' : p.Z ≤ 108 := by rw [hp.Z]; exact_mod_cast hn
  have ec : ∀ tz b2, omegaCor c tz b2 = 0 := fun tz b2 => by unfold omegaCor; rw [if_neg hc]
  obtain ⟨X, hX⟩ := lindhard_X_defined env.calcIndex hp hn hr
  obtain ⟨q, hq, q0, q1⟩ : ∃ q, (∀ t, z_effective env.debug p t c = .ok q) ∧ 0 ≤ q ∧ q ≤ p.Z := by
    rcases hz with h1 | ⟨h1, h2⟩
    · have := pierce_blann_bounds p.Z (beta_from_T p.T) (by linarith) (gamma_beta_bounds p.T T0).2.1.le
      exact ⟨_, fun t => (z_effective_basic env.debug p t c).2 h1, this.1, this.2.le⟩
    · exact ⟨_, fun t => (z_effective_basic env.debug p t c).1 h1, h2, hQ h1⟩
  refine ⟨domega2dx_constant * q ^ 2 * (X * (gamma_from_T p.T * gamma_from_T p.T)), fun m hm hk => ?_⟩
  have comp : ∀ t ∈ m.atoms, dedx_variance env p t c =
      .ok (domega2dx_constant * q ^ 2 * (X * (gamma_from_T p.T * gamma_from_T p.T)) * (t.Z / t.A)) := by
    intro t ht
    have tZ : (1 : ℝ) ≤ t.Z := by exact_mod_cast hm.Z t ht
    have tZ' : (t.Z : ℝ) ≤ 120 := by exact_mod_cast hk t ht
    have tA := hm.A t ht
    have hval : domega2dx_constant * q ^ 2 * t.Z / t.A * (X * (gamma_from_T p.T * gamma_from_T p.T) + 0) =
        domega2dx_constant * q ^ 2 * (X * (gamma_from_T p.T * gamma_from_T p.T)) * (t.Z / t.A) := by ring
    rw [variance_formula env p t c q X (hq t) hX, ec]
    split
    · rename_i h30
      obtain ⟨X', hX', l1, l2⟩ := X_low_bounds env.calcIndex hp hn (hA h30) (by linarith)
      rw [hX] at hX'
      obtain rfl := Except.ok.inj hX'
      have := firsov_above p.Z q t.Z t.A p.T X 0 q0 q1 pZ pZ' tZ tZ' tA hT h30.le
        (by norm_num at l1; linarith) l2 le_rfl (by norm_num)
      rw [min_eq_left this, hval]
    · rw [hval]
  have := componentSum_ok m (fun t => dedx_variance env p t c) _ comp
  refine this.trans (congrArg Except.ok ?_)
  unfold electronsPerMass
  rw [← List.sum_map_mul_left]
  exact congrArg List.sum (List.map_congr_left fun t _ => by ring)

/-- C141: so two materials compare for every ion and energy as their numbers of electrons per mass do. -/
theorem straggling_materials (env : Env ℝ) {p : Projectile ℝ} {n : Int} {m m' : Material ℝ} {c : Config ℝ} (h : Computable p n m c)
    (h' : Computable p n m' c) (hc : c.calculation ≠ 0) (hT : 2.5 ≤ p.T) (hr : LindhardReadable p.T)
    (hA : p.T < 30 → p.A ≤ 3 * element_atomic_weight n) (hQ : c.z_effective = 0 → p.Q ≤ p.Z) :
    ∃ u v, domega2dx env p m c = .ok u ∧ domega2dx env p m' c = .ok v ∧ u * electronsPerMass m' = v * electronsPerMass m := by
  obtain ⟨D, hD⟩ := straggling_value env c hc hT hr hA hQ h.ion h.small h.charge
  exact ⟨_, _, hD m h.sound h.known, hD m' h'.sound h'.known, by ring⟩

/-- C141: and two ions, at two energies, compare in every material alike. -/
theorem straggling_ions (env : Env ℝ) {p p' : Projectile ℝ} {n n' : Int} {m m' : Material ℝ} {c : Config ℝ} (h1 : Computable p n m c)
    (h2 : Computable p n m' c) (h3 : Computable p' n' m c) (hc : c.calculation ≠ 0) (hT : 2.5 ≤ p.T) (hT' : 2.5 ≤ p'.T) (hr : LindhardReadable p.T)
    (hr' : LindhardReadable p'.T) (hA : p.T < 30 → p.A ≤ 3 * element_atomic_weight n) (hA' : p'.T < 30 → p'.A ≤ 3 * element_atomic_weight n')
    (hQ : c.z_effective = 0 → p.Q ≤ p.Z ∧ p'.Q ≤ p'.Z) :
    ∃ u u' v v', domega2dx env p m c = .ok u ∧ domega2dx env p m' c = .ok u' ∧ domega2dx env p' m c = .ok v ∧ domega2dx env p' m' c = .ok v' ∧
      u * v' = u' * v := by
  obtain ⟨D, hD⟩ := straggling_value env c hc hT hr hA (fun h => (hQ h).1) h1.ion h1.small h1.charge
  obtain ⟨E, hE⟩ := straggling_value env c hc hT' hr' hA' (fun h => (hQ h).2) h3.ion h3.small h3.charge
  exact ⟨_, _, _, _, hD m h1.sound h1.known, hD m' h2.sound h2.known, hE m h3.sound h3.known, hE m' h2.sound h2.known, by ring⟩

/-- C141: from 30 MeV/u on the variance for a given charge is proportional to its square, whichever the straggling option. -/
theorem straggling_charge_square (env : Env ℝ) {p : Projectile ℝ} {n : Int} {m : Material ℝ} {c : Config ℝ} (h : Computable p n m c)
    (hz : c.z_effective = 0) (hT : 30 ≤ p.T) (hr : LindhardReadable p.T) (Q : ℝ) :
    ∃ u v, domega2dx env p m c = .ok u ∧ domega2dx env { p with Q := Q } m c = .ok v ∧ u * Q ^ 2 = v * p.Q ^ 2 := by
  obtain ⟨X, hX⟩ := lindhard_X_defined env.calcIndex h.ion h.small hr
  have hX' : precalculated_lindhard_X env.calcIndex { p with Q := Q } = .ok X := hX
  have e1 : ∀ t ∈ m.atoms, dedx_variance env p t c = .ok (p.Q ^ 2 * (domega2dx_constant * t.Z / t.A *
      (X * (gamma_from_T p.T * gamma_from_T p.T) + omegaCor c t.Z (beta_from_T p.T * beta_from_T p.T)))) := by
    intro t _
    rw [variance_formula env p t c p.Q X ((z_effective_basic env.debug p t c).1 hz) hX, if_neg (by linarith)]
    congr 1
    ring
  have e2 : ∀ t ∈ m.atoms, dedx_variance env { p with Q := Q } t c = .ok (Q ^ 2 * (domega2dx_constant * t.Z / t.A *
      (X * (gamma_from_T p.T * gamma_from_T p.T) + omegaCor c t.Z (beta_from_T p.T * beta_from_T p.T)))) := by
    intro t _
    rw [variance_formula env { p with Q := Q } t c Q X ((z_effective_basic env.debug { p with Q := Q } t c).1 hz) hX',
      if_neg (show ¬ p.T < 30 by linarith)]
    congr 1
    ring
  refine ⟨_, _, componentSum_ok m _ _ e1, componentSum_ok m _ _ e2, ?_⟩
  rw [← List.sum_map_mul_right, ← List.sum_map_mul_right]
  exact congrArg List.sum (List.map_congr_left fun t _ => by ring)

/-- A proton of 100 MeV in water and in carbon, and carbon ions in both: the hypotheses are met, and from 30 MeV/u on a carbon ion of charge 5
has 25/36 of the variance of the bare ion. -/
example (env : Env ℝ) : (∃ u v,
      domega2dx env ⟨1.00794, 1, 1, 100⟩ (⟨1, 1, 18.015, 0, [⟨1.00794, 1, 2⟩, ⟨15.9994, 8, 1⟩]⟩ : Material ℝ) .default = .ok u ∧
      domega2dx env ⟨1.00794, 1, 1, 100⟩ (⟨2, 1, 12.011, 0, [⟨12.011, 6, 1⟩]⟩ : Material ℝ) .default = .ok v ∧
      u * electronsPerMass ⟨2, 1, 12.011, 0, [⟨12.011, 6, 1⟩]⟩ =
        v * electronsPerMass ⟨1, 1, 18.015, 0, [⟨1.00794, 1, 2⟩, ⟨15.9994, 8, 1⟩]⟩) ∧
    (∃ u u' v v',
      domega2dx env ⟨1.00794, 1, 1, 100⟩ (⟨1, 1, 18.015, 0, [⟨1.00794, 1, 2⟩, ⟨15.9994, 8, 1⟩]⟩ : Material ℝ) .default = .ok u ∧
      domega2dx env ⟨1.00794, 1, 1, 100⟩ (⟨2, 1, 12.011, 0, [⟨12.011, 6, 1⟩]⟩ : Material ℝ) .default = .ok u' ∧
      domega2dx env ⟨12.011, 6, 6, 300⟩ (⟨1, 1, 18.015, 0, [⟨1.00794, 1, 2⟩, ⟨15.9994, 8, 1⟩]⟩ : Material ℝ) .default = .ok v ∧
      domega2dx env ⟨12.011, 6, 6, 300⟩ (⟨2, 1, 12.011, 0, [⟨12.011, 6, 1⟩]⟩ : Material ℝ) .default = .ok v' ∧ u * v' = u' * v) ∧
    ∃ u v, domega2dx env ⟨12.011, 6, 6, 300⟩ (⟨2, 1, 12.011, 0, [⟨12.011, 6, 1⟩]⟩ : Material ℝ)
        { (Config.default : Config ℝ) with z_effective := 0 } = .ok u ∧
      domega2dx env ⟨12.011, 6, 5, 300⟩ (⟨2, 1, 12.011, 0, [⟨12.011, 6, 1⟩]⟩ : Material ℝ)
        { (Config.default : Config ℝ) with z_effective := 0 } = .ok v ∧ u * 5 ^ 2 = v * 6 ^ 2 := by
  have hp := proton_water_computable
  have hs : (⟨2, 1, 12.011, 0, [⟨12.011, 6, 1⟩]⟩ : Material ℝ).Sound := ⟨by simp, by simp, by simp; norm_num, by simp, by norm_num⟩
  have hi : (⟨12.011, 6, 6, 300⟩ : Projectile ℝ).Ion 6 := ⟨by norm_num, by norm_num, by norm_num, by norm_num⟩
  have h1 : LindhardReadable (100 : ℝ) := .inl (below_top 100 (by norm_num))
  have h3 : LindhardReadable (300 : ℝ) := .inl (below_top 300 (by norm_num))
  have hpc : Computable ⟨1.00794, 1, 1, 100⟩ 1 (⟨2, 1, 12.011, 0, [⟨12.011, 6, 1⟩]⟩ : Material ℝ) .default :=
    ⟨hp.ion, hp.small, hs, by simp, hp.charge⟩
  have hcw : Computable ⟨12.011, 6, 6, 300⟩ 6 (⟨1, 1, 18.015, 0, [⟨1.00794, 1, 2⟩, ⟨15.9994, 8, 1⟩]⟩ : Material ℝ) .default :=
    ⟨hi, by norm_num, hp.sound, hp.known, .inl rfl⟩
  refine ⟨straggling_materials env hp hpc (by decide) (by norm_num) h1 (fun h => by norm_num at h) (fun h => by exact absurd h (by decide)),
    straggling_ions env hp hpc hcw (by decide) (by norm_num) (by norm_num) h1 h3 (fun h => by norm_num at h) (fun h => by norm_num at h)
      (fun h => by exact absurd h (by decide)),
    straggling_charge_square env ⟨hi, by norm_num, hs, by simp, .inr ⟨rfl, by norm_num⟩⟩ rfl (by norm_num) h3 5⟩

end Catima
