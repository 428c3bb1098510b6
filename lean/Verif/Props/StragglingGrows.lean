import Verif.Lemmas.XGrow
import Verif.Props.StragglingElement

/-!
# C143: the energy-loss variance grows with the energy, except at 1 MeV/u
-/

open Filter Topology

namespace Catima

/-- The X correction times the square of the Lorentz factor, from 1 MeV/u to 10 GeV/u. -/
theorem X_gamma_grows (ci : Bool) {p : Projectile ℝ} {n : Int} (hp : p.Ion n) (hn : n ≤ 108) (hA : p.A ≤ 3 * element_atomic_weight n) (T T' : ℝ)
    (h1 : 1 ≤ T) (h : T + 1e-6 ≤ T') (h2 : T' ≤ 10000) : ∃ X X', precalculated_lindhard_X ci (p.withT T) = .ok X ∧
      precalculated_lindhard_X ci (p.withT T') = .ok X' ∧ 0 ≤ X * (gamma_from_T T * gamma_from_T T) ∧
      X * (gamma_from_T T * gamma_from_T T) < X' * (gamma_from_T T' * gamma_from_T T') := by
  have hw := atomic_weight_pos n hp.pos (by omega)
  have hb := ls_energy_table_bounds
  have hvle := (EnergyTable.val_le_iff (ls_energy_table : EnergyTable ℝ) hb.1 hb.2.1)
  have hTT : T < T' := by norm_num at h; linarith
  have h114 : 10001 < (ls_energy_table : EnergyTable ℝ).val 114 := by
    have h3 : (10002000 : ℝ) ≤ lsLow 114 := by exact_mod_cast (by decide +kernel : 10002000 ≤ lsLow 114)
    have := lsLow_le 114
    linarith
  have top := (hvle 114 199).mpr (by omega)
  have idx : ∀ i : Nat, (ls_energy_table : EnergyTable ℝ).val i - 10 * 2⁻¹ ^ 52 ≤ 10000 → i < 114 := by
    intro i hi
    by_contra hge
    have := (hvle 114 i).mpr (by omega)
    norm_num at hi
    linarith
  obtain ⟨i, θ, s, r, hr, hrn, -, t0, -, t1, hs, w0, -, hθ, c, hc, hX⟩ := lindhard_X_line ci (withT_ion hp T) hn h1 (show T ≤ _ by linarith)
    (Or.inl (below_top T (by norm_num; linarith)))
  obtain ⟨i', θ', s', r', hr', hrn', -, t0', -, t1', hs', w0', -, hθ', c', hc', hX'⟩ := lindhard_X_line ci (withT_ion hp T') hn (show 1 ≤ T' by linarith)
    (show T' ≤ _ by linarith) (Or.inl (below_top T' (by norm_num; linarith)))
  have er : r' = r := by omega
  subst er
  have es : s' = s := by rw [hs, hs']; rfl
  subst es
  have ec : c' = c := funext fun j => by rw [hc, hc']
  subst ec
  have i1 : i < 114 := idx i (le_trans w0 (show T ≤ 10000 by linarith))
  have i2 : i' < 114 := idx i' (le_trans w0' h2)
  have hs0 : -20 ≤ s' ∧ s' ≤ 40 := by
    rw [hs]
    have a2 : -1 ≤ (p.A - element_atomic_weight n) / element_atomic_weight n := by rw [le_div_iff₀ hw]; linarith [hp.A]
    have a3 : (p.A - element_atomic_weight n) / element_atomic_weight n ≤ 2 := by rw [div_le_iff₀ hw]; linarith
    exact ⟨show -20 ≤ 20 * ((p.A - element_atomic_weight n) / element_atomic_weight n) by linarith,
      show 20 * ((p.A - element_atomic_weight n) / element_atomic_weight n) ≤ 40 by linarith⟩
  obtain ⟨g1, g2⟩ := xTables_rows r' hr
  have size : ∀ j, j ≤ 114 → 0.5 ≤ c' j ∧ c' j ≤ 3 := fun j hj => by rw [hc j]; exact xRow_size g2 j hj s' hs0.1 hs0.2
  have v1 : ∀ j, 1 ≤ (ls_energy_table : EnergyTable ℝ).val j := fun j => by rw [← ls_first]; exact (hvle 0 j).mpr (by omega)
  have rb := lsRatio_bounds
  have v114 : (ls_energy_table : EnergyTable ℝ).val 114 ≤ 11000 := by
    have up : ∀ j : Nat, (ls_energy_table : EnergyTable ℝ).val j ≤ 1.0845 ^ j := by
      intro j
      induction j with
      | zero => rw [ls_first]; norm_num
      | succ j ih =>
        rw [ls_geometric, pow_succ, mul_comm]
        exact mul_le_mul ih rb.2 (le_trans (by norm_num) rb.1) (by positivity)
    exact (up 114).trans (by norm_num)
  have gap : ∀ j < 114, (ls_energy_table : EnergyTable ℝ).val (j + 1) - (ls_energy_table : EnergyTable ℝ).val j =
      (lsRatio - 1) * (ls_energy_table : EnergyTable ℝ).val j := fun j _ => by rw [ls_geometric]; ring
  have vN : ∀ j ≤ 114, (ls_energy_table : EnergyTable ℝ).val j ≤ 11000 := fun j hj => ((hvle j 114).mpr hj).trans v114
  norm_num at rb
  have key := grid_grow 931.4940954 (fun j => (ls_energy_table : EnergyTable ℝ).val j) c' 114 (by norm_num) (by norm_num) v1 vN
    (fun j hj => by
      have a1 := v1 j
      have a2 := vN j hj.le
      beta_reduce
      rw [gap j hj]
      norm_num
      constructor <;> nlinarith)
    (fun j hj => (size j hj).1) (fun j hj => (size j hj).2)
    (fun j hj => by
      have a1 := v1 j
      have a5 := (size (j + 1) (by omega)).1
      norm_num at a5
      beta_reduce
      rw [ls_geometric]
      exact X_segment _ _ _ (lsLow j) _ _ (by norm_num) (by linarith) (by norm_num; linarith) (by norm_num; linarith) (by positivity) (lsLow_le j)
        (by norm_num) (by linarith) (xRow_grows g1 g2 j hj s' hs0.1 hs0.2 _ _ (hc j) (hc (j + 1))))
    i i' θ θ' T T' i1 i2 hθ hθ' t0 t1 t0' t1' h1 h
  refine ⟨_, _, hX, hX', ?_⟩
  have eg : ∀ X x : ℝ, X * (gamma_from_T x * gamma_from_T x) = X * (931.4940954 + x) ^ 2 / 931.4940954 ^ 2 := by
    intro X x
    unfold gamma_from_T atomic_mass_unit
    norm_num
    ring
  rw [eg, eg]
  constructor
  · have := size i (by omega)
    have h5 := size (i + 1) (by omega)
    have : 0 ≤ c' i + θ * (c' (i + 1) - c' i) := by
      norm_num at this h5 t0
      rcases le_total 0 θ with h | h <;> nlinarith
    positivity
  · exact div_lt_div_of_pos_right key (by norm_num)

/-- The variance of one component. -/
theorem variance_grows (p : Projectile ℝ) (t : Target ℝ) (tZ : 1 ≤ t.Z) (tA : 0 < t.A) (pZ : 1 ≤ p.Z) (T T' q q' X X' : ℝ) (T0 : 0 < T) (h : T < T')
    (q0 : 0 < q) (hq : q ≤ q') (hX0 : 0 ≤ X) (hX : X < X') :
    (if T < 30 then min (domega2dx_constant * q ^ 2 * t.Z / t.A * (X + 0)) (energy_straggling_firsov p.Z T t.Z t.A)
      else domega2dx_constant * q ^ 2 * t.Z / t.A * (X + 0)) <
    (if T' < 30 then min (domega2dx_constant * q' ^ 2 * t.Z / t.A * (X' + 0)) (energy_straggling_firsov p.Z T' t.Z t.A)
      else domega2dx_constant * q' ^ 2 * t.Z / t.A * (X' + 0)) := by
  have htz : (1 : ℝ) ≤ (t.Z : ℝ) := by exact_mod_cast tZ
  have tz0 : (0 : ℝ) < t.Z := by linarith
  have hd : (0 : ℝ) < domega2dx_constant := by norm_num [domega2dx_constant, dedx_constant, electron_mass]
  have m : domega2dx_constant * q ^ 2 * t.Z / t.A * (X + 0) < domega2dx_constant * q' ^ 2 * t.Z / t.A * (X' + 0) := by
    have q0' : 0 < q' := by linarith
    have a1 : domega2dx_constant * q ^ 2 * t.Z / t.A * (X + 0) ≤ domega2dx_constant * q' ^ 2 * t.Z / t.A * (X + 0) := by
      rw [add_zero]
      gcongr
    have a2 : domega2dx_constant * q' ^ 2 * t.Z / t.A * (X + 0) < domega2dx_constant * q' ^ 2 * t.Z / t.A * (X' + 0) :=
      mul_lt_mul_of_pos_left (by linarith) (by positivity)
    linarith
  have f : energy_straggling_firsov p.Z T t.Z t.A < energy_straggling_firsov p.Z T' t.Z t.A := by
    have hg := (gamma_beta_strictMono T T' T0.le h).1
    have hg1 := (gamma_beta_bounds T T0).1
    have hf : (0 : ℝ) < fine_structure := by norm_num [fine_structure]
    have hz : (0 : ℝ) < (p.Z + t.Z) ^ (8.0 / 3.0 : ℝ) := Real.rpow_pos_of_pos (by linarith) _
    have hb : 1.0 - 1.0 / (gamma_from_T T * gamma_from_T T) < 1.0 - 1.0 / (gamma_from_T T' * gamma_from_T T') := by
      have : gamma_from_T T * gamma_from_T T < gamma_from_T T' * gamma_from_T T' := by nlinarith
      have := div_lt_div_of_pos_left (show (0 : ℝ) < 1.0 by norm_num) (by positivity) this
      linarith
    show 4.8184e-3 * (p.Z + t.Z) ^ (8.0 / 3.0 : ℝ) / t.A * (1.0 - 1.0 / (gamma_from_T T * gamma_from_T T)) / fine_structure / fine_structure <
      4.8184e-3 * (p.Z + t.Z) ^ (8.0 / 3.0 : ℝ) / t.A * (1.0 - 1.0 / (gamma_from_T T' * gamma_from_T T')) / fine_structure / fine_structure
    refine div_lt_div_of_pos_right (div_lt_div_of_pos_right (mul_lt_mul_of_pos_left hb ?_) hf) hf
    positivity
  split <;> split
  · exact min_lt_min m f
  · exact lt_of_le_of_lt (min_le_left _ _) m
  · exfalso; linarith
  · exact m

/-- **C143**, on either side of 1 MeV/u: with the option bohr the energy-loss variance grows with the energy, below 1 MeV/u, and from 1 MeV/u
to 10 GeV/u between energies that differ by at least 1 eV/u. Missing: the step over 1 MeV/u, where it fails. -/
theorem straggling_grows_partial (env : Env ℝ) {p : Projectile ℝ} {n : Int} {m : Material ℝ} {c : Config ℝ} (h : Computable p n m c)
    (hc : c.calculation ≠ 0) (hA : p.A ≤ 3 * element_atomic_weight n) (hQ : c.z_effective = 0 → 0 < p.Q) (T T' : ℝ)
    (hT : 0 < T ∧ T < T' ∧ T' < 1 ∨ 1 ≤ T ∧ T + 1e-6 ≤ T' ∧ T' ≤ 10000) :
    ∃ v v', domega2dx env (p.withT T) m c = .ok v ∧ domega2dx env (p.withT T') m c = .ok v' ∧ v < v' := by
  have pZ : 1 ≤ p.Z := by rw [h.ion.Z]; exact_mod_cast h.ion.pos
  have ec : ∀ tz b2, omegaCor c tz b2 = 0 := fun tz b2 => by unfold omegaCor; rw [if_neg hc]
  obtain ⟨T0, hTT, X, X', hX, hX', x0, xx⟩ : 0 < T ∧ T < T' ∧ ∃ X X', precalculated_lindhard_X env.calcIndex (p.withT T) = .ok X ∧
      precalculated_lindhard_X env.calcIndex (p.withT T') = .ok X' ∧ 0 ≤ X * (gamma_from_T T * gamma_from_T T) ∧
      X * (gamma_from_T T * gamma_from_T T) < X' * (gamma_from_T T' * gamma_from_T T') := by
    rcases hT with ⟨h1, h2, h3⟩ | ⟨h1, h2, h3⟩
    · refine ⟨h1, h2, 1, 1, X_low env.calcIndex _ n (withT_ion h.ion T) (by rw [ls_first]; exact h2.trans h3),
        X_low env.calcIndex _ n (withT_ion h.ion T') (by rw [ls_first]; exact h3), ?_, ?_⟩
      · rw [one_mul]; exact mul_self_nonneg _
      · have hg := (gamma_beta_strictMono T T' h1.le h2).1
        have hg1 := (gamma_beta_bounds T h1).1
        nlinarith
    · exact ⟨by linarith, by norm_num at h2; linarith, X_gamma_grows env.calcIndex h.ion h.small hA T T' h1 h2 h3⟩
  obtain ⟨q, q', hq, hq', q0, qq⟩ : ∃ q q', (∀ t, z_effective env.debug (p.withT T) t c = .ok q) ∧
      (∀ t, z_effective env.debug (p.withT T') t c = .ok q') ∧ 0 < q ∧ q ≤ q' := by
    rcases h.charge with h1 | ⟨h1, -⟩
    · have hb := (gamma_beta_strictMono T T' T0.le hTT).2
      have := pierce_step p.Z (beta_from_T T) (beta_from_T T') (by linarith) (gamma_beta_bounds T T0).2.1 hb.le
      exact ⟨_, _, fun t => (z_effective_basic env.debug (p.withT T) t c).2 h1, fun t => (z_effective_basic env.debug (p.withT T') t c).2 h1, this.1, this.2.1⟩
    · exact ⟨_, _, fun t => (z_effective_basic env.debug (p.withT T) t c).1 h1, fun t => (z_effective_basic env.debug (p.withT T') t c).1 h1, hQ h1, le_rfl⟩
  have B : ∀ t ∈ m.atoms, ∃ v v', dedx_variance env (p.withT T) t c = .ok v ∧ dedx_variance env (p.withT T') t c = .ok v' ∧ v < v' := by
    intro t ht
    have a1 := variance_formula env (p.withT T) t c q X (hq t) hX
    have a2 := variance_formula env (p.withT T') t c q' X' (hq' t) hX'
    rw [ec] at a1 a2
    exact ⟨_, _, a1, a2, variance_grows p t (h.sound.Z t ht) (h.sound.A t ht) pZ T T' q q' _ _ T0 hTT q0 qq x0 xx⟩
  choose! g g' e e' he using B
  exact ⟨_, _, componentSum_ok m _ g e, componentSum_ok m _ g' e', map_sum_lt h.sound (fun t => g' t) (fun t => g t) he⟩

/-- **C143** fails over 1 MeV/u: hydrogen ions of a smaller energy straggle more than those of 1 MeV/u, in every material. -/
theorem straggling_grows_wrong (env : Env ℝ) {p : Projectile ℝ} {m : Material ℝ} {c : Config ℝ} (h : Computable p 1 m c)
    (hQ : c.z_effective = 0 → 0 < p.Q ∧ p.Q ≤ 1) (hc : c.calculation ≠ 0) :
    ∃ T v v', 0.9 < T ∧ T < 1 ∧ domega2dx env (p.withT T) m c = .ok v ∧ domega2dx env (p.withT 1) m c = .ok v' ∧ v' < v := by
  obtain ⟨D, v, hD, hv, v0, lim⟩ := straggling_jumps_wrong env h hQ hc
  have hlt : v < v / 0.999182 := by rw [lt_div_iff₀ (by norm_num)]; norm_num; linarith
  have e1 : ∀ᶠ T in 𝓝[<] (1 : ℝ), v < D T := lim.eventually (lt_mem_nhds hlt)
  have e2 : ∀ᶠ T in 𝓝[<] (1 : ℝ), T ∈ Set.Ioo (0.9 : ℝ) 1 := Ioo_mem_nhdsLT (by norm_num)
  obtain ⟨T, h1, h2⟩ := (e1.and e2).exists
  exact ⟨T, D T, v, h2.1, h2.2, hD T h2.1.le h2.2, hv, h1⟩

/-- Protons in water with 100 and 200 MeV, and the energies around 1 MeV. -/
example (env : Env ℝ) : (∃ v v',
      domega2dx env ⟨1.00794, 1, 1, 100⟩ (⟨1, 1, 18.015, 0, [⟨1.00794, 1, 2⟩, ⟨15.9994, 8, 1⟩]⟩ : Material ℝ) .default = .ok v ∧
      domega2dx env ⟨1.00794, 1, 1, 200⟩ (⟨1, 1, 18.015, 0, [⟨1.00794, 1, 2⟩, ⟨15.9994, 8, 1⟩]⟩ : Material ℝ) .default = .ok v' ∧ v < v') ∧
    ∃ T v v', 0.9 < T ∧ T < 1 ∧
      domega2dx env ⟨1.00794, 1, 1, T⟩ (⟨1, 1, 18.015, 0, [⟨1.00794, 1, 2⟩, ⟨15.9994, 8, 1⟩]⟩ : Material ℝ) .default = .ok v ∧
      domega2dx env ⟨1.00794, 1, 1, 1⟩ (⟨1, 1, 18.015, 0, [⟨1.00794, 1, 2⟩, ⟨15.9994, 8, 1⟩]⟩ : Material ℝ) .default = .ok v' ∧ v' < v := by
  have e1 : element_atomic_weights[1]? = some ⟨100794, 5⟩ := rfl
  exact ⟨straggling_grows_partial env proton_water_computable (by decide) (by norm_num [element_atomic_weight, e1, Dec.toScalar])
      (fun h => absurd h (by decide)) 100 200 (.inr ⟨by norm_num, by norm_num, by norm_num⟩),
    straggling_grows_wrong env proton_water_computable (fun h => absurd h (by decide)) (by decide)⟩

end Catima
