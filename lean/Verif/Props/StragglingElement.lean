import Verif.Lemmas.XElement

/-!
# C142: up to 1000 MeV/u the energy loss of ions of higher nuclear charge fluctuates more strongly
-/

namespace Catima

/-- The larger charge outweighs the smaller X correction. -/
theorem variance_step (n y y' X X' g c K : ℝ) (hn : 1 ≤ n) (hy : 0 < y) (hyy : y * (1 + 2 / (3 * n + 1)) ≤ y') (hX : (3 * n + 1) * X < (3 * n + 3) * X')
    (hg : 0 < g) (hc : 0 ≤ c) (hX0 : 0 ≤ X') (hK : 0 < K) : K * y * (X * g + c) < K * y' * (X' * g + c) := by
  have w0 : 0 < 3 * n + 1 := by linarith
  have e : y * (1 + 2 / (3 * n + 1)) = y * (3 * n + 3) / (3 * n + 1) := by field_simp; ring
  rw [e, div_le_iff₀ w0] at hyy
  have h1 : (3 * n + 1) * (X * g + c) < (3 * n + 3) * (X' * g + c) := by nlinarith
  have b0 : 0 ≤ X' * g + c := by positivity
  have h2 : (3 * n + 1) * (y * (X * g + c)) < (3 * n + 1) * (y' * (X' * g + c)) := by
    calc _ = y * ((3 * n + 1) * (X * g + c)) := by ring
      _ < y * ((3 * n + 3) * (X' * g + c)) := mul_lt_mul_of_pos_left h1 hy
      _ = y * (3 * n + 3) * (X' * g + c) := by ring
      _ ≤ y' * (3 * n + 1) * (X' * g + c) := mul_le_mul_of_nonneg_right hyy b0
      _ = _ := by ring
  have h3 := lt_of_mul_lt_mul_left h2 w0.le
  calc _ = K * (y * (X * g + c)) := by ring
    _ < K * (y' * (X' * g + c)) := mul_lt_mul_of_pos_left h3 hK
    _ = _ := by ring

/-- The limit of Firsov grows with the charge number of the ion. -/
theorem firsov_element (z z' T tz A : ℝ) (hz : 0 < z) (hzz : z < z') (ht : 0 < tz) (hA : 0 < A) (hT : 0 < T) :
    energy_straggling_firsov z T tz A < energy_straggling_firsov z' T tz A := by
  have h1 : (z + tz) ^ (8.0 / 3.0 : ℝ) < (z' + tz) ^ (8.0 / 3.0 : ℝ) := Real.rpow_lt_rpow (by linarith) (by linarith) (by norm_num)
  have hg : 1 < gamma_from_T T := by
    unfold gamma_from_T atomic_mass_unit
    have : (0 : ℝ) < T / 931.4940954 := by positivity
    norm_num at this ⊢
    linarith
  have hb : 0 < 1.0 - 1.0 / (gamma_from_T T * gamma_from_T T) := by
    have : 1.0 / (gamma_from_T T * gamma_from_T T) < 1 := by
      rw [div_lt_one (by positivity)]; norm_num; nlinarith
    norm_num at this ⊢
    linarith
  have hf : (0 : ℝ) < fine_structure := by norm_num [fine_structure]
  show 4.8184e-3 * (z + tz) ^ (8.0 / 3.0 : ℝ) / A * (1.0 - 1.0 / (gamma_from_T T * gamma_from_T T)) / fine_structure / fine_structure <
    4.8184e-3 * (z' + tz) ^ (8.0 / 3.0 : ℝ) / A * (1.0 - 1.0 / (gamma_from_T T * gamma_from_T T)) / fine_structure / fine_structure
  gcongr

/-- The variance of ions of neighbouring elements in one component. -/
theorem variance_element (env : Env ℝ) {p p' : Projectile ℝ} {n : Int} (hp : p.Ion n) (hp' : p'.Ion (n + 1)) (hn : n ≤ 91)
    (hA : p.A ≤ 3 * element_atomic_weight n) (hA' : p'.A ≤ 3 * element_atomic_weight (n + 1)) (hT : p'.T = p.T) (h0 : 0 < p.T)
    (h3 : p.T ≤ 1000) (t : Target ℝ) (tZ : 1 ≤ t.Z) (tA : 0 < t.A) (c : Config ℝ) (hc : c.z_effective = 1) :
    ∃ v v', dedx_variance env p t c = .ok v ∧ dedx_variance env p' t c = .ok v' ∧ v < v' := by
  have htz : (1 : ℝ) ≤ (t.Z : ℝ) := by exact_mod_cast tZ
  have hZ : (1 : ℝ) ≤ n := by exact_mod_cast hp.pos
  have gb := gamma_beta_bounds p.T h0
  have val : ∀ q : Projectile ℝ, q.T = p.T → z_effective env.debug q t c = .ok (z_eff_Pierce_Blann q.Z (beta_from_T p.T)) := by
    intro q hq
    rw [← hq]
    exact (z_effective_basic env.debug q t c).2 hc
  obtain ⟨z0, zz, zq⟩ := pierce_element n (beta_from_T p.T) hZ gb.2.1
  have v1 := val p rfl
  have v2 := val p' hT
  rw [hp.Z] at v1
  rw [hp'.Z, Int.cast_add, Int.cast_one] at v2
  obtain ⟨X, X', eX, eX', hX, hX0⟩ := X_pair env.calcIndex hp hp' hn hA hA' hT h3
  rw [variance_formula env p t c _ X v1 eX, variance_formula env p' t c _ X' v2 eX', hT]
  refine ⟨_, _, rfl, rfl, ?_⟩
  have o := (omegaCor_bounds c t.Z (beta_from_T p.T * beta_from_T p.T) htz (by have := gb.2.1; positivity)).1
  have hg : 0 < gamma_from_T p.T * gamma_from_T p.T := by
    have := gb.1
    positivity
  have hd : (0 : ℝ) < domega2dx_constant := by norm_num [domega2dx_constant, dedx_constant, electron_mass]
  have tz0 : (0 : ℝ) < t.Z := by linarith
  have m := variance_step n _ _ X X' (gamma_from_T p.T * gamma_from_T p.T) _ (domega2dx_constant * t.Z / t.A) hZ (pow_pos z0 2) zq hX hg o hX0
    (by positivity)
  have e : ∀ q Y : ℝ, domega2dx_constant * q ^ 2 * t.Z / t.A * Y = domega2dx_constant * t.Z / t.A * q ^ 2 * Y := fun q Y => by ring
  rw [e, e]
  have f := firsov_element p.Z p'.Z p.T t.Z t.A (by rw [hp.Z]; linarith) (by rw [hp.Z, hp'.Z]; push_cast; linarith) (by linarith) tA h0
  split
  · exact min_lt_min m f
  · exact m

/-- **C142.** Up to 1000 MeV/u, with the effective charge of Pierce and Blann, the energy loss of the ion of the heavier element fluctuates more
strongly than that of the ion of the lighter element with the same velocity, in every material and with both straggling options. -/
theorem heavier_element_straggling (env : Env ℝ) {p p' : Projectile ℝ} {n n' : Int} (hp : p.Ion n) (hp' : p'.Ion n') (hn : n < n') (hu : n' ≤ 92)
    (hA : p.A ≤ 3 * element_atomic_weight n) (hA' : p'.A ≤ 3 * element_atomic_weight n') {m : Material ℝ} (hm : m.Sound) (c : Config ℝ)
    (hc : c.z_effective = 1) (hT : p'.T = p.T) (h0 : 0 < p.T) (h3 : p.T ≤ 1000) :
    ∃ v v', domega2dx env p m c = .ok v ∧ domega2dx env p' m c = .ok v' ∧ v < v' := by
  obtain ⟨d, hd⟩ : ∃ d : Nat, n' = n + 1 + d := ⟨(n' - n - 1).toNat, by omega⟩
  have h1 := hp.pos
  have B : ∀ t ∈ m.atoms, ∃ v v', dedx_variance env p t c = .ok v ∧ dedx_variance env p' t c = .ok v' ∧ v < v' := by
    intro t ht
    refine element_chain (fun q => dedx_variance env q t c)
      (fun k q => q.Ion k ∧ q.A ≤ 3 * element_atomic_weight k ∧ q.T = p.T) (fun _ _ => True) (· < ·) (fun _ _ _ => lt_trans) 92 ?_ ?_ d n p p'
      h1 (by omega) ⟨hp, hA, rfl⟩ (by rw [← hd]; exact ⟨hp', hA', hT⟩) trivial
    · intro k k' q q' k1 kk kt _ _ _
      have w := atomic_weight_pos (k + 1) (by omega) (by omega)
      exact ⟨⟨element_atomic_weight (k + 1), ((k + 1 : Int) : ℝ), 0, p.T⟩, ⟨⟨rfl, by omega, by linarith, w⟩, by
        show element_atomic_weight (k + 1) ≤ 3 * element_atomic_weight (k + 1); linarith, rfl⟩, trivial, trivial⟩
    · rintro k q q' k1 kt ⟨i1, a1, t1⟩ ⟨i2, a2, t2⟩ -
      exact variance_element env i1 i2 (by omega) a1 a2 (by rw [t1, t2]) (by rw [t1]; exact h0) (by rw [t1]; exact h3) t (hm.Z t ht) (hm.A t ht) c hc
  choose! g g' e e' he using B
  exact ⟨_, _, componentSum_ok m _ g e, componentSum_ok m _ g' e', map_sum_lt hm (fun t => g' t) (fun t => g t) he⟩

/-- A proton and a uranium ion at every energy up to 1000 MeV/u in water. -/
example (env : Env ℝ) (T : ℝ) (h0 : 0 < T) (h3 : T ≤ 1000) : ∃ v v',
    domega2dx env ⟨1.00794, 1, 1, T⟩ (⟨1, 1, 18.015, 0, [⟨1.00794, 1, 2⟩, ⟨15.9994, 8, 1⟩]⟩ : Material ℝ) .default = .ok v ∧
    domega2dx env ⟨238, 92, 92, T⟩ (⟨1, 1, 18.015, 0, [⟨1.00794, 1, 2⟩, ⟨15.9994, 8, 1⟩]⟩ : Material ℝ) .default = .ok v' ∧ v < v' := by
  have e1 : element_atomic_weights[1]? = some ⟨100794, 5⟩ := rfl
  have e2 : element_atomic_weights[92]? = some ⟨238029, 3⟩ := rfl
  refine heavier_element_straggling (n := 1) (n' := 92) env ⟨by norm_num, by norm_num, by norm_num, by norm_num⟩
    ⟨by norm_num, by norm_num, by norm_num, by norm_num⟩ (by norm_num) le_rfl ?_ ?_ proton_water_computable.sound .default rfl rfl h0 h3
  · norm_num [element_atomic_weight, e1, Dec.toScalar]
  · norm_num [element_atomic_weight, show Int.toNat 92 = 92 from rfl, e2, Dec.toScalar]

end Catima
