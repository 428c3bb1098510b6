import Verif.Props.Stopping

/-!
# C46, C47: radiation length and energy-loss variance
-/

namespace Catima

/-! ## C46 -/

theorem radiation_table_pos : ∀ e ∈ radiation_length_table, 0 < e.2.m := by decide

theorem lookup_mem {β : Type} (l : List (Int × β)) (z : Int) (d : β) (h : l.lookup z = some d) :
    (z, d) ∈ l := by
  induction l with
  | nil => simp at h
  | cons e l ih =>
    obtain ⟨k, v⟩ := e
    rw [List.lookup_cons] at h
    split at h
    · rename_i hk
      simp only [beq_iff_eq] at hk
      cases h
      subst hk
      simp
    · exact List.mem_cons_of_mem _ (ih h)

/-- The logarithmic bracket of calculations.cpp:550 is positive. -/
theorem radiation_bracket_pos (z a k l : ℝ) (hz : 0 < z) (ha : 0 < a) (hk : 1 ≤ k) (hl : 1 ≤ l) :
    0 < Real.log (184.15 * (1 / k)) + Real.log (1194.0 * (1 / l)) / z - -1.202 * a +
      1.0369 * (a * a) - 1.008 * (a * a * a) / (1.0 + a) ∨ 184.15 < k ∨ 1194 < l := by
  by_cases hk' : 184.15 < k
  · right; left; exact hk'
  by_cases hl' : 1194 < l
  · right; right; exact hl'
  left
  have h1 : 0 ≤ Real.log (184.15 * (1 / k)) := by
    apply Real.log_nonneg
    rw [mul_one_div, le_div_iff₀ (by linarith)]
    linarith
  have h2 : 0 ≤ Real.log (1194.0 * (1 / l)) := by
    apply Real.log_nonneg
    rw [mul_one_div, le_div_iff₀ (by linarith)]
    norm_num
    linarith
  have h3 : 0 ≤ Real.log (1194.0 * (1 / l)) / z := div_nonneg h2 hz.le
  have h4 : 1.008 * (a * a * a) / (1.0 + a) ≤ 1.008 * (a * a) := by
    rw [div_le_iff₀ (by positivity)]
    norm_num
    nlinarith [mul_pos ha ha]
  generalize Real.log (184.15 * (1 / k)) = x1 at h1 ⊢
  generalize Real.log (1194.0 * (1 / l)) / z = x2 at h3 ⊢
  generalize 1.008 * (a * a * a) / (1.0 + a) = x3 at h4 ⊢
  norm_num at h4 ⊢
  nlinarith [mul_pos ha ha]

/-- C46: the radiation length of an element is positive, for every charge from 1 to 1000. -/
theorem radiation_length_pos (z : Int) (m : ℝ) (h1 : 1 ≤ z) (h2 : z ≤ 1000) (hm : 0 < m) :
    0 < radiation_length_z z m := by
  unfold radiation_length_z
  split
  · rename_i d hd
    exact d.toScalar_pos (radiation_table_pos _ (lookup_mem _ _ _ hd))
  · have hz1 : (1 : ℝ) ≤ z := by exact_mod_cast h1
    have hz2 : (z : ℝ) ≤ 1000 := by exact_mod_cast h2
    have hz0 : (0 : ℝ) < z := by linarith
    simp only [ofInt_real, pow_real, log_real, Int.cast_mul]
    have e13 : ((1.0 : ℝ) / 3.0) = 1 / 3 := by norm_num
    rw [e13]
    have k1 : (1 : ℝ) ≤ (z : ℝ) ^ ((1 : ℝ) / 3) := Real.one_le_rpow hz1 (by norm_num)
    have k3 : ((z : ℝ) ^ ((1 : ℝ) / 3)) ^ 3 = z := by
      rw [← Real.rpow_natCast, ← Real.rpow_mul hz0.le]
      norm_num
    generalize (z : ℝ) ^ ((1 : ℝ) / 3) = k at k1 k3
    have k2 : k ≤ 10 := by
      by_contra h
      push Not at h
      have : (10 : ℝ) ^ 3 < k ^ 3 := pow_lt_pow_left₀ h (by norm_num) (by norm_num)
      rw [k3] at this
      norm_num at this
      linarith
    have ha : (0 : ℝ) < fine_structure * fine_structure * (z * z) := by
      have : (0 : ℝ) < fine_structure := by norm_num [fine_structure]
      positivity
    generalize (fine_structure * fine_structure * ((z : ℝ) * z) : ℝ) = a at ha
    have e1 : (1.0 : ℝ) / k * (1.0 / k) = 1 / (k * k) := by norm_num
    have e2 : (1.0 : ℝ) / k = 1 / k := by norm_num
    rw [e1, e2]
    rcases radiation_bracket_pos z a k (k * k) hz0 ha k1 (by nlinarith) with h | h | h
    · positivity
    · norm_num at h; linarith
    · nlinarith

theorem radiation_length_eq (m : Material ℝ) :
    1 / radiation_length m = (m.atoms.map fun t => m.wfrac t * (1 / radiation_length_z t.Z t.A)).sum := by
  unfold radiation_length
  rw [foldl_add_map]
  norm_num
  simp only [div_eq_mul_inv]

/-- C38, C46: the inverse radiation length of a material is the weight-fraction-weighted sum of the
inverse radiation lengths of its elements: a weighted harmonic mean. -/
theorem radiation_length_harmonic (m : Material ℝ) (hA : ∀ t ∈ m.atoms, t.A ≠ 0) :
    (weightFractions m).map (fun ws => (List.zipWith (· * ·) ws
      (m.atoms.map fun t => 1 / radiation_length (m.only t))).sum) = .ok (1 / radiation_length m) := by
  have hw : weightFractions m = .ok (m.atoms.map m.wfrac) := mapM_rd m.atoms m.wfrac
  rw [hw]
  show (Except.ok _ : M ℝ) = Except.ok _
  congr 1
  have e : (m.atoms.map fun t => 1 / radiation_length (m.only t)) =
      m.atoms.map fun t => 1 / radiation_length_z t.Z t.A := by
    apply List.map_congr_left
    intro t ht
    rw [radiation_length_eq, Material.only_atoms]
    simp only [List.map_cons, List.map_nil, List.sum_cons, List.sum_nil, add_zero,
      m.only_wfrac t (hA t ht), one_mul]
  rw [e, radiation_length_eq]
  exact zipWith_map_sum _ _ _

/-- C46: the radiation length of a material lies between the smallest and largest radiation length
of its elements when the weight fractions add up to 1. -/
theorem radiation_length_between (m : Material ℝ) (hm : m.Sound) (hZ : ∀ t ∈ m.atoms, t.Z ≤ 1000)
    (ws : List ℝ) (hw : weightFractions m = .ok ws) (h1 : ws.sum = 1) (a b : ℝ) (ha : 0 < a)
    (hab : ∀ t ∈ m.atoms, a ≤ radiation_length_z t.Z t.A ∧ radiation_length_z t.Z t.A ≤ b) :
    a ≤ radiation_length m ∧ radiation_length m ≤ b := by
  have hw' : weightFractions m = .ok (m.atoms.map m.wfrac) := mapM_rd m.atoms m.wfrac
  rw [hw'] at hw
  obtain rfl := Except.ok.inj hw
  have hb : 0 < b := by
    obtain ⟨t, l, ht⟩ := List.exists_cons_of_ne_nil hm.nonempty
    have := hab t (by rw [ht]; simp)
    linarith [this.1, this.2]
  have hk := weighted_between (m.atoms.map m.wfrac)
    (m.atoms.map fun t => 1 / radiation_length_z t.Z t.A) (by simp)
    (by
      intro w hw
      obtain ⟨t, ht, rfl⟩ := List.mem_map.mp hw
      exact (m.wfrac_pos hm t ht).le) h1 (1 / b) (1 / a)
    (by
      intro v hv
      obtain ⟨t, ht, rfl⟩ := List.mem_map.mp hv
      have := radiation_length_pos t.Z t.A (hm.Z t ht) (hZ t ht) (hm.A t ht)
      have hh := hab t ht
      exact ⟨one_div_le_one_div_of_le this hh.2, one_div_le_one_div_of_le ha hh.1⟩)
  rw [zipWith_map_sum, ← radiation_length_eq] at hk
  have hpos : 0 < radiation_length m := by
    have : 0 < 1 / radiation_length m := lt_of_lt_of_le (by positivity) hk.1
    exact one_div_pos.mp this
  constructor
  · exact (one_div_le_one_div hpos ha).mp hk.2
  · exact (one_div_le_one_div hb hpos).mp hk.1

/-- The radiation length of a sound material is positive. -/
theorem radiation_length_material_pos (m : Material ℝ) (hm : m.Sound)
    (hZ : ∀ t ∈ m.atoms, t.Z ≤ 1000) : 0 < radiation_length m := by
  apply one_div_pos.mp
  rw [radiation_length_eq]
  exact sum_pos_of_forall _ _ (fun t ht => by
    have := radiation_length_pos t.Z t.A (hm.Z t ht) (hZ t ht) (hm.A t ht)
    have := m.wfrac_pos hm t ht
    positivity) hm.nonempty

/-- Silicon dioxide given by weight fractions meets the hypotheses. -/
example : 21.82 ≤ radiation_length (⟨1, 1, 20.03, 0, [⟨28.0855, 14, 0.4674⟩, ⟨15.999, 8, 0.5326⟩]⟩ : Material ℝ) ∧
    radiation_length (⟨1, 1, 20.03, 0, [⟨28.0855, 14, 0.4674⟩, ⟨15.999, 8, 0.5326⟩]⟩ : Material ℝ) ≤ 34.24 := by
  have e14 : radiation_length_z 14 (28.0855 : ℝ) = 21.82 := by
    show (Dec.toScalar ⟨2182, 2⟩ : ℝ) = _
    rw [Dec.toScalar_real]; norm_num
  have e8 : radiation_length_z 8 (15.999 : ℝ) = 34.24 := by
    show (Dec.toScalar ⟨3424, 2⟩ : ℝ) = _
    rw [Dec.toScalar_real]; norm_num
  refine radiation_length_between _ (by constructor <;> simp <;> norm_num) (by simp)
    [0.4674, 0.5326] ?_ (by norm_num) _ _ (by norm_num) ?_
  · have := mapM_rd (⟨1, 1, 20.03, 0, [⟨28.0855, 14, 0.4674⟩, ⟨15.999, 8, 0.5326⟩]⟩ : Material ℝ).atoms
      (⟨1, 1, 20.03, 0, [⟨28.0855, 14, 0.4674⟩, ⟨15.999, 8, 0.5326⟩]⟩ : Material ℝ).wfrac
    refine Eq.trans this ?_
    simp only [List.map_cons, List.map_nil, Material.wfrac]
    rw [if_pos (by rw [lt_real]; norm_num), if_pos (by rw [lt_real]; norm_num)]
  · intro t ht
    simp only [List.mem_cons, List.not_mem_nil, or_false] at ht
    rcases ht with rfl | rfl
    · simp only [e14]; norm_num
    · simp only [e8]; norm_num

/-! ## C47 -/

theorem firsov_nonneg (z1 E z2 m2 : ℝ) (hz : 0 ≤ z1 + z2) (hE : 0 ≤ E) (hm : 0 < m2) :
    0 ≤ energy_straggling_firsov z1 E z2 m2 := by
  unfold energy_straggling_firsov
  simp only [pow_real]
  have hb : (0 : ℝ) ≤ 1.0 - 1.0 / (gamma_from_T E * gamma_from_T E) := by
    have hg : (1 : ℝ) ≤ gamma_from_T E := by
      unfold gamma_from_T
      have := amu_pos
      have : 0 ≤ E / atomic_mass_unit := by positivity
      norm_num
      linarith
    have : (1 : ℝ) / (gamma_from_T E * gamma_from_T E) ≤ 1 := by
      rw [div_le_one (by nlinarith)]
      nlinarith
    norm_num at this ⊢
    linarith
  generalize (1.0 : ℝ) - 1.0 / (gamma_from_T E * gamma_from_T E) = b at hb ⊢
  have hf : (0 : ℝ) < fine_structure := by norm_num [fine_structure]
  have := Real.rpow_nonneg hz (8.0 / 3.0)
  positivity

/-- C47: the energy-loss variance is non-negative and, below 30 MeV/u, at most the Firsov value,
whenever the tabulated Lindhard X is non-negative; every option, both straggling calculations. -/
theorem variance_bounds (env : Env ℝ) (p : Projectile ℝ) (t : Target ℝ) (c : Config ℝ) (z X : ℝ)
    (hz : z_effective env.debug p t c = .ok z)
    (hX : precalculated_lindhard_X env.calcIndex p = .ok X) (hX0 : 0 ≤ X)
    (hT : 0 ≤ p.T) (hZ : 0 ≤ p.Z) (tZ : 0 ≤ t.Z) (tA : 0 < t.A) :
    ∃ v, dedx_variance env p t c = .ok v ∧ 0 ≤ v ∧
      (p.T < 30 → v ≤ energy_straggling_firsov p.Z p.T t.Z t.A) := by
  have htz : (0 : ℝ) ≤ t.Z := by exact_mod_cast tZ
  have hF := firsov_nonneg p.Z p.T t.Z t.A (by linarith) hT tA
  unfold dedx_variance
  rw [hz, hX]
  dsimp only
  simp only [bind_ok]
  have hcor : ∀ x : ℝ, 0 ≤ (if c.calculation = 0 then smax x 0.0 else 0.0) := by
    intro x
    split
    · rw [smax_real]
      refine le_max_of_le_right ?_
      norm_num
    · norm_num
  have hd : (0 : ℝ) < domega2dx_constant := by norm_num [domega2dx_constant, dedx_constant, electron_mass]
  have hmain : ∀ x : ℝ, 0 ≤ domega2dx_constant * ipow z 2 * (ofInt t.Z : ℝ) / t.A *
      (X * (gamma_from_T p.T * gamma_from_T p.T) + if c.calculation = 0 then smax x 0.0 else 0.0) := by
    intro x
    have h1 := hcor x
    have h2 : (0 : ℝ) ≤ ipow z 2 := by
      show 0 ≤ z * z
      exact mul_self_nonneg z
    have h3 := mul_self_nonneg (gamma_from_T p.T)
    have h4 : (0 : ℝ) ≤ ofInt t.Z := htz
    positivity
  split
  · refine ⟨_, rfl, ?_, ?_⟩
    · rw [smin_real]
      exact le_min (hmain _) hF
    · intro _
      rw [smin_real]
      exact min_le_right _ _
  · rename_i h
    rw [lt_real] at h
    norm_num at h
    exact ⟨_, rfl, hmain _, fun h' => absurd h' (by linarith)⟩

/-- C47: below 1 MeV/u the X correction is 1, so the bounds hold without assumption on the tables. -/
theorem variance_bounds_low (env : Env ℝ) (p : Projectile ℝ) (n : Int) (hp : p.Ion n)
    (t : Target ℝ) (c : Config ℝ) (hc : c.z_effective ≤ 5) (h0 : 0 ≤ p.T)
    (h1 : p.T < (ls_energy_table : EnergyTable ℝ).val 0) (tZ : 0 ≤ t.Z) (tA : 0 < t.A) :
    ∃ v, dedx_variance env p t c = .ok v ∧ 0 ≤ v ∧
      v ≤ energy_straggling_firsov p.Z p.T t.Z t.A := by
  have hZ : 0 < p.Z := by rw [hp.Z]; exact_mod_cast (by linarith [hp.pos] : 0 < n)
  obtain ⟨z, hz⟩ : ∃ z, z_effective env.debug p t c = .ok z := by
    unfold z_effective
    dsimp only
    split
    · exact ⟨_, rfl⟩
    split
    · exact ⟨_, rfl⟩
    split
    · exact ⟨_, rfl⟩
    split
    · exact ⟨_, rfl⟩
    split
    · exact ⟨_, rfl⟩
    rw [if_neg (by omega), if_neg (by omega), if_pos (by omega)]
    exact ⟨_, rfl⟩
  have hX : precalculated_lindhard_X env.calcIndex p = .ok 1 := by
    unfold precalculated_lindhard_X
    obtain ⟨k, hk⟩ : ∃ k, lsZ p = .ok k := by
      unfold lsZ
      rw [hp.Z, castInt_real n (by linarith [hp.pos]) hp.int]
      exact ⟨_, rfl⟩
    rw [hk, bind_ok, if_pos (by rw [lt_real]; exact h1)]
    norm_num [pure, Except.pure]
  obtain ⟨v, hv, h2, h3⟩ := variance_bounds env p t c z 1 hz hX (by norm_num) h0 hZ.le tZ tA
  refine ⟨v, hv, h2, h3 ?_⟩
  have e : (ls_energy_table : EnergyTable ℝ).val 0 = 1 := by
    rw [EnergyTable.val_eq]
    norm_num [ls_energy_table]
  linarith

/-- ⁴He at 0.5 MeV/u in gold. -/
example (env : Env ℝ) : ∃ v, dedx_variance env ⟨4, 2, 2, 0.5⟩ ⟨197, 79, 1⟩ Config.default = .ok v ∧
    0 ≤ v ∧ v ≤ energy_straggling_firsov (2 : ℝ) 0.5 79 197 := by
  have h79 : ((79 : Int) : ℝ) = 79 := by norm_num
  rw [← h79]
  exact
   variance_bounds_low env ⟨4, 2, 2, 0.5⟩ 2 ⟨by norm_num, by norm_num, by norm_num, by norm_num⟩
    ⟨197, 79, 1⟩ Config.default (by decide) (by norm_num)
    (by
      have e : (ls_energy_table : EnergyTable ℝ).val 0 = 1 := by
        rw [EnergyTable.val_eq]
        norm_num [ls_energy_table]
      rw [e]; norm_num) (by norm_num) (by norm_num)

/-- The straggling of a material is non-negative under the same assumption. -/
theorem straggling_nonneg (env : Env ℝ) (p : Projectile ℝ) (m : Material ℝ) (hm : m.Sound)
    (c : Config ℝ) (X : ℝ) (hz : ∀ t ∈ m.atoms, ∃ z, z_effective env.debug p t c = .ok z)
    (hX : precalculated_lindhard_X env.calcIndex p = .ok X) (hX0 : 0 ≤ X)
    (hT : 0 ≤ p.T) (hZ : 0 ≤ p.Z) : ∃ v, domega2dx env p m c = .ok v ∧ 0 ≤ v := by
  obtain ⟨g, hg⟩ := exists_values m.atoms (fun t => dedx_variance env p t c) (fun v => 0 ≤ v)
    fun t ht => by
      obtain ⟨z, hz⟩ := hz t ht
      obtain ⟨v, hv, h, -⟩ := variance_bounds env p t c z X hz hX hX0 hT hZ
        (by linarith [hm.Z t ht]) (hm.A t ht)
      exact ⟨v, hv, h⟩
  refine ⟨_, componentSum_ok m _ g fun t ht => (hg t ht).1, sum_nonneg_map _ _ fun t ht => ?_⟩
  exact mul_nonneg (m.wfrac_pos hm t ht).le (hg t ht).2

end Catima
