import Verif.Props.Kinematics
import Verif.Spec.Stopping
import Verif.Lemmas.Basic
import Mathlib.Analysis.SpecialFunctions.Exp

/-!
# C40-C42: the effective charge
-/

namespace Catima

theorem fsi_pos : (0 : ℝ) < fine_structure_inverted := by
  norm_num [fine_structure_inverted, fine_structure]

theorem pierce_blann_eq (z b : ℝ) : z_eff_Pierce_Blann z b =
    z * (1 - Real.exp (-(0.95 * fine_structure_inverted / z ^ ((2 : ℝ) / 3) * b))) := by
  unfold z_eff_Pierce_Blann
  rw [exp_real, pow_real]
  have e1 : (2.0 / 3.0 : ℝ) = 2 / 3 := by norm_num
  have e2 : (1.0 : ℝ) = 1 := by norm_num
  rw [e1, e2]
  generalize (0.95 : ℝ) = q
  congr 3
  ring

theorem pierce_rate_pos (z : ℝ) (hz : 0 < z) :
    0 < 0.95 * fine_structure_inverted / z ^ ((2 : ℝ) / 3) := by
  have := fsi_pos
  have := Real.rpow_pos_of_pos hz ((2 : ℝ) / 3)
  positivity

/-- C40: the default effective charge lies in `[0, Z)` for every velocity `β ≥ 0`. -/
theorem pierce_blann_bounds (z b : ℝ) (hz : 0 < z) (hb : 0 ≤ b) :
    0 ≤ z_eff_Pierce_Blann z b ∧ z_eff_Pierce_Blann z b < z := by
  rw [pierce_blann_eq]
  have hk := pierce_rate_pos z hz
  generalize 0.95 * fine_structure_inverted / z ^ ((2 : ℝ) / 3) = k at hk
  have h1 : Real.exp (-(k * b)) ≤ 1 := by
    rw [Real.exp_le_one_iff]
    have := mul_nonneg hk.le hb
    linarith
  have h2 := Real.exp_pos (-(k * b))
  constructor
  · apply mul_nonneg hz.le; linarith
  · nlinarith

/-- C40: it is strictly increasing in the velocity. -/
theorem pierce_blann_strictMono (z : ℝ) (hz : 0 < z) : StrictMono (z_eff_Pierce_Blann z) := by
  intro a b hab
  rw [pierce_blann_eq, pierce_blann_eq]
  have hk := pierce_rate_pos z hz
  have : Real.exp (-(0.95 * fine_structure_inverted / z ^ ((2 : ℝ) / 3) * b)) <
      Real.exp (-(0.95 * fine_structure_inverted / z ^ ((2 : ℝ) / 3) * a)) := by
    apply Real.exp_lt_exp.mpr
    have := mul_lt_mul_of_pos_left hab hk
    linarith
  exact mul_lt_mul_of_pos_left (by linarith) hz

/-- C40: it tends to `Z`. -/
theorem pierce_blann_limit (z : ℝ) (hz : 0 < z) :
    Filter.Tendsto (z_eff_Pierce_Blann z) Filter.atTop (nhds z) := by
  have hk := pierce_rate_pos z hz
  have h1 : Filter.Tendsto (fun b : ℝ =>
      Real.exp (-(0.95 * fine_structure_inverted / z ^ ((2 : ℝ) / 3) * b))) Filter.atTop (nhds 0) :=
    Real.tendsto_exp_neg_atTop_nhds_zero.comp (Filter.tendsto_id.const_mul_atTop hk)
  have h2 := (h1.const_sub 1).const_mul z
  rw [sub_zero, mul_one] at h2
  exact h2.congr fun b => (pierce_blann_eq z b).symm

/-- C40: what `z_effective` returns with the options none and Pierce-Blann. -/
theorem z_effective_basic (debug : Bool) (p : Projectile ℝ) (t : Target ℝ) (c : Config ℝ) :
    (c.z_effective = 0 → z_effective debug p t c = .ok p.Q) ∧
    (c.z_effective = 1 → z_effective debug p t c = .ok (z_eff_Pierce_Blann p.Z (beta_from_T p.T))) := by
  refine ⟨fun h => ?_, fun h => ?_⟩
  · unfold z_effective
    rw [if_pos h]
  · unfold z_effective
    rw [if_neg (by omega), if_pos h]
    rfl

/-- C40 for a ²³⁸U ion at 1 GeV/u. -/
example : 0 ≤ z_eff_Pierce_Blann 92 (beta_from_T (1000 : ℝ)) ∧
    z_eff_Pierce_Blann 92 (beta_from_T (1000 : ℝ)) < 92 :=
  pierce_blann_bounds 92 _ (by norm_num) (gamma_beta_bounds 1000 (by norm_num)).2.1.le

/-! ## C41 -/

/-- C41, the part that holds: `0 ≤ z_eff ≤ Z` for the options none (with `0 ≤ Q ≤ Z`),
Pierce-Blann, global (`E > 2000`, `E < 30` or `Z < 29`), and in release builds atima14 and unknown
options.  Missing: both bounds fail for other options, see `anthony_landford_negative`,
`schiwietz_exceeds_Z` and `z_eff_global_negative`; for Hubert and Winger see `z_eff_upper_partial`
and `z_eff_lower_partial`. -/
theorem z_eff_bounds_partial (debug : Bool) (p : Projectile ℝ) (t : Target ℝ) (c : Config ℝ)
    (hT : 0 < p.T) (hZ : 0 < p.Z) :
    (c.z_effective = 0 → 0 ≤ p.Q → p.Q ≤ p.Z →
      ∃ z, z_effective debug p t c = .ok z ∧ 0 ≤ z ∧ z ≤ p.Z) ∧
    (c.z_effective = 1 → ∃ z, z_effective debug p t c = .ok z ∧ 0 ≤ z ∧ z ≤ p.Z) ∧
    (c.z_effective = 6 → 2000 < p.T ∨ p.T < 30 ∨ p.Z < 29 →
      ∃ z, z_effective debug p t c = .ok z ∧ 0 ≤ z ∧ z ≤ p.Z) ∧
    (7 ≤ c.z_effective → debug = false →
      ∃ z, z_effective debug p t c = .ok z ∧ 0 ≤ z ∧ z ≤ p.Z) := by
  refine ⟨fun h h1 h2 => ?_, fun h => ?_, fun h h1 => ?_, fun h hd => ?_⟩
  · exact ⟨_, (z_effective_basic debug p t c).1 h, h1, h2⟩
  · have := pierce_blann_bounds p.Z _ hZ (gamma_beta_bounds p.T hT).2.1.le
    exact ⟨_, (z_effective_basic debug p t c).2 h, this.1, this.2.le⟩
  · have e : z_effective debug p t c = z_eff_global debug p.Z p.T (ofInt t.Z) := by
      unfold z_effective
      rw [if_neg (by omega), if_neg (by omega), if_neg (by omega), if_neg (by omega),
        if_neg (by omega), if_pos h]
    rw [e]
    unfold z_eff_global
    by_cases h2 : 2000 < p.T
    · rw [if_pos (by rw [lt_real]; norm_num; exact h2)]
      exact ⟨_, rfl, hZ.le, le_rfl⟩
    · rw [if_neg (by rw [lt_real]; norm_num; linarith), if_pos]
      · have := pierce_blann_bounds p.Z p.T hZ hT.le
        exact ⟨_, rfl, this.1, this.2.le⟩
      · rw [Bool.or_eq_true, lt_real, lt_real]
        norm_num
        rcases h1 with h1 | h1
        · exact absurd h1 h2
        · exact h1
  · have e : z_effective debug p t c = .ok 0 := by
      unfold z_effective
      rw [if_neg (by omega), if_neg (by omega), if_neg (by omega), if_neg (by omega),
        if_neg (by omega), if_neg (by omega)]
      subst hd
      split
      · norm_num [z_eff_atima14, cassert, pure, Except.pure]
      · rw [if_neg (by omega)]
        norm_num [cassert, pure, Except.pure]
    exact ⟨_, e, le_rfl, hZ.le⟩

/-- C41, upper bounds: Anthony-Landford, Hubert and Winger never exceed `Z`. -/
theorem z_eff_upper_partial (debug : Bool) (p : Projectile ℝ) (t : Target ℝ) (c : Config ℝ)
    (hZ : 0 < p.Z)
    (hc : c.z_effective = 2 ∨ c.z_effective = 3 ∨ c.z_effective = 4) :
    ∃ z, z_effective debug p t c = .ok z ∧ z ≤ p.Z := by
  have key : ∀ a : ℝ, 0 ≤ a → p.Z * (1.0 - a) ≤ p.Z := fun a ha => by
    norm_num
    nlinarith
  unfold z_effective
  rcases hc with h | h | h
  · rw [if_neg (by omega), if_neg (by omega), if_pos h]
    refine ⟨_, rfl, ?_⟩
    unfold z_eff_Anthony_Landford
    apply key
    rw [exp_real]
    apply mul_nonneg _ (Real.exp_pos _).le
    generalize (ofInt t.Z : ℝ) = z
    norm_num
    nlinarith [sq_nonneg (z - 75.8)]
  · rw [if_neg (by omega), if_neg (by omega), if_neg (by omega), if_pos h]
    refine ⟨_, rfl, ?_⟩
    unfold z_eff_Hubert
    dsimp only
    split
    · norm_num; exact hZ.le
    have e1 := Real.exp_pos (-0.04369 * p.Z)
    have e2 := Real.exp_pos (-0.03958 * p.Z)
    have e3 := Real.exp_pos (-0.004302 * ofInt t.Z)
    have e4 := Real.exp_pos (-0.0517 * p.Z)
    simp only [exp_real]
    split
    · exact key _ (mul_nonneg (by positivity) (Real.exp_pos _).le)
    split
    · exact key _ (mul_nonneg (by positivity) (Real.exp_pos _).le)
    · exact key _ (mul_nonneg (by positivity) (Real.exp_pos _).le)
  · rw [if_neg (by omega), if_neg (by omega), if_neg (by omega), if_neg (by omega), if_pos h]
    refine ⟨_, rfl, ?_⟩
    unfold z_eff_Winger
    apply key
    exact (Real.exp_pos _).le

/-- C41 refuted for Anthony-Landford: a slow proton in hydrogen has a negative effective charge. -/
theorem anthony_landford_negative (debug : Bool) :
    ∃ z, z_effective debug (⟨1, 1, 1, 1e-8 * atomic_mass_unit⟩ : Projectile ℝ) ⟨1, 1, 1⟩
      { Config.default with z_effective := 2 } = .ok z ∧ z < 0 := by
  refine ⟨_, rfl, ?_⟩
  unfold z_eff_Anthony_Landford
  simp only [sqrt_real, exp_real, pow_real, ofInt_real]
  have hu := amu_pos
  have e1 : (1e-8 * atomic_mass_unit / atomic_mass_unit : ℝ) = 1e-8 := by
    field_simp
  rw [e1]
  have hs : √(1.0 - 1.0 / ((1.0 + 1e-8) * (1.0 + 1e-8)) : ℝ) ≤ 1.5e-4 := by
    rw [Real.sqrt_le_left (by norm_num)]
    norm_num
  generalize √(1.0 - 1.0 / ((1.0 + 1e-8) * (1.0 + 1e-8)) : ℝ) = s at hs
  norm_num [fine_structure_inverted, fine_structure] at hs ⊢
  have h2 := Real.add_one_le_exp (-(1606809167212384967 / 10000000000000000 * s))
  linarith

/-- C41 refuted for Schiwietz: a proton with `β = 0.8` in hydrogen has an effective charge above
its nuclear charge. -/
theorem schiwietz_exceeds_Z (debug : Bool) :
    ∃ z, z_effective debug (⟨1, 1, 1, 2 / 3 * atomic_mass_unit⟩ : Projectile ℝ) ⟨1, 1, 1⟩
      { Config.default with z_effective := 5 } = .ok z ∧ 1 < z := by
  refine ⟨_, rfl, ?_⟩
  unfold z_eff_Schiwietz
  simp only [sqrt_real, exp_real, pow_real, ofInt_real, log_real]
  have hu := amu_pos
  have e1 : (2 / 3 * atomic_mass_unit / atomic_mass_unit : ℝ) = 2 / 3 := by field_simp
  have e2 : √(1.0 - 1.0 / ((1.0 + 2 / 3) * (1.0 + 2 / 3)) : ℝ) = 4 / 5 := by
    rw [Real.sqrt_eq_iff_mul_self_eq_of_pos (by norm_num)]
    norm_num
  have e3 : ((1 : ℤ) : ℝ) = 1 := by norm_num
  have e4 : (1.0 - 0.26 * Real.exp (-1 / 11.0) * Real.exp (-(1 - 1) * (1 - 1) / 9.0) : ℝ) ≥ 0.74 := by
    have h1 : Real.exp (-1 / 11.0) ≤ 1 := Real.exp_le_one_iff.mpr (by norm_num)
    have h2 : Real.exp (-(1 - 1) * (1 - 1) / 9.0) = (1 : ℝ) := by norm_num
    rw [h2]
    generalize Real.exp (-1 / 11.0) = y at h1
    norm_num
    linarith
  rw [e1, e2, e3]
  generalize (1.0 - 0.26 * Real.exp (-1 / 11.0) * Real.exp (-(1 - 1) * (1 - 1) / 9.0) : ℝ) = k at e4
  rw [Real.log_one, Real.one_rpow]
  have e5 : (10 : ℝ) ≤ (1 * (4 / 5) / bohr_velocity / (1.0 + 0.030 * (1 * (4 / 5) / bohr_velocity) * 0) /
      1.54) ^ (1.0 + 1.83 / 1 : ℝ) := by
    have hb : (10 : ℝ) ≤ 1 * (4 / 5) / bohr_velocity /
        (1.0 + 0.030 * (1 * (4 / 5) / bohr_velocity) * 0) / 1.54 := by
      norm_num [bohr_velocity, c_light]
    refine hb.trans ?_
    conv_lhs => rw [← Real.rpow_one (1 * (4 / 5) / bohr_velocity /
        (1.0 + 0.030 * (1 * (4 / 5) / bohr_velocity) * 0) / 1.54)]
    exact Real.rpow_le_rpow_of_exponent_le (by linarith) (by norm_num)
  generalize ((1 * (4 / 5) / bohr_velocity / (1.0 + 0.030 * (1 * (4 / 5) / bohr_velocity) * 0) /
      1.54) ^ (1.0 + 1.83 / 1 : ℝ) : ℝ) = y at e5
  have hx : (7 : ℝ) ≤ k * y := by nlinarith
  generalize k * y = x at hx
  have hx0 : 0 < x := by linarith
  have h06 : (0.06 : ℝ) / x ≤ 0.01 := by
    rw [div_le_iff₀ hx0]
    norm_num
    linarith
  have hd : (0 : ℝ) < 0.06 / x + 4.0 + 7.4 * x + x * x * x * x := by positivity
  rw [lt_div_iff₀ hd]
  norm_num at h06 ⊢
  linarith

/-- C41 refuted for the global option without the GLOBAL library: release builds return -1. -/
theorem z_eff_global_negative (p : Projectile ℝ) (t : Target ℝ) (c : Config ℝ)
    (hc : c.z_effective = 6) (h1 : 30 ≤ p.T) (h2 : p.T ≤ 2000) (h3 : 29 ≤ p.Z) :
    z_effective false p t c = .ok (-1) ∧ z_effective true p t c = .error .assertion := by
  have e : ∀ d, z_effective d p t c = z_eff_global d p.Z p.T (ofInt t.Z) := by
    intro d
    unfold z_effective
    rw [if_neg (by omega), if_neg (by omega), if_neg (by omega), if_neg (by omega),
      if_neg (by omega), if_pos hc]
  rw [e, e]
  unfold z_eff_global
  rw [if_neg (by rw [lt_real]; norm_num; linarith),
    if_neg (by rw [Bool.or_eq_true, lt_real, lt_real]; norm_num; exact ⟨h1, h3⟩),
    if_neg (by rw [lt_real]; norm_num; linarith),
    if_neg (by rw [Bool.or_eq_true, lt_real, lt_real]; norm_num; exact ⟨h1, h3⟩)]
  norm_num [cassert, pure, Except.pure, bind, Except.bind]

/-- A ²³⁸U ion at 100 MeV/u with the global option. -/
example : z_effective false (⟨238, 92, 92, 100⟩ : Projectile ℝ) ⟨12, 6, 1⟩
    { Config.default with z_effective := 6 } = .ok (-1) :=
  (z_eff_global_negative ⟨238, 92, 92, 100⟩ ⟨12, 6, 1⟩ _ rfl (by norm_num) (by norm_num)
    (by norm_num)).1

/-! ## C42 -/

/-- C42, the part that holds: below `Z = 29` or 30 MeV/u (and up to 2000 MeV/u) `z_eff_global` is
the Pierce-Blann formula, but evaluated with the energy in the place of the velocity. -/
theorem z_eff_global_partial (debug : Bool) (z E tz : ℝ) (hE : E ≤ 2000) (h : E < 30 ∨ z < 29) :
    z_eff_global debug z E tz = .ok (z_eff_Pierce_Blann z E) := by
  unfold z_eff_global
  rw [if_neg (by rw [lt_real]; norm_num; linarith), if_pos]
  rw [Bool.or_eq_true, lt_real, lt_real]
  norm_num
  exact h

/-- C42 refuted: from 1 to 2000 MeV/u the result is strictly larger than the Pierce-Blann effective
charge at that energy. -/
theorem z_eff_global_wrong (debug : Bool) (z E tz : ℝ) (hz : 0 < z) (h1 : 1 ≤ E) (hE : E ≤ 2000)
    (h : E < 30 ∨ z < 29) : ∃ v, z_eff_global debug z E tz = .ok v ∧
      z_eff_Pierce_Blann z (beta_from_T E) < v := by
  refine ⟨_, z_eff_global_partial debug z E tz hE h, ?_⟩
  apply pierce_blann_strictMono z hz
  linarith [(gamma_beta_bounds E (by linarith)).2.2]

/-- Carbon ions at 12 MeV/u. -/
example : ∃ v, z_eff_global false 6 12 6 = (.ok v : M ℝ) ∧
    z_eff_Pierce_Blann 6 (beta_from_T (12 : ℝ)) < v :=
  z_eff_global_wrong false 6 12 6 (by norm_num) (by norm_num) (by norm_num) (by norm_num)

end Catima
