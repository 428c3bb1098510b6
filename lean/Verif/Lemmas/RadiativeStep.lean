import Verif.Lemmas.BetheFormula
import Verif.Props.EffectiveCharge

/-!
# Helper lemmas: pair production and bremsstrahlung over a small step of the energy; effective charge
-/

namespace Catima

/-- `1 - exp(-x)` is concave. -/
theorem one_sub_exp_ratio (a b : ℝ) (ha : 0 ≤ a) (h : a ≤ b) : (1 - Real.exp (-b)) * a ≤ (1 - Real.exp (-a)) * b := by
  have e : Real.exp (-b) = Real.exp (-a) * Real.exp (-(b - a)) := by rw [← Real.exp_add]; congr 1; ring
  have h1 := Real.one_sub_le_exp_neg (b - a)
  have h2 := Real.exp_pos (-a)
  have h3 : Real.exp (-a) * (1 + a) ≤ 1 := by
    rw [Real.exp_neg, inv_mul_le_iff₀ (Real.exp_pos a), mul_one]
    linarith [Real.add_one_le_exp a]
  rw [e]
  generalize Real.exp (-a) = q at *
  generalize Real.exp (-(b - a)) = w at *
  have h4 : q * (1 - (b - a)) ≤ q * w := mul_le_mul_of_nonneg_left h1 h2.le
  nlinarith [mul_nonneg ha (sub_nonneg.mpr h)]

/-- The Pierce-Blann effective charge grows at most as the velocity. -/
theorem pierce_step (z b b' : ℝ) (hz : 0 < z) (hb : 0 < b) (h : b ≤ b') :
    0 < z_eff_Pierce_Blann z b ∧ z_eff_Pierce_Blann z b ≤ z_eff_Pierce_Blann z b' ∧
    z_eff_Pierce_Blann z b' * b ≤ z_eff_Pierce_Blann z b * b' := by
  rw [pierce_blann_eq, pierce_blann_eq]
  have hk := pierce_rate_pos z hz
  generalize 0.95 * fine_structure_inverted / z ^ ((2 : ℝ) / 3) = k at hk
  have h1 : Real.exp (-(k * b)) < 1 := by
    rw [Real.exp_lt_one_iff]; nlinarith [mul_pos hk hb]
  have h2 : Real.exp (-(k * b')) ≤ Real.exp (-(k * b)) := by
    apply Real.exp_le_exp.mpr; nlinarith
  have h3 := one_sub_exp_ratio (k * b) (k * b') (by positivity) (by gcongr)
  refine ⟨by apply mul_pos hz; linarith, by gcongr, ?_⟩
  have h4 : (1 - Real.exp (-(k * b'))) * b ≤ (1 - Real.exp (-(k * b))) * b' := by
    have e1 : (1 - Real.exp (-(k * b'))) * (k * b) = k * ((1 - Real.exp (-(k * b'))) * b) := by ring
    have e2 : (1 - Real.exp (-(k * b))) * (k * b') = k * ((1 - Real.exp (-(k * b))) * b') := by ring
    rw [e1, e2] at h3
    exact le_of_mul_le_mul_left h3 hk
  calc _ = z * ((1 - Real.exp (-(k * b'))) * b) := by ring
    _ ≤ z * ((1 - Real.exp (-(k * b))) * b') := mul_le_mul_of_nonneg_left h4 hz.le
    _ = _ := by ring

/-- Nearly bare ions at velocities near that of light. -/
theorem pierce_bare (z b : ℝ) (hz : 1 ≤ z) (hz' : z ≤ 108) (hb : 0.99 ≤ b) : 0.95 * z ≤ z_eff_Pierce_Blann z b := by
  rw [pierce_blann_eq]
  have p0 : 0 < z ^ ((2 : ℝ) / 3) := Real.rpow_pos_of_pos (by linarith) _
  have p1 : z ^ ((2 : ℝ) / 3) ≤ 23 := by
    apply le_of_pow_le_pow_left₀ (n := 3) (by norm_num) (by norm_num)
    rw [← Real.rpow_natCast (z ^ ((2 : ℝ) / 3)) 3, ← Real.rpow_mul (by linarith)]
    rw [show (2 : ℝ) / 3 * ((3 : Nat) : ℝ) = ((2 : Nat) : ℝ) by norm_num, Real.rpow_natCast]
    nlinarith
  have k0 : 5.6 ≤ 0.95 * fine_structure_inverted / z ^ ((2 : ℝ) / 3) * 0.99 := by
    rw [div_mul_eq_mul_div, le_div_iff₀ p0]
    have : (137 : ℝ) ≤ fine_structure_inverted := by norm_num [fine_structure_inverted, fine_structure]
    norm_num at this ⊢
    nlinarith
  have hk := pierce_rate_pos z (by linarith)
  generalize 0.95 * fine_structure_inverted / z ^ ((2 : ℝ) / 3) = k at *
  have hx : 5.6 ≤ k * b := k0.trans (mul_le_mul_of_nonneg_left hb hk.le)
  have hq := Real.quadratic_le_exp_of_nonneg (show 0 ≤ k * b by norm_num at hx; linarith)
  have he : Real.exp (-(k * b)) ≤ 0.05 := by
    rw [Real.exp_neg, inv_le_comm₀ (Real.exp_pos _) (by norm_num)]
    refine le_trans ?_ hq
    norm_num at hx ⊢
    nlinarith
  norm_num at he ⊢
  nlinarith

theorem beta_etaSq (x : ℝ) (hx : 0 < x) :
    (1.0 : ℝ) - 1.0 / ((1.0 + x / atomic_mass_unit) * (1.0 + x / atomic_mass_unit)) = etaSq x / (1 + etaSq x) := by
  unfold etaSq
  have e : (1.0 : ℝ) + x / atomic_mass_unit = 1 + x / 931.4940954 := by rw [show (1.0 : ℝ) = 1 by norm_num]; rfl
  rw [e]
  have h : 0 < x / 931.4940954 := by positivity
  generalize x / 931.4940954 = y at *
  norm_num
  field_simp

/-- The effective charge of Pierce and Blann over a step. -/
theorem charge_step (debug : Bool) (p : Projectile ℝ) (t : Target ℝ) (c : Config ℝ) (hc : c.z_effective = 1) (hZ : 0 < p.Z)
    (x r : ℝ) (hx : 10 ≤ x) (h1 : 1.039 ≤ r) (h2 : r ≤ 1.0393) : ∃ z z', z_effective debug (p.withT x) t c = .ok z ∧
      z_effective debug (p.withT (r * x)) t c = .ok z' ∧ 0 < z ∧ z ≤ z' ∧
      z' * √(etaSq x / (1 + etaSq x)) ≤ z * √(etaSq (r * x) / (1 + etaSq (r * x))) ∧
      (48000 ≤ x → 1 ≤ p.Z → p.Z ≤ 108 → 0.95 * p.Z ≤ z ∧ 0.95 * p.Z ≤ z') := by
  obtain ⟨s0, -, -, -, -, k7, -, -, -, -⟩ := kinematics x r hx h1 h2
  have s0 : 0 < etaSq x := s0
  have k7 : etaSq x / (1 + etaSq x) ≤ etaSq (r * x) / (1 + etaSq (r * x)) := k7
  have hb : 0 < √(etaSq x / (1 + etaSq x)) := Real.sqrt_pos.mpr (by positivity)
  obtain ⟨a1, a2, a3⟩ := pierce_step p.Z _ _ hZ hb (Real.sqrt_le_sqrt k7)
  have val : ∀ y, 0 < y → z_effective debug (p.withT y) t c = .ok (z_eff_Pierce_Blann p.Z (√(etaSq y / (1 + etaSq y)))) := by
    intro y hy
    unfold z_effective
    simp only [hc, sqrt_real]
    rw [if_neg (by decide), if_pos trivial]
    show Except.ok (z_eff_Pierce_Blann p.Z (√(1.0 - 1.0 / ((1.0 + y / atomic_mass_unit) * (1.0 + y / atomic_mass_unit))))) = _
    rw [beta_etaSq y hy]
  refine ⟨_, _, val x (by linarith), val (r * x) (by nlinarith), a1, a2, a3, fun h3 h4 h5 => ?_⟩
  have hbig : 0.99 ≤ √(etaSq x / (1 + etaSq x)) := by
    apply Real.le_sqrt_of_sq_le
    rw [le_div_iff₀ (by positivity)]
    have g2 : 52.5 ≤ 1 + x / 931.4940954 := by
      have : (48000 : ℝ) / 931.4940954 ≤ x / 931.4940954 := by gcongr
      norm_num at this ⊢
      linarith
    have : 52.5 ^ 2 - 1 ≤ etaSq x := by unfold etaSq; gcongr
    norm_num at this ⊢
    linarith
  have q := pierce_bare p.Z _ h4 h5 hbig
  exact ⟨q, q.trans a2⟩

end Catima
