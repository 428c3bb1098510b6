import Verif.Lemmas.BetheFormula
import Verif.Lemmas.BetheStep
import Verif.Lemmas.LindhardSteady
import Verif.Lemmas.BethePositive

/-!
# Helper lemmas: the Bethe formula as a formula, and its change over a small step of the energy
-/

namespace Catima

/-- The correction of Lindhard and Sørensen or 0 over a step. -/
theorem ls_choice (env : Env ℝ) {p : Projectile ℝ} {n : Int} (hp : p.Ion n) (hn : n ≤ 108)
    (hA : p.A ≤ 3 * element_atomic_weight n) (c : Config ℝ) (x r : ℝ) (h1 : 1.039 ≤ r) (h2 : r ≤ 1.0393) (hx : 10 ≤ x)
    (h9 : r * x ≤ (ls_energy_table : EnergyTable ℝ).val 199) (hT : LindhardReadable x) (hT' : LindhardReadable (r * x)) :
    ∃ l l', (if c.corrections.testBit 1 = true then .ok 0 else precalculated_lindhard env.calcIndex (p.withT x)) = .ok l ∧
      (if c.corrections.testBit 1 = true then .ok 0 else precalculated_lindhard env.calcIndex (p.withT (r * x))) = .ok l' ∧
      |l' - l| ≤ 0.86 ∧ (-6.51 ≤ l ∧ -6.51 ≤ l') ∧ (x ≤ 150000 → |l' - l| ≤ 0.0493 ∧ -2.221 ≤ l ∧ -2.221 ≤ l') ∧
      (x ≤ 16 → |l' - l| ≤ 0.0246) ∧ (16 ≤ x → x ≤ 150000 → -1.944 ≤ l ∧ -1.944 ≤ l') ∧ (x ≤ 31.2 → l ≤ 0.004 ∧ l' ≤ 0.004) := by
  by_cases hc : c.corrections.testBit 1 = true
  · rw [if_pos hc, if_pos hc]
    exact ⟨0, 0, rfl, rfl, by norm_num, by norm_num, fun _ => by norm_num, fun _ => by norm_num, fun _ _ => by norm_num,
      fun _ => by norm_num⟩
  · rw [if_neg hc, if_neg hc]
    obtain ⟨l, l', e1, e2, b0, b1, b2, b3, b4⟩ := lindhard_step env.calcIndex hp hn hA x r h1 h2 hx h9 hT hT'
    have w0 := atomic_weight_pos n hp.pos (by omega)
    obtain ⟨q, f1, f2, -⟩ := lindhard_ge (p := p.withT x) env.calcIndex ⟨hp.Z, hp.pos, hp.int, hp.A⟩ hn
      (show p.A ≤ _ by linarith) hx hT
    obtain ⟨q', f1', f2', -⟩ := lindhard_ge (p := p.withT (r * x)) env.calcIndex ⟨hp.Z, hp.pos, hp.int, hp.A⟩ hn
      (show p.A ≤ _ by linarith) (show 10 ≤ r * x by nlinarith) hT'
    rw [e1] at f1
    rw [e2] at f1'
    injection f1 with f1
    injection f1' with f1'
    subst f1 f1'
    exact ⟨l, l', e1, e2, b0, ⟨f2, f2'⟩, b1, b2, b3, b4⟩

/-- One component of the Bethe formula over a step of the energy, for an effective charge that grows at most as the velocity. -/
theorem bethe_step (env : Env ℝ) {p : Projectile ℝ} {n : Int} (hp : p.Ion n) (hn : n ≤ 108)
    (hA : p.A ≤ 3 * element_atomic_weight n) (t : Target ℝ) (tZ : 1 ≤ t.Z) (tZ' : t.Z ≤ 120) (t85 : t.Z ≠ 85) (t87 : t.Z ≠ 87)
    (tA : 0 < t.A) (c : Config ℝ) (I : ℝ) (hI : TypicalI I t.Z) (x r : ℝ) (h1 : 1.039 ≤ r) (h2 : r ≤ 1.0393) (hx : 10 ≤ x)
    (h9 : r * x ≤ (ls_energy_table : EnergyTable ℝ).val 199) (hT : LindhardReadable x) (hT' : LindhardReadable (r * x))
    (z z' : ℝ) (hz : z_effective env.debug (p.withT x) t c = .ok z) (hz' : z_effective env.debug (p.withT (r * x)) t c = .ok z')
    (z0 : 0 < z) (zz : z ≤ z') (zb : z' * √(etaSq x / (1 + etaSq x)) ≤ z * √(etaSq (r * x) / (1 + etaSq (r * x)))) :
    ∃ v v', bethek_dedx_e_target env (p.withT x) t c I = .ok (v + radiative (p.withT x) t c) ∧
      bethek_dedx_e_target env (p.withT (r * x)) t c I = .ok (v' + radiative (p.withT (r * x)) t c) ∧
      Step 1.306 1.337 v v' ∧ (x ≤ 31.2 → Step 1.223 1.172 v v') ∧
      (48000 ≤ x → x ≤ 150000 → 6.5 * (dedx_constant * z ^ 2 * t.Z / t.A) ≤ v ∧ 6.5 * (dedx_constant * z' ^ 2 * t.Z / t.A) ≤ v' ∧
        Step 1.05 1.22 v v') := by
  have hrx : 10 ≤ r * x := by nlinarith
  have z0' : 0 < z' := by linarith
  obtain ⟨f, hf1, hf2, hf3⟩ := density_step t.Z tZ t85 t87
  obtain ⟨l, l', el, el', b0, b0', b1, b2, b3, -⟩ := ls_choice env hp hn hA c x r h1 h2 hx h9 hT hT'
  have ionT : ∀ y, (p.withT y).Ion n := fun y => ⟨hp.Z, hp.pos, hp.int, hp.A⟩
  have e1 := bethe_value env (ionT x) t tZ tA c I hx z hz z0.le hI f hf1 l el
  have e2 := bethe_value env (ionT (r * x)) t tZ tA c I hrx z' hz' z0'.le hI f hf1 l' el'
  refine ⟨_, _, e1, e2, ?_⟩
  have ex : (p.withT x).T = x := rfl
  have erx : (p.withT (r * x)).T = r * x := rfl
  rw [ex, erx]
  obtain ⟨I0, I1, I2⟩ := usedI_bounds I t.Z tZ hI
  have htz : (1 : ℝ) ≤ (t.Z : ℝ) := by exact_mod_cast tZ
  have htz' : (t.Z : ℝ) ≤ 120 := by exact_mod_cast tZ'
  have sf : 0 ≤ shellFactor c (usedI I t.Z) t.Z ∧ shellFactor c (usedI I t.Z) t.Z ≤ 0.0115 := by
    unfold shellFactor
    split
    · norm_num
    · refine ⟨by positivity, ?_⟩
      rw [div_div, div_le_iff₀ (by positivity)]
      norm_num
      linarith
  obtain ⟨s0, k1, -, k2, -, k7, k8, k4, -, -⟩ := kinematics x r hx h1 h2
  have k1 : etaSq x ≤ etaSq (r * x) := k1
  have k2 : etaSq (r * x) ≤ 1.080145 * etaSq x := k2
  have k7 : etaSq x / (1 + etaSq x) ≤ etaSq (r * x) / (1 + etaSq (r * x)) := k7
  have k8 : etaSq (r * x) / (1 + etaSq (r * x)) ≤ r * (etaSq x / (1 + etaSq x)) := k8
  have k4 : (etaSq x)⁻¹ ≤ 46.6 := k4
  have s0 : 0 < etaSq x := s0
  have s0' : 0 < etaSq (r * x) := by linarith
  have hd : ∀ q, (q = etaSq x ∨ q = etaSq (r * x)) → (Real.log (√q) / 2.3025851 < 2.2017 ∧ f (Real.log (√q) / 2.3025851) ≤ 0.14) ∨
      (-0.06 ≤ Real.log (√q) / 2.3025851 ∧ f (Real.log (√q) / 2.3025851) ≤ 4.6052 * (Real.log (√q) / 2.3025851) + 0.8) := by
    intro q hq
    have q0 : 0 < q := by rcases hq with h | h <;> rw [h] <;> assumption
    obtain ⟨v, hv, hb⟩ := density_le (√(q / (1 + q))) t.Z tZ
    rw [hf1] at hv
    injection hv with hv
    have e3 : √(q / (1 + q)) * (1 / √(1 - √(q / (1 + q)) * √(q / (1 + q)))) = √q := by
      rw [Real.mul_self_sqrt (by positivity), show 1 - q / (1 + q) = 1 / (1 + q) by field_simp; ring, Real.sqrt_div q0.le,
        Real.sqrt_div zero_le_one, Real.sqrt_one]
      have : √(1 + q) ≠ 0 := (Real.sqrt_pos.mpr (by linarith)).ne'
      field_simp
    rw [e3] at hv hb
    rw [hv]
    exact hb
  -- the effective charge grows at most as eta
  have zs : z' * √(etaSq x) ≤ z * √(etaSq (r * x)) := by
    rw [Real.sqrt_div s0.le, Real.sqrt_div s0'.le] at zb
    have g1 : 0 < √(1 + etaSq x) := Real.sqrt_pos.mpr (by linarith)
    have g2 : √(1 + etaSq x) ≤ √(1 + etaSq (r * x)) := Real.sqrt_le_sqrt (by linarith)
    rw [← mul_div_assoc, ← mul_div_assoc, div_le_div_iff₀ g1 (by linarith)] at zb
    have h3 : 0 ≤ z * √(etaSq (r * x)) := by positivity
    have h4 : z' * √(etaSq x) * √(1 + etaSq (r * x)) ≤ z * √(etaSq (r * x)) * √(1 + etaSq (r * x)) :=
      zb.trans (mul_le_mul_of_nonneg_left g2 h3)
    exact le_of_mul_le_mul_right h4 (by linarith)
  have hK : 0 ≤ barkasTerm c z (etaSq x) t.Z ∧ 0 ≤ barkasTerm c z' (etaSq (r * x)) t.Z ∧
      barkasTerm c z' (etaSq (r * x)) t.Z ≤ barkasTerm c z (etaSq x) t.Z ∧
      barkasTerm c z (etaSq x) t.Z ≤ 1.148 * barkasTerm c z' (etaSq (r * x)) t.Z ∧
      (etaSq (r * x) ≤ 1.0406 * etaSq x → barkasTerm c z (etaSq x) t.Z ≤ 1.0853 * barkasTerm c z' (etaSq (r * x)) t.Z) := by
    unfold barkasTerm
    split
    · norm_num
    · obtain ⟨a1, a2, a3⟩ := barkas_step z z' (etaSq x) (etaSq (r * x)) t.Z s0 k1 k2 k4 z0 zz zs htz htz'
      exact ⟨a1.le, a2.le, a3⟩
  obtain ⟨K0, K0', K1, K2, K3⟩ := hK
  obtain ⟨B1, B2, B3⟩ := bethe_bracket_step x r _ (usedI I t.Z) _ _ l l' f h1 h2 hx (etaSq x) (etaSq (r * x)) rfl rfl sf.1 sf.2 I0 I1
    K0 K0' K1 K2 K3 hf2 hf3 hd b0 b0' b1 b2 b3
  have hdc : (0 : ℝ) < dedx_constant := by norm_num [dedx_constant]
  have q0 : 0 < etaSq x / (1 + etaSq x) := by positivity
  have q0' : 0 < etaSq (r * x) / (1 + etaSq (r * x)) := by positivity
  have q1 : etaSq x / (1 + etaSq x) ≤ 1 := by rw [div_le_one (by positivity)]; linarith
  have q1' : etaSq (r * x) / (1 + etaSq (r * x)) ≤ 1 := by rw [div_le_one (by positivity)]; linarith
  have fac : Step 1 r (dedx_constant * z ^ 2 * t.Z / (etaSq x / (1 + etaSq x) * t.A))
      (dedx_constant * z' ^ 2 * t.Z / (etaSq (r * x) / (1 + etaSq (r * x)) * t.A)) := by
    have st : Step 1 r (z ^ 2 / (etaSq x / (1 + etaSq x))) (z' ^ 2 / (etaSq (r * x) / (1 + etaSq (r * x)))) := by
      have sq := pow_le_pow_left₀ (by positivity) zb 2
      rw [mul_pow, mul_pow, Real.sq_sqrt q0.le, Real.sq_sqrt q0'.le] at sq
      have zz2 : z ^ 2 ≤ z' ^ 2 := pow_le_pow_left₀ z0.le zz 2
      refine ⟨by positivity, by positivity, ?_, ?_⟩
      · rw [one_mul, div_le_div_iff₀ q0' q0]; exact sq
      · rw [← mul_div_assoc, div_le_div_iff₀ q0 q0']
        have : z ^ 2 * (etaSq (r * x) / (1 + etaSq (r * x))) ≤ z' ^ 2 * (r * (etaSq x / (1 + etaSq x))) :=
          mul_le_mul zz2 k8 q0'.le (by positivity)
        linarith
    have e3 : ∀ z q : ℝ, dedx_constant * z ^ 2 * t.Z / (q * t.A) = dedx_constant * t.Z / t.A * (z ^ 2 / q) := fun z q => by
      rw [div_mul_div_comm]; congr 1 <;> ring
    rw [e3, e3]
    exact st.scale _ (by positivity)
  refine ⟨(fac.mul B1).mono (by norm_num) (by norm_num at h2 ⊢; linarith), fun h => (fac.mul (B2 h)).mono (by norm_num) (by norm_num at h2 ⊢; linarith),
    fun h3 h4 => ?_⟩
  obtain ⟨c1, c2, c3⟩ := B3 h3 h4
  have low : ∀ z q B : ℝ, 0 < z → 0 < q → q ≤ 1 → 6.5 ≤ B → 6.5 * (dedx_constant * z ^ 2 * t.Z / t.A) ≤
      dedx_constant * z ^ 2 * t.Z / (q * t.A) * B := by
    intro z q B hz hq hq1 hB
    rw [mul_comm]
    have h5 : dedx_constant * z ^ 2 * t.Z / t.A ≤ dedx_constant * z ^ 2 * t.Z / (q * t.A) := by
      apply div_le_div_of_nonneg_left (by positivity) (by positivity)
      nlinarith
    exact mul_le_mul h5 hB (by norm_num) (by positivity)
  exact ⟨low _ _ _ z0 q0 q1 c1, low _ _ _ z0' q0' q1' c2, (fac.mul c3).mono (by norm_num) (by norm_num at h2 ⊢; linarith)⟩

end Catima
