import Verif.Lemmas.ProtonBlend

/-!
# Helper lemmas: the Bethe formula and the low-energy model of any ion between 10 and 32.5 MeV/u
-/

namespace Catima

/-- The Bethe formula of one component between 10 and 32.5 MeV/u, as a formula with bounds of its parts. -/
theorem bethe_bracket (env : Env ℝ) {p : Projectile ℝ} {n : Int} (hp : p.Ion n) (t : Target ℝ) (tZ : 1 ≤ t.Z) (tZ' : t.Z ≤ 120)
    (t85 : t.Z ≠ 85) (t87 : t.Z ≠ 87) (tA : 0 < t.A) (c : Config ℝ) (I : ℝ) (hI : TypicalI I t.Z) (hI' : 0 < I → 10 ≤ I)
    (x : ℝ) (h0 : 10 ≤ x) (h1 : x ≤ 32.5) (z : ℝ) (hz : z_effective env.debug (p.withT x) t c = .ok z) (z0 : 0 < z)
    (l : ℝ) (hl : (if c.corrections.testBit 1 = true then .ok 0 else precalculated_lindhard env.calcIndex (p.withT x)) = .ok l)
    (v : ℝ) (hv : bethek_dedx_e_target env (p.withT x) t c I = .ok v) :
    10 ≤ usedI I t.Z ∧ usedI I t.Z ≤ 1170 ∧ usedI I t.Z ^ 2 ≤ 11500 * (t.Z : ℝ) ∧
    0 ≤ shellFactor c (usedI I t.Z) t.Z ∧ shellFactor c (usedI I t.Z) t.Z ≤ 0.0115 ∧
    ∃ D, -0.46 ≤ D ∧ D ≤ 0.14 ∧ v = 0.3070749187 * (z ^ 2 * t.Z * (betheLog (shellFactor c (usedI I t.Z) t.Z) (usedI I t.Z) (etaSq x) *
      (1 + barkasTerm c z (etaSq x) t.Z) + l - D / 2)) / (etaSq x / (1 + etaSq x) * t.A) := by
  have ionT : (p.withT x).Ion n := ⟨hp.Z, hp.pos, hp.int, hp.A⟩
  obtain ⟨f, hf1, hf2, hf3⟩ := density_step t.Z tZ t85 t87
  obtain ⟨s0, y1, s1, -⟩ := etaSq_mid x h0 h1
  obtain ⟨D0, D1⟩ := density_mid t.Z tZ t85 t87 f hf1 hf2 hf3 (etaSq x) s0 s1
  have e1 := bethe_value env ionT t tZ tA c I h0 z hz z0.le hI f hf1 l hl
  have rad : radiative (p.withT x) t c = 0 := by
    unfold radiative
    rw [if_neg]
    rintro ⟨h, -⟩
    have : (p.withT x).T = x := rfl
    rw [this] at h
    norm_num at h1
    linarith
  rw [hv, rad, add_zero] at e1
  injection e1 with e1
  have ex : (p.withT x).T = x := rfl
  rw [ex] at e1
  obtain ⟨I0, I1, I2⟩ := usedI_bounds I t.Z tZ hI
  have I10 : 10 ≤ usedI I t.Z := by
    unfold usedI
    split
    · exact hI' ‹_›
    · exact ipot_ten _ tZ tZ'
  have htz : (1 : ℝ) ≤ (t.Z : ℝ) := by exact_mod_cast tZ
  have sf : 0 ≤ shellFactor c (usedI I t.Z) t.Z ∧ shellFactor c (usedI I t.Z) t.Z ≤ 0.0115 := by
    unfold shellFactor
    split
    · norm_num
    · refine ⟨by positivity, ?_⟩
      rw [div_div, div_le_iff₀ (by positivity)]
      norm_num
      linarith
  refine ⟨I10, I1, I2, sf.1, sf.2, _, D0, D1, ?_⟩
  rw [e1]
  unfold dedx_constant
  generalize (0.3070749187 : ℝ) = k
  ring

/-- The comparison of the two models: `g` is the square of the charge in the low-energy model, `P` the stopping number of
protons there, `Br` the bracket of the Bethe formula. -/
theorem ratio_core' (z2 g Z Br P q A s v : ℝ) (eV : v = 0.3070749187 * (z2 * Z * Br) / (q * A)) (q0 : 0 < q) (hA : 0 < A) (hZ : 1 ≤ Z)
    (hP : P = 1961.13 * s * q) (hu : z2 * Z * Br ≤ 4.99 * (g * P)) (hd : g * P ≤ 3.29 * (z2 * Z * Br)) :
    v ≤ 5 * (602.2140857 * (s * g) / A) ∧ 602.2140857 * (s * g) / A ≤ 3.3 * v := by
  have eS : 602.2140857 * (s * g) / A = 602.2140857 / 1961.13 * (g * P) / (q * A) := by
    rw [hP, mul_comm q A]
    field_simp
  rw [eV, eS, ← mul_div_assoc, ← mul_div_assoc, div_le_div_iff_of_pos_right (by positivity), div_le_div_iff_of_pos_right (by positivity)]
  generalize z2 * Z * Br = W at *
  generalize g * P = G at *
  constructor
  · norm_num at *; linarith
  · norm_num at *; linarith

end Catima
