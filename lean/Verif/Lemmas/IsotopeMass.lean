import Verif.Lemmas.BetheFormula
import Verif.Lemmas.BethePositive
import Verif.Props.DensityEffect
import Verif.Lemmas.RadiativePair
import Verif.Lemmas.ProtonSteady

/-!
# Helper lemmas: how the stopping power depends on the mass of the ion
-/

namespace Catima

/-- The lookup of LS is affine in the mass. -/
theorem lindhard_in_mass (ci : Bool) {p : Projectile ℝ} {n : Int} (hp : p.Ion n) (hn : n ≤ 108) (h0 : 10 ≤ p.T)
    (hT : LindhardReadable p.T) : ∃ u k : ℝ, ∀ a, 0 < a → precalculated_lindhard ci { p with A := a } = .ok (u + k * a) := by
  have hwp := atomic_weight_pos n hp.pos (by omega)
  have hb := ls_energy_table_bounds
  have ion : ∀ a, 0 < a → ({ p with A := a } : Projectile ℝ).Ion n := fun a ha => ⟨hp.Z, hp.pos, hp.int, ha⟩
  obtain ⟨y1, hy1, hl1⟩ := lsRowAt_ok ls_coefficients_a (n - 1) (by linarith [hp.pos])
    (by rw [ls_lengths.1]; norm_num; omega)
  obtain ⟨y2, hy2, hl2⟩ := lsRowAt_ok ls_coefficients_ahi (n - 1) (by linarith [hp.pos])
    (by rw [ls_lengths.2.1]; norm_num; omega)
  obtain ⟨v1, v2, e1, e2⟩ : ∃ v1 v2, (ls_energy_table : EnergyTable ℝ).interpolate ci p.T y1 = .ok v1 ∧
      (ls_energy_table : EnergyTable ℝ).interpolate ci p.T y2 = .ok v2 := by
    rcases lt_or_ge ((ls_energy_table : EnergyTable ℝ).val 199) p.T with h9 | h9
    · exact ⟨0, 0, interpolate_outside ci _ y1 _ (Or.inr h9), interpolate_outside ci _ y2 _ (Or.inr h9)⟩
    · obtain ⟨i, θ, hi, ht0, htp, ht1, hb0, hb1, hθ, key⟩ := interpolate_affine ci ls_energy_table hb.1 hb.2.1 hb.2.2
        ls_gap p.T (by rw [ls_first]; linarith) h9 hT
      obtain ⟨a1, b1, -, -, e1⟩ := key y1 hl1
      obtain ⟨a2, b2, -, -, e2⟩ := key y2 hl2
      exact ⟨_, _, e1, e2⟩
  refine ⟨v1 - (v2 - v1) / 0.05, (v2 - v1) / 0.05 / element_atomic_weight n, fun a ha => ?_⟩
  unfold precalculated_lindhard lsValue lsValueOf
  rw [lsZ_ion (ion a ha) (by omega), bind_ok]
  dsimp only
  rw [if_neg (by rw [lt_real, ls_first]; linarith)]
  simp only [hy1, hy2, bind_ok, e1, e2, pure, Except.pure]
  refine congrArg Except.ok ?_
  generalize (element_atomic_weight n : ℝ) = w at hwp
  have e : (0.05 : ℝ) = 1 / 20 := by norm_num
  rw [e]
  field_simp
  ring

/-- An affine function that is not negative up to `b` grows no faster than its argument. -/
theorem affine_per_mass (u k a b : ℝ) (ha : 0 < a) (hab : a ≤ b) (h : ∀ x, 0 < x → x ≤ b → 0 ≤ u + k * x) :
    a * (u + k * b) ≤ b * (u + k * a) := by
  have hu : 0 ≤ u := by
    by_contra hu
    rw [not_le] at hu
    rcases le_or_gt k 0 with hk | hk
    · have := h b (by linarith) le_rfl
      nlinarith
    · have h1 := h (min b (-u / (2 * k))) (lt_min (by linarith) (div_pos (by linarith) (by linarith))) (min_le_left _ _)
      have h2 : k * min b (-u / (2 * k)) ≤ k * (-u / (2 * k)) := mul_le_mul_of_nonneg_left (min_le_right _ _) hk.le
      have h3 : k * (-u / (2 * k)) = -u / 2 := by field_simp
      linarith
  nlinarith

/-- Bremsstrahlung falls with the mass. -/
theorem brems_mass (p : Projectile ℝ) (t : Target ℝ) (hT : 0 ≤ p.T) (tA : 0 < t.A) (a b : ℝ) (ha : 0 < a) (hab : a ≤ b) :
    bremsstrahlung { p with A := b } t ≤ bremsstrahlung { p with A := a } t := by
  have hb : 0 < b := by linarith
  have k0 : (0 : ℝ) < 16 * dedx_constant * fine_structure * (electron_mass / atomic_mass_unit) / (12 * PI) := by
    norm_num [dedx_constant, fine_structure, electron_mass, atomic_mass_unit, PI]
  have g0 : (0 : ℝ) < 1 + p.T / atomic_mass_unit := by
    have : (0 : ℝ) ≤ p.T / atomic_mass_unit := div_nonneg hT (by norm_num [atomic_mass_unit])
    linarith
  have c0 : (0 : ℝ) < 2.0 * 0.1 * hbar * c_light / atomic_mass_unit := by
    norm_num [hbar, c_light, atomic_mass_unit]
  rw [brems_value, brems_value]
  unfold bremsK
  dsimp only
  generalize (16 * dedx_constant * fine_structure * (electron_mass / atomic_mass_unit) / (12 * PI) : ℝ) = k at k0
  generalize (1 + p.T / atomic_mass_unit : ℝ) = g at g0
  generalize (2.0 * 0.1 * hbar * c_light / atomic_mass_unit : ℝ) = c at c0
  have l1 : Real.log a ≤ Real.log b := Real.log_le_log ha hab
  have e0 := Real.exp_pos (Real.log t.A * (1 / 3))
  have ea := Real.exp_pos (Real.log a * (1 / 3))
  have e1 : Real.exp (Real.log a * (1 / 3)) ≤ Real.exp (Real.log b * (1 / 3)) := Real.exp_le_exp.mpr (by linarith)
  generalize Real.exp (Real.log a * (1 / 3)) = x at *
  generalize Real.exp (Real.log b * (1 / 3)) = y at *
  generalize Real.exp (Real.log t.A * (1 / 3)) = r at *
  have hz4 : 0 ≤ p.Z ^ 4 := by positivity
  have htz2 : 0 ≤ (t.Z : ℝ) ^ 2 := by positivity
  have y0 : 0 < y := by linarith
  have L : Real.log (1 + c / (1.18 * (y + r)) / b * g) ≤ Real.log (1 + c / (1.18 * (x + r)) / a * g) := by
    apply Real.log_le_log (by positivity)
    gcongr
  have L0 : 0 ≤ Real.log (1 + c / (1.18 * (y + r)) / b * g) := Real.log_nonneg (by
    have : 0 ≤ c / (1.18 * (y + r)) / b * g := by positivity
    linarith)
  have q : p.Z ^ 4 / b * ((t.Z : ℝ) ^ 2 / t.A) ≤ p.Z ^ 4 / a * ((t.Z : ℝ) ^ 2 / t.A) := by gcongr
  have q0 : 0 ≤ p.Z ^ 4 / b * ((t.Z : ℝ) ^ 2 / t.A) := by positivity
  generalize p.Z ^ 4 / b * ((t.Z : ℝ) ^ 2 / t.A) = q1 at *
  generalize p.Z ^ 4 / a * ((t.Z : ℝ) ^ 2 / t.A) = q2 at *
  have q3 : 0 ≤ k * q2 := mul_nonneg k0.le (q0.trans q)
  gcongr

/-- Energy lost to radiation per mass. -/
theorem radiative_mass (p : Projectile ℝ) (t : Target ℝ) (c : Config ℝ) (hT : 0 ≤ p.T) (tA : 0 < t.A) (a b : ℝ) (ha : 0 < a) (hab : a ≤ b) :
    a * radiative { p with A := b } t c ≤ b * radiative { p with A := a } t c := by
  unfold radiative
  dsimp only
  split
  · have h1 := brems_mass p t hT tA a b ha hab
    obtain ⟨h2, h3⟩ := radiative_nonneg { p with A := a } t hT ha tA
    have e : pair_production { p with A := b } t = pair_production { p with A := a } t := rfl
    rw [e]
    generalize pair_production { p with A := a } t = P at *
    generalize bremsstrahlung { p with A := a } t = B at *
    generalize bremsstrahlung { p with A := b } t = B' at *
    calc a * (P + B') ≤ a * (P + B) := by gcongr
      _ ≤ b * (P + B) := by gcongr
  · simp

/-- One component of the Bethe formula per mass. -/
theorem bethe_mass (env : Env ℝ) {p : Projectile ℝ} {n : Int} (hp : p.Ion n) (hn : n ≤ 108) (t : Target ℝ) (tZ : 1 ≤ t.Z)
    (tA : 0 < t.A) (c : Config ℝ) (I : ℝ) (hT : 10 ≤ p.T) (hr : LindhardReadable p.T) (hI : TypicalI I t.Z) (z : ℝ)
    (hz : ∀ a, z_effective env.debug { p with A := a } t c = .ok z) (hz0 : 0 ≤ z) (a b : ℝ) (ha : 0 < a) (hab : a ≤ b)
    (hb : b ≤ 5 * element_atomic_weight n) : ∃ v v', bethek_dedx_e_target env { p with A := a } t c I = .ok v ∧
      bethek_dedx_e_target env { p with A := b } t c I = .ok v' ∧ a * v' ≤ b * v := by
  have ion : ∀ a, 0 < a → ({ p with A := a } : Projectile ℝ).Ion n := fun a ha => ⟨hp.Z, hp.pos, hp.int, ha⟩
  obtain ⟨i, hi, x0, x1, c0, a0, m, d, hi', g0, g1, g2, g3, g4, g5, hD⟩ := density_formula t.Z tZ
  obtain ⟨u, k, hl⟩ : ∃ u k : ℝ, ∀ a, 0 < a → (if c.corrections.testBit 1 = true then .ok 0 else
      precalculated_lindhard env.calcIndex { p with A := a }) = .ok (u + k * a) := by
    split
    · exact ⟨0, 0, fun a _ => by simp⟩
    · exact lindhard_in_mass env.calcIndex hp hn hT hr
  let c8 : Config ℝ := { c with corrections := c.corrections ||| 8 }
  have bits : c8.corrections.testBit 0 = c.corrections.testBit 0 ∧ c8.corrections.testBit 1 = c.corrections.testBit 1 ∧
      c8.corrections.testBit 2 = c.corrections.testBit 2 ∧ c8.corrections.testBit 3 = true := by
    have h : ∀ i, c8.corrections.testBit i = (c.corrections.testBit i || Nat.testBit 8 i) := fun i => Nat.testBit_or ..
    refine ⟨?_, ?_, ?_, ?_⟩
    · rw [h, show Nat.testBit 8 0 = false from rfl, Bool.or_false]
    · rw [h, show Nat.testBit 8 1 = false from rfl, Bool.or_false]
    · rw [h, show Nat.testBit 8 2 = false from rfl, Bool.or_false]
    · rw [h, show Nat.testBit 8 3 = true from rfl, Bool.or_true]
  have e1 : ∀ x, radiative { p with A := x } t c8 = 0 := fun x => by
    unfold radiative
    rw [if_neg (by rw [bits.2.2.2]; simp)]
  have e2 : shellFactor c8 = shellFactor c := by
    funext x y; unfold shellFactor; rw [bits.2.2.1]
  have e3 : barkasTerm c8 = barkasTerm c := by
    funext x y w; unfold barkasTerm; rw [bits.1]
  have hz8 : ∀ a, z_effective env.debug { p with A := a } t c8 = .ok z := hz
  obtain ⟨K, F, D, val, val8⟩ : ∃ K F D : ℝ, (∀ x, 0 < x → bethek_dedx_e_target env { p with A := x } t c I =
        .ok (K * (F + (u + k * x) - D) + radiative { p with A := x } t c)) ∧
      ∀ x, 0 < x → bethek_dedx_e_target env { p with A := x } t c8 I = .ok (K * (F + (u + k * x) - D)) := by
    refine ⟨dedx_constant * z ^ 2 * (t.Z : ℝ) / (etaSq p.T / (1 + etaSq p.T) * t.A),
      betheLog (shellFactor c (usedI I t.Z) t.Z) (usedI I t.Z) (etaSq p.T) * (1 + barkasTerm c z (etaSq p.T) t.Z),
      densityFormula x0.rat x1.rat c0.rat a0.rat m.rat d.rat (Real.log (√(etaSq p.T)) / 2.3025851) / 2,
      fun x hx => bethe_value env (ion x hx) t tZ tA c I hT z (hz x) hz0 hI _ hD _ (hl x hx), fun x hx => ?_⟩
    have := bethe_value env (ion x hx) t tZ tA c8 I hT z (hz8 x) hz0 hI _ hD (u + k * x) (by rw [bits.2.1]; exact hl x hx)
    rwa [e1, e2, e3, add_zero] at this
  refine ⟨_, _, val a ha, val b (by linarith), ?_⟩
  have rad := radiative_mass p t c (by linarith) tA a b ha hab
  have key : ∀ x, 0 < x → x ≤ b → 0 ≤ K * (F + (u + k * x) - D) := fun x h0 h1 => by
    obtain ⟨v, hv, hv0, -⟩ := bethe_target_nonneg env (ion x h0) hn (by show x ≤ _; linarith) t tZ tA c8 I hT hr z (hz8 x) hz0 hI
    rw [val8 x h0] at hv
    rw [← Except.ok.inj hv] at hv0
    exact hv0
  clear val val8 hD
  have e : ∀ x, K * (F + (u + k * x) - D) = K * (F + u - D) + K * k * x := fun x => by ring
  simp only [e] at key ⊢
  have := affine_per_mass _ _ a b ha hab key
  generalize radiative { p with A := b } t c = R' at *
  generalize radiative { p with A := a } t c = R at *
  linarith

/-- Logarithms of the reduced energies per mass. -/
theorem log_per_mass (a b e f : ℝ) (ha : 0 < a) (hab : a ≤ b) (he : 30 ≤ e) (hf : 0 < f) (h : a * f ≤ b * e) :
    a * Real.log f ≤ b * Real.log e := by
  have h1 : 3.4 ≤ Real.log e := log_ge_3_4 e he
  have h2 : f / e ≤ b / a := by rw [div_le_div_iff₀ (by linarith) ha]; linarith
  have h3 : Real.log f = Real.log e + Real.log (f / e) := by
    rw [Real.log_div hf.ne' (by linarith)]; ring
  have h4 : Real.log (f / e) ≤ f / e - 1 := Real.log_le_sub_one_of_pos (div_pos hf (by linarith))
  have h5 : a * Real.log (f / e) ≤ b - a := by
    have : a * Real.log (f / e) ≤ a * (b / a - 1) := by
      gcongr
      linarith
    rwa [show a * (b / a - 1) = b - a by field_simp] at this
  norm_num at h1
  rw [h3, mul_add]
  nlinarith

/-- Nuclear stopping per mass if the reduced energies exceed 30. -/
theorem nuclear_mass (debug : Bool) (p : Projectile ℝ) (t : Target ℝ) (hZ : 0 < p.Z) (tZ : 1 ≤ t.Z) (tA : 0 < t.A) (hT : 0 < p.T)
    (a b : ℝ) (ha : 0 < a) (hab : a ≤ b)
    (he : 30 * (p.Z * t.Z * (a + t.A) * (p.Z ^ (0.23 : ℝ) + (t.Z : ℝ) ^ (0.23 : ℝ))) < 32530 * t.A * a * p.T) : ∃ v v',
      dedx_n_target debug { p with A := a } t = .ok v ∧ dedx_n_target debug { p with A := b } t = .ok v' ∧ a * v' ≤ b * v := by
  have hb : 0 < b := by linarith
  have e1 := nuclear_target_value debug { p with A := a } t hZ ha tZ tA p.T hT
  have e2 := nuclear_target_value debug { p with A := b } t hZ hb tZ tA p.T hT
  refine ⟨_, _, e1, e2, ?_⟩
  dsimp only
  have htz : (0 : ℝ) < t.Z := by exact_mod_cast (by omega : 0 < t.Z)
  have p1 := Real.rpow_pos_of_pos hZ 0.23
  have p2 := Real.rpow_pos_of_pos htz 0.23
  have hAv : (0 : ℝ) < Avogadro := by norm_num [Avogadro]
  have n1 : (32.53 : ℝ) * t.A * 1000.0 = 32530 * t.A := by norm_num; ring
  have n2 : (0 : ℝ) < 100.0 * 8.4621 := by norm_num
  rw [n1]
  clear e1 e2
  generalize (100.0 * 8.4621 : ℝ) = k at n2
  generalize (Avogadro : ℝ) = N at hAv
  have p3 : 0 < p.Z ^ (0.23 : ℝ) + (t.Z : ℝ) ^ (0.23 : ℝ) := by linarith
  generalize p.Z ^ (0.23 : ℝ) + (t.Z : ℝ) ^ (0.23 : ℝ) = s at p3 he
  generalize (t.Z : ℝ) = zt at *
  have f : ∀ x, 0 < x → 0 < 32530 * t.A * x / (p.Z * zt * (x + t.A) * s) * p.T := fun x hx => by positivity
  have g1 : 30 < 32530 * t.A * a / (p.Z * zt * (a + t.A) * s) * p.T := by
    rw [div_mul_eq_mul_div, lt_div_iff₀ (by positivity)]
    exact he
  have g2 : 32530 * t.A * a / (p.Z * zt * (a + t.A) * s) * p.T ≤ 32530 * t.A * b / (p.Z * zt * (b + t.A) * s) * p.T := by
    gcongr ?_ * p.T
    rw [div_le_div_iff₀ (by positivity) (by positivity)]
    have : a * (b + t.A) ≤ b * (a + t.A) := by nlinarith
    have q : 0 ≤ 32530 * t.A * (p.Z * zt * s) := by positivity
    nlinarith [mul_le_mul_of_nonneg_left this q]
  have g3 : a * (32530 * t.A * b / (p.Z * zt * (b + t.A) * s) * p.T) ≤ b * (32530 * t.A * a / (p.Z * zt * (a + t.A) * s) * p.T) := by
    have : 32530 * t.A * a * b * p.T / (p.Z * zt * (b + t.A) * s) ≤ 32530 * t.A * a * b * p.T / (p.Z * zt * (a + t.A) * s) := by
      gcongr
    refine le_trans (le_of_eq ?_) (this.trans (le_of_eq ?_)) <;> ring
  have l := log_per_mass a b _ _ ha hab g1.le (f b hb) g3
  have r : ∀ x, 0 < x → 30 < 32530 * t.A * x / (p.Z * zt * (x + t.A) * s) * p.T →
      k * p.Z * zt * x * N / ((x + t.A) * s * t.A) * reducedNuclear (32530 * t.A * x / (p.Z * zt * (x + t.A) * s) * p.T) =
      k * p.Z ^ 2 * zt ^ 2 * N / (65060 * t.A ^ 2 * p.T) * Real.log (32530 * t.A * x / (p.Z * zt * (x + t.A) * s) * p.T) := by
    intro x hx h
    unfold reducedNuclear
    rw [if_neg (not_le.mpr h)]
    generalize Real.log (32530 * t.A * x / (p.Z * zt * (x + t.A) * s) * p.T) = L
    field_simp
    ring
  rw [r a ha g1, r b hb (g1.trans_le g2)]
  have q : 0 ≤ k * p.Z ^ 2 * zt ^ 2 * N / (65060 * t.A ^ 2 * p.T) := by positivity
  have := mul_le_mul_of_nonneg_left l q
  generalize Real.log (32530 * t.A * a / (p.Z * zt * (a + t.A) * s) * p.T) = L at *
  generalize Real.log (32530 * t.A * b / (p.Z * zt * (b + t.A) * s) * p.T) = L' at *
  linarith

end Catima
