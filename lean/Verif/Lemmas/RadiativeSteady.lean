import Verif.Lemmas.RadiativeStep
import Verif.Lemmas.RadiativePair
import Mathlib.Analysis.Complex.ExponentialBounds

/-!
# Helper lemmas: the energy lost to pair production and bremsstrahlung over a small step of the energy
-/

namespace Catima

/-- Pair production and bremsstrahlung over a step of the energy. -/
theorem radiative_step (p : Projectile ℝ) (t : Target ℝ) (c : Config ℝ) (pZ : 1 ≤ p.Z) (pA : p.Z ≤ 2 * p.A)
    (tZ : 1 ≤ t.Z) (tZ' : t.Z ≤ 120) (tA : 0 < t.A) (x r : ℝ) (h1 : 1.039 ≤ r) (h2 : r ≤ 1.0393) (hx' : r * x ≤ 10100000) :
    (50000 < x → c.corrections.testBit 3 = false →
      Step 1.15 1.04 (radiative (p.withT x) t c) (radiative (p.withT (r * x)) t c)) ∧
    (x ≤ 50000 → radiative (p.withT x) t c = 0 ∧ 0 ≤ radiative (p.withT (r * x)) t c ∧
      radiative (p.withT (r * x)) t c ≤ 1.45 * (dedx_constant * p.Z ^ 2 * t.Z / t.A)) ∧
    (c.corrections.testBit 3 = true → radiative (p.withT x) t c = 0 ∧ radiative (p.withT (r * x)) t c = 0) := by
  have hA : 0 < p.A := by linarith
  have tz : (1 : ℝ) ≤ t.Z := by exact_mod_cast tZ
  have tz' : (t.Z : ℝ) ≤ 120 := by exact_mod_cast tZ'
  have hpi : (0 : ℝ) < PI := by norm_num [PI]
  have hd : (0 : ℝ) < dedx_constant := by norm_num [dedx_constant]
  have hf : (0 : ℝ) < fine_structure := by norm_num [fine_structure]
  have he : (0 : ℝ) < electron_mass := by norm_num [electron_mass]
  have hu := amu_pos
  have hh : (0 : ℝ) < hbar := by norm_num [hbar]
  have hc : (0 : ℝ) < c_light := by norm_num [c_light]
  have hK : 0 < bremsK p t := by unfold bremsK; positivity
  obtain ⟨q0, q1⟩ := pi_bounds
  obtain ⟨l0, l1⟩ := log2_bounds
  have hZ3 := zt13_ge t.Z tZ tZ'
  refine ⟨fun hx hb => ?_, fun hx => ?_, fun hb => ?_⟩
  · have gx : 50000 < r * x := by norm_num at h1; nlinarith
    have hv : ∀ y, 50000 < y → radiative (p.withT y) t c = pair_production (p.withT y) t + bremsstrahlung (p.withT y) t := by
      intro y hy
      unfold radiative
      rw [if_pos ⟨by show (50000 : ℝ) < y; exact hy, by rw [hb]⟩]
    rw [hv x hx, hv (r * x) gx]
    have u0 : (atomic_mass_unit : ℝ) = 931.4940954 := by rfl
    have g1 : 54.6 ≤ 1 + x / atomic_mass_unit := by
      have : (50000 : ℝ) / atomic_mass_unit ≤ x / atomic_mass_unit := by gcongr
      rw [u0] at this ⊢
      norm_num at this ⊢
      linarith
    have g2 : 1 + r * x / atomic_mass_unit ≤ 11000 := by
      have : r * x / atomic_mass_unit ≤ 10100000 / atomic_mass_unit := by gcongr
      rw [u0] at this ⊢
      norm_num at this ⊢
      linarith
    have g3 : 1 + x / atomic_mass_unit ≤ 1 + r * x / atomic_mass_unit := by
      gcongr; norm_num at h1; nlinarith
    have g4 : 1 + r * x / atomic_mass_unit ≤ 1.0393 * (1 + x / atomic_mass_unit) := by
      have : r * (x / atomic_mass_unit) ≤ 1.0393 * (x / atomic_mass_unit) := by gcongr
      rw [← mul_div_assoc] at this
      norm_num at this ⊢
      linarith
    have S := pairFactor_step _ _ _ _ _ q0 q1 l0 l1 hZ3 g1 g2 g3 g4
    rw [pair_value (p.withT x) t (by show 0 < x; linarith) tA tZ S.pos,
      pair_value (p.withT (r * x)) t (by show 0 < r * x; linarith) tA tZ S.pos', brems_value, brems_value]
    show Step 1.15 1.04 (0.25 * dedx_constant * fine_structure ^ 2 * p.Z ^ 2 * ((t.Z : ℝ) * (t.Z + 1) / t.A) *
        ((1 + x / atomic_mass_unit) * _) + 16 * dedx_constant * fine_structure * (electron_mass / atomic_mass_unit) / (12 * PI) *
      (p.Z ^ 4 / p.A * ((t.Z : ℝ) ^ 2 / t.A)) *
      ((1 + x / atomic_mass_unit) * Real.log (1 + bremsK p t * (1 + x / atomic_mass_unit))))
      (0.25 * dedx_constant * fine_structure ^ 2 * p.Z ^ 2 * ((t.Z : ℝ) * (t.Z + 1) / t.A) *
        ((1 + r * x / atomic_mass_unit) * _) + 16 * dedx_constant * fine_structure * (electron_mass / atomic_mass_unit) / (12 * PI) *
      (p.Z ^ 4 / p.A * ((t.Z : ℝ) ^ 2 / t.A)) *
      ((1 + r * x / atomic_mass_unit) * Real.log (1 + bremsK p t * (1 + r * x / atomic_mass_unit))))
    have gp : 0 < 1 + x / atomic_mass_unit := by norm_num at g1; linarith
    have G : Step 1.0393 1 (1 + x / atomic_mass_unit) (1 + r * x / atomic_mass_unit) := ⟨gp, by linarith, g4, by linarith⟩
    have B : Step 1.0393 1 (Real.log (1 + bremsK p t * (1 + x / atomic_mass_unit)))
        (Real.log (1 + bremsK p t * (1 + r * x / atomic_mass_unit))) := by
      have := log1p_step (bremsK p t * (1 + x / atomic_mass_unit)) ((1 + r * x / atomic_mass_unit) / (1 + x / atomic_mass_unit))
        (by positivity) (by rw [le_div_iff₀ gp]; linarith)
      have e : (1 + r * x / atomic_mass_unit) / (1 + x / atomic_mass_unit) * (bremsK p t * (1 + x / atomic_mass_unit)) =
          bremsK p t * (1 + r * x / atomic_mass_unit) := by field_simp
      rw [e] at this
      exact this.mono (by rw [div_le_iff₀ gp]; exact g4) le_rfl
    have tz0 : (0 : ℝ) < t.Z := by linarith
    have pz0 : 0 < p.Z := by linarith
    refine Step.add (((G.mul S).scale _ ?_).mono (by norm_num) (by norm_num)) (((G.mul B).scale _ ?_).mono (by norm_num) (by norm_num))
    · generalize (t.Z : ℝ) = w at *; positivity
    · generalize (t.Z : ℝ) = w at *; positivity
  · have r0 : radiative (p.withT x) t c = 0 := by
      unfold radiative
      rw [if_neg (fun h => by have : (50000 : ℝ) < x := h.1; linarith)]
    refine ⟨r0, ?_⟩
    unfold radiative
    split
    · rename_i h
      have gx : 50000 < r * x := h.1
      obtain ⟨n1, n2⟩ := radiative_nonneg (p.withT (r * x)) t (by show 0 ≤ r * x; linarith) hA tA
      refine ⟨by linarith, ?_⟩
      have u0 : (atomic_mass_unit : ℝ) = 931.4940954 := by rfl
      have g1 : 54.6 ≤ 1 + r * x / atomic_mass_unit := by
        have : (50000 : ℝ) / atomic_mass_unit ≤ r * x / atomic_mass_unit := by gcongr
        rw [u0] at this ⊢
        norm_num at this ⊢
        linarith
      have g2 : 1 + r * x / atomic_mass_unit ≤ 56.8 := by
        have : r * x / atomic_mass_unit ≤ 1.0393 * 50000 / atomic_mass_unit := by
          have : r * x ≤ 1.0393 * 50000 := mul_le_mul h2 hx (by norm_num at h1; by_contra h; nlinarith) (by norm_num)
          gcongr
        rw [u0] at this ⊢
        norm_num at this ⊢
        linarith
      have S := (pairFactor_step _ _ _ _ _ q0 q1 l0 l1 hZ3 g1 (g2.trans (by norm_num)) le_rfl
        (by norm_num at g1 ⊢; linarith)).pos
      have S' := pairFactor_le _ _ _ _ q0 q1 l0 l1 hZ3 g1 (g2.trans (by norm_num))
      rw [pair_value (p.withT (r * x)) t (by show 0 < r * x; linarith) tA tZ S, brems_value]
      show 0.25 * dedx_constant * fine_structure ^ 2 * p.Z ^ 2 * ((t.Z : ℝ) * (t.Z + 1) / t.A) *
        ((1 + r * x / atomic_mass_unit) * pairFactor (183 * Real.exp (Real.log t.Z * (-1 / 3))) (1 / (PI * PI)) (Real.log 2)
          (1 + r * x / atomic_mass_unit)) + 16 * dedx_constant * fine_structure * (electron_mass / atomic_mass_unit) / (12 * PI) *
        (p.Z ^ 4 / p.A * ((t.Z : ℝ) ^ 2 / t.A)) *
        ((1 + r * x / atomic_mass_unit) * Real.log (1 + bremsK p t * (1 + r * x / atomic_mass_unit))) ≤ _
      have k1 : bremsK p t ≤ 0.4605 / p.A := by
        unfold bremsK
        apply div_le_div_of_nonneg_right _ hA.le
        have e1 : 0.78 ≤ Real.exp (Real.log p.A * (1 / 3)) := by
          apply le_of_pow_le_pow_left₀ (n := 3) (by norm_num) (Real.exp_pos _).le
          rw [← Real.exp_nat_mul, show ((3 : Nat) : ℝ) * (Real.log p.A * (1 / 3)) = Real.log p.A by push_cast; ring,
            Real.exp_log hA]
          norm_num; linarith
        have e2 := Real.exp_pos (Real.log t.A * (1 / 3))
        rw [div_le_iff₀ (by positivity)]
        have : (2.0 * 0.1 * hbar * c_light / atomic_mass_unit : ℝ) ≤ 0.4605 * (1.18 * 0.78) := by
          rw [u0]; norm_num [hbar, c_light]
        refine this.trans ?_
        gcongr
        linarith
      generalize pairFactor (183 * Real.exp (Real.log t.Z * (-1 / 3))) (1 / (PI * PI)) (Real.log 2) (1 + r * x / atomic_mass_unit) = F at *
      generalize bremsK p t = K at *
      generalize 1 + r * x / atomic_mass_unit = g at *
      have g0 : 0 < g := by norm_num at g1; linarith
      have lg : Real.log (1 + K * g) ≤ 0.4605 / p.A * g := by
        have := Real.log_le_sub_one_of_pos (show 0 < 1 + K * g by positivity)
        have : K * g ≤ 0.4605 / p.A * g := by gcongr
        linarith
      have lg0 : 0 ≤ Real.log (1 + K * g) := Real.log_nonneg (by linarith [mul_pos hK g0])
      generalize Real.log (1 + K * g) = Y at *
      have tz0 : (0 : ℝ) < t.Z := by linarith
      generalize (t.Z : ℝ) = tz0' at *
      have w0 : 0 < dedx_constant * p.Z ^ 2 * tz0' / t.A := by
        have : 0 < p.Z := by linarith
        positivity
      -- pair production
      have a1 : 0.25 * dedx_constant * fine_structure ^ 2 * p.Z ^ 2 * (tz0' * (tz0' + 1) / t.A) * (g * F) ≤
          0.23 * (dedx_constant * p.Z ^ 2 * tz0' / t.A) := by
        have e : 0.25 * dedx_constant * fine_structure ^ 2 * p.Z ^ 2 * (tz0' * (tz0' + 1) / t.A) * (g * F) =
            (0.25 * fine_structure ^ 2 * ((tz0' + 1) * (g * F))) * (dedx_constant * p.Z ^ 2 * tz0' / t.A) := by ring
        rw [e]
        apply mul_le_mul_of_nonneg_right _ w0.le
        have b1 : (tz0' + 1) * (g * F) ≤ 121 * (56.8 * 2.4) := by gcongr; linarith
        have b2 : (fine_structure : ℝ) ^ 2 ≤ 5.4e-5 := by norm_num [fine_structure]
        calc _ ≤ (0.25 * 5.4e-5 * (121 * (56.8 * 2.4)) : ℝ) := by gcongr
          _ ≤ 0.23 := by norm_num
      have a2 : 16 * dedx_constant * fine_structure * (electron_mass / atomic_mass_unit) / (12 * PI) *
          (p.Z ^ 4 / p.A * (tz0' ^ 2 / t.A)) * (g * Y) ≤ 1.22 * (dedx_constant * p.Z ^ 2 * tz0' / t.A) := by
        have e : 16 * dedx_constant * fine_structure * (electron_mass / atomic_mass_unit) / (12 * PI) *
            (p.Z ^ 4 / p.A * (tz0' ^ 2 / t.A)) * (g * Y) =
            (16 * fine_structure * (electron_mass / atomic_mass_unit) / (12 * PI) * (p.Z ^ 2 / p.A * tz0' * (g * Y))) *
              (dedx_constant * p.Z ^ 2 * tz0' / t.A) := by ring
        rw [e]
        apply mul_le_mul_of_nonneg_right _ w0.le
        have b0 : (16 * fine_structure * (electron_mass / atomic_mass_unit) / (12 * PI) : ℝ) ≤ 1.7e-6 := by
          norm_num [fine_structure, electron_mass, PI, u0]
        have b1 : p.Z ^ 2 / p.A * tz0' * (g * Y) ≤ 4 * 120 * (0.4605 * 56.8 ^ 2) := by
          calc _ ≤ p.Z ^ 2 / p.A * tz0' * (g * (0.4605 / p.A * g)) := by gcongr
            _ = (p.Z / p.A) ^ 2 * tz0' * (0.4605 * g ^ 2) := by ring
            _ ≤ 2 ^ 2 * 120 * (0.4605 * 56.8 ^ 2) := by
              have : 0 ≤ p.Z := by linarith
              gcongr
              rw [div_le_iff₀ hA]; exact pA
            _ = _ := by norm_num
        calc _ ≤ (1.7e-6 * (4 * 120 * (0.4605 * 56.8 ^ 2)) : ℝ) := by gcongr
          _ ≤ _ := by norm_num
      refine (add_le_add a1 a2).trans (le_of_eq ?_)
      generalize dedx_constant * p.Z ^ 2 * tz0' / t.A = D
      norm_num
      linarith
    · have : 0 ≤ 1.45 * (dedx_constant * p.Z ^ 2 * (t.Z : ℝ) / t.A) := by
        have : (0 : ℝ) ≤ t.Z := by linarith
        positivity
      exact ⟨le_rfl, this⟩
  · unfold radiative
    rw [if_neg (fun h => by rw [hb] at h; exact absurd h.2 (by decide)), if_neg (fun h => by rw [hb] at h; exact absurd h.2 (by decide))]
    exact ⟨rfl, rfl⟩

end Catima
