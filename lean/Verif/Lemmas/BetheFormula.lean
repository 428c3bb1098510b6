import Verif.Lemmas.BetheSteady
import Verif.Props.Kinematics

/-!
# The value of the Bethe formula
-/

namespace Catima

/-- `eta²` at kinetic energy `x`. -/
noncomputable def etaSq (x : ℝ) : ℝ := (1 + x / 931.4940954) ^ 2 - 1

/-- The radiative part of one component. -/
noncomputable def radiative (p : Projectile ℝ) (t : Target ℝ) (c : Config ℝ) : ℝ :=
  if 50000 < p.T ∧ c.corrections.testBit 3 = false then pair_production p t + bremsstrahlung p t else 0

/-- The excitation energy used. -/
noncomputable def usedI (I : ℝ) (z : Int) : ℝ := if 0 < I then I else ipot z

/-- Factor of the shell correction. -/
noncomputable def shellFactor (c : Config ℝ) (I : ℝ) (z : Int) : ℝ := if c.corrections.testBit 2 then 0 else I ^ 2 / z / 1000000

/-- The Barkas factor minus 1. -/
noncomputable def barkasTerm (c : Config ℝ) (z s : ℝ) (zt : Int) : ℝ :=
  if c.corrections.testBit 0 then 0 else bethek_barkas z (√s) zt - 1

theorem usedI_bounds (I : ℝ) (z : Int) (h1 : 1 ≤ z) (hI : TypicalI I z) :
    0 < usedI I z ∧ usedI I z ≤ 1170 ∧ usedI I z ^ 2 ≤ 11500 * (z : ℝ) := by
  unfold usedI
  split
  · rename_i h; exact ⟨h, hI.1 h⟩
  · rename_i h
    rw [not_lt] at h
    exact ⟨ipot_pos _ h1 (hI.2 h), ipot_typical _ h1 (hI.2 h)⟩

/-- One component of the Bethe formula from 10 MeV/u on. -/
theorem bethe_value (env : Env ℝ) {p : Projectile ℝ} {n : Int} (hp : p.Ion n) (t : Target ℝ) (tZ : 1 ≤ t.Z)
    (tA : 0 < t.A) (c : Config ℝ) (I : ℝ) (hT : 10 ≤ p.T) (z : ℝ) (hz : z_effective env.debug p t c = .ok z)
    (hz0 : 0 ≤ z) (hI : TypicalI I t.Z) (f : ℝ → ℝ)
    (hf : ∀ b, bethek_density_effect b t.Z = .ok (f (Real.log (b * (1 / √(1 - b * b))) / 2.3025851)))
    (l : ℝ) (hl : (if c.corrections.testBit 1 = true then .ok 0 else precalculated_lindhard env.calcIndex p) = .ok l) :
    bethek_dedx_e_target env p t c I = .ok (dedx_constant * z ^ 2 * t.Z / (etaSq p.T / (1 + etaSq p.T) * t.A) *
      (betheLog (shellFactor c (usedI I t.Z) t.Z) (usedI I t.Z) (etaSq p.T) * (1 + barkasTerm c z (etaSq p.T) t.Z) + l -
        f (Real.log (√(etaSq p.T)) / 2.3025851) / 2) + radiative p t c) := by
  have hT0 : 0 < p.T := by linarith
  have hZ : 0 < p.Z := by rw [hp.Z]; exact_mod_cast (by linarith [hp.pos] : 0 < n)
  have htz : (0 : ℝ) < (t.Z : ℝ) := by exact_mod_cast (by omega : 0 < t.Z)
  unfold bethek_dedx_e_target
  rw [cassert_true _ _ (by
      rw [Bool.and_eq_true]
      refine ⟨by simpa using (by omega : 0 < t.Z), ?_⟩
      rw [lt_real]; norm_num; exact hZ), bind_ok,
    cassert_true _ _ (by
      rw [Bool.and_eq_true, lt_real, lt_real]
      norm_num
      exact ⟨tA, hp.A⟩), bind_ok,
    cassert_true _ _ (by rw [lt_real]; norm_num; exact hT0), bind_ok,
    if_neg (by rw [beq_real]; norm_num; exact hT0.ne'), hz]
  dsimp only
  rw [bind_ok, cassert_true _ _ (by rw [le_real]; norm_num; exact hz0), bind_ok]
  obtain ⟨Ip, hIp⟩ : ∃ Ip, Ip = usedI I t.Z := ⟨_, rfl⟩
  have eI : (if Scalar.lt 0.0 I = true then I else ipot t.Z) = Ip := by
    rw [hIp]; unfold usedI
    by_cases h : 0 < I
    · rw [if_pos h, if_pos (by rw [lt_real]; norm_num; exact h)]
    · rw [if_neg h, if_neg (by rw [lt_real]; norm_num; linarith)]
  have bI := usedI_bounds I t.Z tZ hI
  rw [← hIp] at bI
  rw [eI, ← hIp, cassert_true _ _ (by rw [lt_real]; exact lt_of_eq_of_lt (by norm_num) bI.1), bind_ok]
  simp only [sqrt_real, log_real, pow_real, ofInt_real]
  have hg1 : (1 : ℝ) < 1.0 + p.T / atomic_mass_unit := by
    have := amu_pos
    have : 0 < p.T / atomic_mass_unit := by positivity
    norm_num; linarith
  have hgv : etaSq p.T = (1.0 + p.T / atomic_mass_unit) ^ 2 - 1 := by
    unfold etaSq; rw [show (1.0 : ℝ) = 1 by norm_num]; rfl
  have hbv : (1.0 : ℝ) - 1.0 / ((1.0 + p.T / atomic_mass_unit) * (1.0 + p.T / atomic_mass_unit)) =
      1 - 1 / ((1.0 + p.T / atomic_mass_unit) * (1.0 + p.T / atomic_mass_unit)) := by
    rw [show (1.0 : ℝ) = 1 by norm_num]
  have hy13 : 0.13 ≤ √(etaSq p.T) := by
    apply Real.le_sqrt_of_sq_le
    unfold etaSq
    have : (10 : ℝ) / 931.4940954 ≤ p.T / 931.4940954 := by gcongr
    norm_num at this ⊢
    nlinarith
  generalize (1.0 : ℝ) + p.T / atomic_mass_unit = g at *
  rw [hbv]
  obtain ⟨s, hs⟩ : ∃ s, s = etaSq p.T := ⟨_, rfl⟩
  rw [← hs] at hgv hy13 ⊢
  have s0 : 0 < s := by rw [hgv]; nlinarith
  have g0 : 0 < g := by linarith
  have hb2 : 1 - 1 / (g * g) = s / (1 + s) := by
    rw [show 1 + s = g * g by rw [hgv]; ring, show s = g * g - 1 by rw [hgv]; ring]
    field_simp
  rw [hb2]
  have hbp : 0 < s / (1 + s) := by positivity
  have hgs : g = √(1 + s) := by
    rw [show 1 + s = g ^ 2 by rw [hgv]; ring, Real.sqrt_sq g0.le]
  have heta : √(s / (1 + s)) * g = √s := by
    rw [Real.sqrt_div s0.le, hgs]
    have : √(1 + s) ≠ 0 := (Real.sqrt_pos.mpr (by linarith)).ne'
    field_simp
  have hgam : 1 / √(1 - √(s / (1 + s)) * √(s / (1 + s))) = g := by
    rw [Real.mul_self_sqrt hbp.le, show 1 - s / (1 + s) = (1 / g) ^ 2 by
      rw [show 1 + s = g ^ 2 by rw [hgv]; ring, show s = g ^ 2 - 1 by rw [hgv]]
      field_simp
      ring, Real.sqrt_sq (by positivity)]
    field_simp
  rw [heta, hf, bind_ok, hgam, heta]
  have efl : (if (!c.corrections.testBit 2 && Scalar.le 0.13 (√s)) = true then
      Real.log (2.0 * electron_mass * 1000000.0 * (s / (1 + s)) / Ip) - shellCor (√s) Ip / (t.Z : ℝ)
      else Real.log (2.0 * electron_mass * 1000000.0 * (s / (1 + s)) / Ip)) + (2.0 * Real.log g - s / (1 + s)) =
      betheLog (shellFactor c Ip t.Z) Ip s := by
    have elog : Real.log (2.0 * electron_mass * 1000000.0 * (s / (1 + s)) / Ip) + 2.0 * Real.log g =
        Real.log (1021997.856 / Ip) + Real.log s := by
      have e2 : (2.0 : ℝ) * Real.log g = Real.log (1 + s) := by
        rw [show 1 + s = g ^ 2 by rw [hgv]; ring, Real.log_pow]; norm_num
      have e3 : (2.0 * electron_mass * 1000000.0 * (s / (1 + s)) / Ip : ℝ) = 1021997.856 / Ip * s / (1 + s) := by
        norm_num [electron_mass]
        ring
      rw [e2, e3, Real.log_div (by have := bI.1; positivity) (by positivity), Real.log_mul (by have := bI.1; positivity) s0.ne']
      ring
    unfold betheLog shellFactor
    by_cases h2 : c.corrections.testBit 2 = true
    · rw [if_neg (by rw [h2]; simp), if_pos h2]
      linarith
    · rw [Bool.not_eq_true] at h2
      rw [if_pos (by rw [h2, Bool.not_false, Bool.true_and, le_real]; exact hy13), if_neg (by rw [h2]; simp)]
      rw [shell_poly (√s) Ip t.Z (Real.sqrt_pos.mpr s0), Real.sq_sqrt s0.le]
      unfold shellPoly
      linarith
  rw [efl]
  have ebk : (if (!c.corrections.testBit 0) = true then bethek_barkas z (√s) (t.Z : ℝ) else 1.0) = 1 + barkasTerm c z s t.Z := by
    unfold barkasTerm
    by_cases h2 : c.corrections.testBit 0 = true
    · rw [if_neg (by rw [h2]; simp), if_pos h2]; norm_num
    · rw [Bool.not_eq_true] at h2
      rw [if_pos (by rw [h2]; rfl), if_neg (by rw [h2]; simp)]; ring
  rw [ebk]
  have els : ∀ k : ℝ → M ℝ, (if (!c.corrections.testBit 1) = true then precalculated_lindhard env.calcIndex p >>= k
      else (pure (0.0 : ℝ) : M ℝ) >>= k) = k l := by
    intro k
    by_cases h2 : c.corrections.testBit 1 = true
    · rw [if_pos h2] at hl
      injection hl with hl
      rw [if_neg (by rw [h2]; simp), ← hl, pure_bind]
      norm_num
    · rw [if_neg h2] at hl
      rw [Bool.not_eq_true] at h2
      rw [if_pos (by rw [h2]; rfl), hl, bind_ok]
  refine (els _).trans ?_
  have e2 : z ^ (2.0 : ℝ) = z ^ 2 := by
    rw [show (2.0 : ℝ) = ((2 : Nat) : ℝ) by norm_num, Real.rpow_natCast]
  rw [e2]
  unfold radiative
  have e20 : (2.0 : ℝ) = 2 := by norm_num
  rw [e20]
  by_cases h5 : 50000 < p.T ∧ c.corrections.testBit 3 = false
  · rw [if_pos h5, if_pos (by rw [Bool.and_eq_true, lt_real]; norm_num; exact h5)]
    show Except.ok _ = Except.ok _
    congr 1
    ring
  · rw [if_neg h5, if_neg (by rw [Bool.and_eq_true, lt_real]; norm_num; simpa using h5)]
    show Except.ok _ = Except.ok _
    congr 1
    ring

end Catima
