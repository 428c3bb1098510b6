import Verif.Lemmas.BetheBounds
import Verif.Lemmas.LindhardLow
import Verif.Props.Kinematics
import Verif.Props.Stopping

/-!
# Helper lemmas: the Bethe formula is non-negative from 10 MeV/u on
-/

namespace Catima

/-- One component of the Bethe formula is non-negative from 10 MeV/u on, and positive for a positive
effective charge. -/
theorem bethe_target_nonneg (env : Env ℝ) {p : Projectile ℝ} {n : Int} (hp : p.Ion n)
    (hn : n ≤ 108) (hA : p.A ≤ 5 * element_atomic_weight n) (t : Target ℝ) (tZ : 1 ≤ t.Z)
    (tA : 0 < t.A) (c : Config ℝ) (I : ℝ)
    (hT : 10 ≤ p.T) (hr : LindhardReadable p.T) (z : ℝ) (hz : z_effective env.debug p t c = .ok z)
    (hz0 : 0 ≤ z) (hI : TypicalI I t.Z) :
    ∃ v, bethek_dedx_e_target env p t c I = .ok v ∧ 0 ≤ v ∧ (0 < z → 0 < v) := by
  have hT0 : 0 < p.T := by linarith
  have hZ : 0 < p.Z := by rw [hp.Z]; exact_mod_cast (by linarith [hp.pos] : 0 < n)
  have htz : (0 : ℝ) < (t.Z : ℝ) := by exact_mod_cast (by omega : 0 < t.Z)
  unfold bethek_dedx_e_target
  rw [cassert_true _ _ (by
      rw [Bool.and_eq_true]
      refine ⟨by simpa using (by omega : 0 < t.Z), ?_⟩
      rw [lt_real]; norm_num; exact hZ), bind_ok,
    cassert_true _ _ (by
      rw [Bool.and_eq_true, lt_real, lt_real]
      norm_num
      exact ⟨tA, hp.A⟩), bind_ok,
    cassert_true _ _ (by rw [lt_real]; norm_num; exact hT0), bind_ok,
    if_neg (by rw [beq_real]; norm_num; exact hT0.ne'), hz]
  dsimp only
  rw [bind_ok, cassert_true _ _ (by rw [le_real]; norm_num; exact hz0), bind_ok]
  have hIp : (0 : ℝ) < (if Scalar.lt 0.0 I = true then I else ipot t.Z) ∧
      (if Scalar.lt 0.0 I = true then I else ipot t.Z) ≤ 1170 ∧
      (if Scalar.lt 0.0 I = true then I else ipot t.Z) ^ 2 ≤ 11500 * (t.Z : ℝ) := by
    split
    · rename_i h
      rw [lt_real] at h
      norm_num at h
      exact ⟨h, hI.1 h⟩
    · rename_i h
      rw [lt_real] at h
      norm_num at h
      exact ⟨ipot_pos _ tZ (hI.2 h), ipot_typical _ tZ (hI.2 h)⟩
  rw [cassert_true _ _ (by rw [lt_real]; exact lt_of_eq_of_lt (by norm_num) hIp.1), bind_ok]
  generalize (if Scalar.lt 0.0 I = true then I else ipot t.Z : ℝ) = Ip at hIp ⊢
  simp only [sqrt_real, log_real, pow_real, ofInt_real]
  have hg1 : (1 : ℝ) < 1.0 + p.T / atomic_mass_unit := by
    have := amu_pos
    have : 0 < p.T / atomic_mass_unit := by positivity
    norm_num; linarith
  have hgv : (1.0 : ℝ) + p.T / atomic_mass_unit = 1 + p.T / 931.4940954 := by
    rw [show (1.0 : ℝ) = 1 by norm_num]; rfl
  have hbv : (1.0 : ℝ) - 1.0 / ((1.0 + p.T / atomic_mass_unit) * (1.0 + p.T / atomic_mass_unit)) =
      1 - 1 / ((1.0 + p.T / atomic_mass_unit) * (1.0 + p.T / atomic_mass_unit)) := by
    rw [show (1.0 : ℝ) = 1 by norm_num]
  generalize (1.0 : ℝ) + p.T / atomic_mass_unit = g at *
  rw [hbv]
  obtain ⟨b2, hb2⟩ : ∃ b2, b2 = 1 - 1 / (g * g) := ⟨_, rfl⟩
  rw [← hb2]
  have hgg : 1 < g * g := by nlinarith
  have hbp : 0 < b2 := by
    rw [hb2, sub_pos, div_lt_one (by linarith)]; exact hgg
  have hbs : √b2 * √b2 = b2 := Real.mul_self_sqrt hbp.le
  have hgam : 1 / √(1 - √b2 * √b2) = g := by
    rw [hbs, hb2, show 1 - (1 - 1 / (g * g)) = (1 / g) ^ 2 by field_simp; ring,
      Real.sqrt_sq (by positivity)]
    field_simp
  obtain ⟨d, hd, hdb⟩ := density_le (√b2) t.Z tZ
  rw [hgam] at hdb
  rw [hd, bind_ok]
  -- the shell correction
  have heta2 : (√b2 * g) ^ 2 = g ^ 2 - 1 := by
    rw [mul_pow, Real.sq_sqrt hbp.le, hb2]; field_simp
  have hshell : shellCor (√b2 * g) Ip / (t.Z : ℝ) ≤ 0.545 := by
    refine shell_le _ _ _ (by positivity) ?_ hIp.1 hIp.2.1 htz hIp.2.2
    rw [heta2, hgv]
    have : (10 : ℝ) / 931.4940954 ≤ p.T / 931.4940954 := by gcongr
    norm_num at this ⊢
    nlinarith
  -- the bracket for every choice of the corrections
  have key : ∀ sh l : ℝ, sh ≤ 0.545 → -6.51 ≤ l → (p.T ≤ 150000 → -2.23 ≤ l) →
      0 < Real.log (2.0 * electron_mass * 1000000.0 * b2 / Ip) - sh + (2.0 * Real.log g - b2) ∧
      0 < Real.log (2.0 * electron_mass * 1000000.0 * b2 / Ip) - sh + (2.0 * Real.log g - b2)
        + l - d / 2.0 := fun sh l h1 h2 h3 =>
    bracket_pos p.T Ip sh d l hT hIp.1 hIp.2.1 h1 g b2 _ hgv hb2 rfl hdb h2 h3
  have key2 : ∀ (sh l k : ℝ), sh ≤ 0.545 → -6.51 ≤ l → (p.T ≤ 150000 → -2.23 ≤ l) → 1 ≤ k →
      0 < (Real.log (2.0 * electron_mass * 1000000.0 * b2 / Ip) - sh + (2.0 * Real.log g - b2)) * k
        + l - d / 2.0 := by
    intro sh l k h1 h2 h3 hk
    obtain ⟨k1, k2⟩ := key sh l h1 h2 h3
    nlinarith
  -- the shell term as a number
  obtain ⟨sh, hsh, hshe⟩ : ∃ sh : ℝ, sh ≤ 0.545 ∧
      (if (!c.corrections.testBit 2 && Scalar.le 0.13 (√b2 * g)) = true then
        Real.log (2.0 * electron_mass * 1000000.0 * b2 / Ip) - shellCor (√b2 * g) Ip / (t.Z : ℝ)
        else Real.log (2.0 * electron_mass * 1000000.0 * b2 / Ip)) =
      Real.log (2.0 * electron_mass * 1000000.0 * b2 / Ip) - sh := by
    split
    · exact ⟨_, hshell, rfl⟩
    · exact ⟨0, by norm_num, by ring⟩
  rw [hshe]
  -- the Barkas factor
  obtain ⟨k, hk, hke⟩ : ∃ k : ℝ, 1 ≤ k ∧
      (if (!c.corrections.testBit 0) = true then bethek_barkas z (√b2 * g) (t.Z : ℝ) else 1.0) = k := by
    split
    · exact ⟨_, barkas_ge_one z _ _ hz0, rfl⟩
    · exact ⟨1.0, by norm_num, rfl⟩
  rw [hke]
  have hbr := fun l h2 h3 => key2 sh l k hsh h2 h3 hk
  generalize (Real.log (2.0 * electron_mass * 1000000.0 * b2 / Ip) - sh +
    (2.0 * Real.log g - b2)) * k = B at hbr ⊢
  obtain ⟨r1, r2⟩ := radiative_nonneg p t hT0.le hp.A tA
  have hdc : (0 : ℝ) < dedx_constant := by norm_num [dedx_constant]
  have hf0 : 0 ≤ dedx_constant * z ^ (2.0 : ℝ) * (t.Z : ℝ) / (b2 * t.A) := by positivity
  have hf1 : 0 < z → 0 < dedx_constant * z ^ (2.0 : ℝ) * (t.Z : ℝ) / (b2 * t.A) := fun h => by
    positivity
  generalize dedx_constant * z ^ (2.0 : ℝ) * (t.Z : ℝ) / (b2 * t.A) = f at hf0 hf1 ⊢
  have fin : ∀ l : ℝ, -6.51 ≤ l → (p.T ≤ 150000 → -2.23 ≤ l) → 0 ≤ (B + l - d / 2.0) * f ∧
      (0 < z → 0 < (B + l - d / 2.0) * f) := fun l h2 h3 =>
    ⟨mul_nonneg (hbr l h2 h3).le hf0, fun h => mul_pos (hbr l h2 h3) (hf1 h)⟩
  -- the Lindhard-Sørensen correction
  by_cases hc1 : (!c.corrections.testBit 1) = true
  · obtain ⟨l, h1, h2, h3⟩ := lindhard_ge env.calcIndex hp hn hA hT hr
    obtain ⟨q1, q2⟩ := fin l h2 h3
    rw [if_pos hc1, h1, bind_ok]
    split
    · exact ⟨_, rfl, by linarith, fun h => by have := q2 h; linarith⟩
    · exact ⟨_, rfl, q1, q2⟩
  · obtain ⟨q1, q2⟩ := fin 0.0 (by norm_num) (fun _ => by norm_num)
    rw [if_neg hc1, pure_bind]
    split
    · exact ⟨_, rfl, by linarith, fun h => by have := q2 h; linarith⟩
    · exact ⟨_, rfl, q1, q2⟩

end Catima
