import Verif.Lemmas.BetheFormula
import Verif.Lemmas.LindhardLow
import Verif.Lemmas.ProtonBlend
import Verif.Props.Stopping

/-!
# How the Bethe formula depends on the corrections and on the mean excitation energy
-/

namespace Catima

/-- The density effect is a function of the energy for every element. -/
theorem density_function (zt : Int) (h : 1 ≤ zt) : ∃ f : ℝ → ℝ,
    ∀ b, bethek_density_effect b zt = .ok (f (Real.log (b * (1 / √(1 - b * b))) / 2.3025851)) := by
  obtain ⟨l0, l1, l2, l3, l4, l5⟩ := density_lengths
  have hi : 0 ≤ (if zt > 97 then (97 : Int) else zt) - 1 ∧ (if zt > 97 then (97 : Int) else zt) - 1 < 97 := by split <;> omega
  unfold bethek_density_effect
  dsimp only
  generalize (if zt > 97 then (97 : Int) else zt) - 1 = i at hi
  obtain ⟨k, rfl⟩ := Int.eq_ofNat_of_zero_le hi.1
  have hk : k < 97 := by omega
  obtain ⟨x0, g0, e0⟩ := rdDec_at density_effect_x0 k (by omega)
  obtain ⟨x1, g1, e1⟩ := rdDec_at density_effect_x1 k (by omega)
  obtain ⟨c, g2, e2⟩ := rdDec_at density_effect_c k (by omega)
  obtain ⟨a, g3, e3⟩ := rdDec_at density_effect_a k (by omega)
  obtain ⟨m, g4, e4⟩ := rdDec_at density_effect_m k (by omega)
  obtain ⟨d, g5, e5⟩ := rdDec_at density_effect_del_0 k (by omega)
  simp only [log_real, sqrt_real, pow_real]
  rw [show (1.0 : ℝ) = 1 by norm_num, e0, e1, e2, e3, e4, e5]
  simp only [bind_ok]
  refine ⟨fun x => if Scalar.lt x (x0.rat : ℝ) = true then (if Scalar.lt 0.0 (d.rat : ℝ) = true then (d.rat : ℝ) * 10.0 ^ (2.0 * (x - (x0.rat : ℝ))) else 0.0)
    else if (Scalar.le (x0.rat : ℝ) x && Scalar.le x (x1.rat : ℝ)) = true then 4.6052 * x - (c.rat : ℝ) + (a.rat : ℝ) * ((x1.rat : ℝ) - x) ^ (m.rat : ℝ)
    else 4.6052 * x - (c.rat : ℝ), fun b => ?_⟩
  generalize Real.log (b * (1 / √(1 - b * b))) / 2.3025851 = x
  dsimp only
  split
  · rfl
  · split <;> rfl

/-- The logarithm of the Bethe formula with its shell correction decreases with the mean excitation energy. -/
theorem betheLog_antitone (k I J s : ℝ) (hk : 0 ≤ k) (h0 : 0 < I) (h : I ≤ J) (hJ : J ≤ 1170) (s0 : 0 < s) (hs : s⁻¹ ≤ 46.6) :
    betheLog (J ^ 2 * k) J s + (Real.log (1021997.856 / I) - Real.log (1021997.856 / J)) ≤ betheLog (I ^ 2 * k) I s := by
  unfold betheLog shellPoly
  have J0 : 0 < J := by linarith
  have y0 : 0 < s⁻¹ := by positivity
  generalize s⁻¹ = y at hs y0
  have hlog : Real.log (1021997.856 / J) ≤ Real.log (1021997.856 / I) := by
    refine Real.log_le_log (by positivity) ?_
    gcongr
  have ha : 0 ≤ 0.422377 * y + 0.0304043 * y ^ 2 - 0.00038106 * y ^ 3 := by
    have := shellPoly_nonneg 0 y le_rfl (by norm_num) y0.le hs
    unfold shellPoly at this
    linarith
  have hab : 0 ≤ 0.422377 * y + 0.0304043 * y ^ 2 - 0.00038106 * y ^ 3 + 1.755 * (3.858019 * y - 0.1667989 * y ^ 2 + 0.00157955 * y ^ 3) := by
    have e : 0.422377 * y + 0.0304043 * y ^ 2 - 0.00038106 * y ^ 3 + 1.755 * (3.858019 * y - 0.1667989 * y ^ 2 + 0.00157955 * y ^ 3) =
        y * (7.193200345 - 0.2623277695 * y + 0.00239105025 * y ^ 2) := by norm_num; ring
    rw [e]
    refine mul_nonneg y0.le ?_
    norm_num at hs ⊢
    nlinarith [sq_nonneg (y - 46.6)]
  generalize 0.422377 * y + 0.0304043 * y ^ 2 - 0.00038106 * y ^ 3 = a at ha hab
  generalize 3.858019 * y - 0.1667989 * y ^ 2 + 0.00157955 * y ^ 3 = b at hab
  have key : I ^ 2 * (a + I / 1000 * b) ≤ J ^ 2 * (a + J / 1000 * b) := by
    have e : J ^ 2 * (a + J / 1000 * b) - I ^ 2 * (a + I / 1000 * b) =
        (J - I) * (a * (I + J) + b / 1000 * (I ^ 2 + I * J + J ^ 2)) := by ring
    have : 0 ≤ a * (I + J) + b / 1000 * (I ^ 2 + I * J + J ^ 2) := by
      rcases le_or_gt 0 b with hb | hb
      · positivity
      · have h1 : I ^ 2 + I * J + J ^ 2 ≤ 1.5 * J * (I + J) := by norm_num; nlinarith
        have h2 : 0 ≤ a + b / 1000 * (1.5 * J) := by
          have : b * (1.755 - 1.5 * J / 1000) ≤ 0 := mul_nonpos_of_nonpos_of_nonneg hb.le (by norm_num; linarith)
          norm_num at *
          linarith
        have h3 : b / 1000 * (1.5 * J * (I + J)) ≤ b / 1000 * (I ^ 2 + I * J + J ^ 2) :=
          mul_le_mul_of_nonpos_left h1 (by linarith)
        have h4 : 0 ≤ (a + b / 1000 * (1.5 * J)) * (I + J) := mul_nonneg h2 (by linarith)
        linarith
    have := mul_nonneg (sub_nonneg.mpr h) this
    linarith
  have := mul_le_mul_of_nonneg_left key hk
  linarith

/-- The shell correction is positive. -/
theorem shellPoly_pos (t y : ℝ) (ht : 0 ≤ t) (ht' : t ≤ 1.17) (hy : 0 < y) (hy' : y ≤ 46.6) : 0 < shellPoly t y := by
  have hP : 0 < shellPoly 0 y := by
    unfold shellPoly
    have e : 0.422377 * y + 0.0304043 * y ^ 2 - 0.00038106 * y ^ 3 + 0 * (3.858019 * y - 0.1667989 * y ^ 2 + 0.00157955 * y ^ 3) =
        y * (0.422377 + y * (0.0304043 - 0.00038106 * y)) := by ring
    rw [e]
    have : 0 ≤ 0.0304043 - 0.00038106 * y := by norm_num at hy' ⊢; linarith
    positivity
  have hQ : 0 < shellPoly 1.17 y := by
    unfold shellPoly
    have e : 0.422377 * y + 0.0304043 * y ^ 2 - 0.00038106 * y ^ 3 + 1.17 * (3.858019 * y - 0.1667989 * y ^ 2 + 0.00157955 * y ^ 3) =
        y * (4.93625923 - 0.164750413 * y + 0.0014670135 * y ^ 2) := by norm_num; ring
    rw [e]
    refine mul_pos hy ?_
    norm_num
    nlinarith [sq_nonneg (y - 56)]
  have e : shellPoly t y = (1 - t / 1.17) * shellPoly 0 y + t / 1.17 * shellPoly 1.17 y := by
    unfold shellPoly; norm_num; ring
  have w1 : t / 1.17 ≤ 1 := by rw [div_le_one (by norm_num)]; exact ht'
  have w0 : 0 ≤ t / 1.17 := by positivity
  rw [e]
  generalize t / 1.17 = w at w0 w1
  rcases le_total w (1 / 2) with h | h
  · have := mul_pos (show 0 < 1 - w by linarith) hP
    have := mul_nonneg w0 hQ.le
    linarith
  · have := mul_nonneg (show 0 ≤ 1 - w by linarith) hP.le
    have := mul_pos (show 0 < w by linarith) hQ
    linarith

/-- The Barkas factor is above 1 unless the ion is slower than the electrons of the target. -/
theorem barkas_gt_one (z eta zt : ℝ) (hz : 0 < z) (hzt : 0 < zt) (hv : 1 ≤ eta / (fine_structure * √zt)) :
    1 < bethek_barkas z eta zt := by
  unfold bethek_barkas
  simp only [sqrt_real]
  generalize eta / (fine_structure * √zt) = v at hv
  have v0 : 0 < v := by linarith
  have hf : 0 < (if Scalar.le 4.0 v = true then 0.45 / √v
      else if (Scalar.le 1.0 v && Scalar.lt v 4.0) = true then barkasTable v else 0.0) := by
    split
    · positivity
    rename_i h4
    rw [le_real, not_le] at h4
    norm_num at h4
    rw [if_pos (by rw [Bool.and_eq_true, le_real, lt_real]; norm_num; exact ⟨hv, h4⟩)]
    unfold barkasTable
    split
    · rename_i h2
      rw [le_real] at h2
      norm_num at h2 ⊢
      linarith
    split
    · rename_i h2
      rw [le_real] at h2
      norm_num at h2 ⊢
      linarith
    · rw [if_pos (by rw [le_real]; norm_num; exact h4.le)]
      norm_num
      linarith
  generalize (if Scalar.le 4.0 v = true then 0.45 / √v
      else if (Scalar.le 1.0 v && Scalar.lt v 4.0) = true then barkasTable v else 0.0) = f at hf ⊢
  have : 0 < 2.0 * z * f / (v * v * √zt) := by positivity
  norm_num at this ⊢
  linarith

/-- Bremsstrahlung is positive. -/
theorem bremsstrahlung_pos (p : Projectile ℝ) (t : Target ℝ) (hT : 0 ≤ p.T) (hA : 0 < p.A) (hZ : 0 < p.Z)
    (tA : 0 < t.A) (tZ : 1 ≤ t.Z) : 0 < bremsstrahlung p t := by
  unfold bremsstrahlung power
  simp only [exp_real, log_real, log1p_real]
  have hu := amu_pos
  have hz : (0 : ℝ) < ofInt t.Z := by
    change (0 : ℝ) < (t.Z : ℝ)
    exact_mod_cast (by omega : 0 < t.Z)
  have hg : (0 : ℝ) < 1.0 + p.T / atomic_mass_unit := by positivity
  generalize (1.0 : ℝ) + p.T / atomic_mass_unit = g at hg ⊢
  have e1 := Real.exp_pos (Real.log p.A * (1.0 / 3.0))
  have e2 := Real.exp_pos (Real.log t.A * (1.0 / 3.0))
  have hh : (0 : ℝ) < hbar := by norm_num [hbar]
  have hc : (0 : ℝ) < c_light := by norm_num [c_light]
  have hd : (0 : ℝ) < dedx_constant := by norm_num [dedx_constant]
  have hf : (0 : ℝ) < fine_structure := by norm_num [fine_structure]
  have he : (0 : ℝ) < electron_mass := by norm_num [electron_mass]
  have hpi : (0 : ℝ) < PI := by norm_num [PI]
  have hl : 0 < Real.log (1 + 2.0 * g * 0.1 * hbar * c_light / atomic_mass_unit /
      (1.18 * (Real.exp (Real.log p.A * (1.0 / 3.0)) + Real.exp (Real.log t.A * (1.0 / 3.0)))) /
      p.A) := by
    apply Real.log_pos
    have : 0 < 2.0 * g * 0.1 * hbar * c_light / atomic_mass_unit /
      (1.18 * (Real.exp (Real.log p.A * (1.0 / 3.0)) + Real.exp (Real.log t.A * (1.0 / 3.0)))) /
      p.A := by positivity
    linarith
  generalize Real.log (1 + _) = L at hl ⊢
  positivity

/-- The logarithm of the Bethe formula with its shell correction is positive from 10 MeV/u on. -/
theorem betheLog_pos (c : Config ℝ) (J : ℝ) (z : Int) (hz : 1 ≤ z) (j0 : 0 < J) (j1 : J ≤ 1170) (j2 : J ^ 2 ≤ 11500 * (z : ℝ))
    (T : ℝ) (hT : 10 ≤ T) : 0 < betheLog (shellFactor c J z) J (etaSq T) := by
  obtain ⟨s0, -, -, -, -, -, -, k4, k5, k6⟩ := kinematics T 1.039 hT (by norm_num) (by norm_num)
  change 0 < etaSq T at s0
  change (etaSq T)⁻¹ ≤ 46.6 at k4
  have tz0 : (0 : ℝ) < z := by exact_mod_cast (by omega : 0 < z)
  have f0 : 0 ≤ shellFactor c J z ∧ shellFactor c J z ≤ 0.0115 := by
    unfold shellFactor
    split
    · norm_num
    · refine ⟨by positivity, ?_⟩
      rw [div_div, div_le_iff₀ (by positivity)]
      norm_num at j2 ⊢
      linarith
  rcases le_total 16 T with h | h
  · have := betheLog_low' _ J _ f0.1 f0.2 j0 j1 s0 (k5 h)
    norm_num at this
    linarith
  · have e : etaSq T ≤ 0.0365 := by
      have := k6 h
      have mono : etaSq T ≤ (1 + 1.039 * T / 931.4940954) ^ 2 - 1 := by
        unfold etaSq
        have : T / 931.4940954 ≤ 1.039 * T / 931.4940954 := by
          gcongr
          norm_num
          linarith
        have : 0 ≤ T / 931.4940954 := by positivity
        nlinarith
      linarith
    have := betheLog_low _ J _ f0.1 f0.2 j0 j1 s0 k4 e
    norm_num at this
    linarith

/-- One component: fewer subtracted and more added corrections, and a smaller mean excitation energy, give a larger value. -/
theorem bethe_target_order (env : Env ℝ) {p : Projectile ℝ} {n : Int} (hp : p.Ion n) (hn : n ≤ 108)
    (hA : p.A ≤ 5 * element_atomic_weight n) (t : Target ℝ) (tZ : 1 ≤ t.Z) (tA : 0 < t.A) (c c' : Config ℝ) (I I' : ℝ) (hT : 10 ≤ p.T)
    (hr : LindhardReadable p.T) (z : ℝ) (hz : z_effective env.debug p t c = .ok z) (hz' : z_effective env.debug p t c' = .ok z)
    (hz0 : 0 ≤ z) (hI : TypicalI I t.Z) (hI' : TypicalI I' t.Z) (hle : usedI I' t.Z ≤ usedI I t.Z)
    (b0 : c'.corrections.testBit 0 = true → c.corrections.testBit 0 = true)
    (b1 : c'.corrections.testBit 1 = c.corrections.testBit 1)
    (b2 : c.corrections.testBit 2 = true → c'.corrections.testBit 2 = true)
    (b3 : c'.corrections.testBit 3 = true → c.corrections.testBit 3 = true) :
    ∃ v v', bethek_dedx_e_target env p t c I = .ok v ∧ bethek_dedx_e_target env p t c' I' = .ok v' ∧ v ≤ v' ∧
      (0 < z → t.Z ≤ 120 → (usedI I' t.Z < usedI I t.Z ∨ c.corrections.testBit 2 ≠ c'.corrections.testBit 2 ∨
        c.corrections.testBit 0 ≠ c'.corrections.testBit 0 ∨ 50000 < p.T ∧ c.corrections.testBit 3 ≠ c'.corrections.testBit 3) → v < v') := by
  obtain ⟨f, hf⟩ := density_function t.Z tZ
  obtain ⟨l, hl⟩ : ∃ l, (if c.corrections.testBit 1 = true then .ok 0 else precalculated_lindhard env.calcIndex p) = .ok l := by
    split
    · exact ⟨0, rfl⟩
    · obtain ⟨l, hl, -⟩ := lindhard_ge env.calcIndex hp hn hA hT hr
      exact ⟨l, hl⟩
  refine ⟨_, _, bethe_value env hp t tZ tA c I hT z hz hz0 hI f hf l hl,
    bethe_value env hp t tZ tA c' I' hT z hz' hz0 hI' f hf l (by rw [b1]; exact hl), ?_⟩
  obtain ⟨i0, i1, i2⟩ := usedI_bounds I t.Z tZ hI
  obtain ⟨i0', i1', i2'⟩ := usedI_bounds I' t.Z tZ hI'
  obtain ⟨s0, -, -, -, -, -, -, k4, k5, k6⟩ := kinematics p.T 1.039 hT (by norm_num) (by norm_num)
  have hz1 : (1 : ℝ) ≤ t.Z := by exact_mod_cast tZ
  change 0 < etaSq p.T at s0
  change (etaSq p.T)⁻¹ ≤ 46.6 at k4
  have tz0 : (0 : ℝ) < t.Z := by linarith
  generalize usedI I t.Z = J at *
  generalize usedI I' t.Z = J' at *
  have sp : ∀ J, 0 < J → J ≤ 1170 → 0 < shellPoly (J / 1000) (etaSq p.T)⁻¹ := fun J h0 h1 =>
    shellPoly_pos _ _ (by positivity) (by norm_num; linarith) (by positivity) k4
  have hlog : betheLog (shellFactor c J t.Z) J (etaSq p.T) ≤ betheLog (shellFactor c' J' t.Z) J' (etaSq p.T) ∧
      (J' < J ∨ c.corrections.testBit 2 ≠ c'.corrections.testBit 2 →
        betheLog (shellFactor c J t.Z) J (etaSq p.T) < betheLog (shellFactor c' J' t.Z) J' (etaSq p.T)) := by
    have logs : Real.log (1021997.856 / J) ≤ Real.log (1021997.856 / J') ∧
        (J' < J → Real.log (1021997.856 / J) < Real.log (1021997.856 / J')) := by
      refine ⟨Real.log_le_log (by positivity) (by gcongr), fun hlt => Real.log_lt_log (by positivity) (by gcongr)⟩
    have step : betheLog (shellFactor c J t.Z) J (etaSq p.T) + (Real.log (1021997.856 / J') - Real.log (1021997.856 / J)) ≤
        betheLog (shellFactor c J' t.Z) J' (etaSq p.T) := by
      unfold shellFactor
      split
      · unfold betheLog
        linarith
      · rw [show J ^ 2 / (t.Z : ℝ) / 1000000 = J ^ 2 * (1 / (t.Z : ℝ) / 1000000) by ring,
          show J' ^ 2 / (t.Z : ℝ) / 1000000 = J' ^ 2 * (1 / (t.Z : ℝ) / 1000000) by ring]
        exact betheLog_antitone _ J' J _ (by positivity) i0' hle i1 s0 k4
    have fac : shellFactor c' J' t.Z ≤ shellFactor c J' t.Z ∧
        (c.corrections.testBit 2 ≠ c'.corrections.testBit 2 → shellFactor c' J' t.Z < shellFactor c J' t.Z) := by
      unfold shellFactor
      by_cases h : c.corrections.testBit 2 = true
      · rw [if_pos h, if_pos (b2 h)]
        exact ⟨le_rfl, fun hn => absurd (h.trans (b2 h).symm) hn⟩
      · rw [if_neg h]
        split
        · have : 0 < J' ^ 2 / (t.Z : ℝ) / 1000000 := by positivity
          exact ⟨this.le, fun _ => this⟩
        · rename_i h'
          rw [Bool.not_eq_true] at h h'
          exact ⟨le_rfl, fun hn => absurd (h.trans h'.symm) hn⟩
    have p0 := sp J' i0' i1'
    have e : betheLog (shellFactor c' J' t.Z) J' (etaSq p.T) = betheLog (shellFactor c J' t.Z) J' (etaSq p.T) +
        (shellFactor c J' t.Z - shellFactor c' J' t.Z) * shellPoly (J' / 1000) (etaSq p.T)⁻¹ := by
      unfold betheLog
      ring
    rw [e]
    have q := mul_nonneg (sub_nonneg.mpr fac.1) p0.le
    refine ⟨by linarith [logs.1], fun hs => ?_⟩
    rcases hs with hs | hs
    · linarith [logs.2 hs]
    · have := mul_pos (sub_pos.mpr (fac.2 hs)) p0
      linarith [logs.1]
  have hpos : 0 < betheLog (shellFactor c' J' t.Z) J' (etaSq p.T) := betheLog_pos c' J' t.Z tZ i0' i1' i2' p.T hT
  have hb : 0 ≤ barkasTerm c z (etaSq p.T) t.Z ∧ barkasTerm c z (etaSq p.T) t.Z ≤ barkasTerm c' z (etaSq p.T) t.Z ∧
      (0 < z → t.Z ≤ 120 → c.corrections.testBit 0 ≠ c'.corrections.testBit 0 →
        barkasTerm c z (etaSq p.T) t.Z < barkasTerm c' z (etaSq p.T) t.Z) := by
    have := barkas_ge_one z (√(etaSq p.T)) t.Z hz0
    unfold barkasTerm
    by_cases h : c'.corrections.testBit 0 = true
    · rw [if_pos h, if_pos (b0 h)]
      exact ⟨le_rfl, le_rfl, fun _ _ hn => absurd ((b0 h).trans h.symm) hn⟩
    · rw [if_neg h]
      split
      · refine ⟨le_rfl, by linarith, fun z0 h120 _ => ?_⟩
        have := barkas_gt_one z (√(etaSq p.T)) t.Z z0 tz0 (by
          rw [one_le_div (mul_pos (by norm_num [fine_structure]) (Real.sqrt_pos.mpr tz0))]
          refine Real.le_sqrt_of_sq_le ?_
          rw [mul_pow, Real.sq_sqrt tz0.le]
          have z120 : (t.Z : ℝ) ≤ 120 := by exact_mod_cast h120
          have : 1 / 46.6 ≤ etaSq p.T := by
            rw [one_div, inv_le_comm₀ (by norm_num) s0]
            exact k4
          have f2 : (fine_structure : ℝ) ^ 2 ≤ 0.0001 := by norm_num [fine_structure]
          have := mul_le_mul f2 z120 tz0.le (by norm_num)
          norm_num at *
          linarith)
        linarith
      · rename_i h'
        rw [Bool.not_eq_true] at h h'
        exact ⟨by linarith, le_rfl, fun _ _ hn => absurd (h'.trans h.symm) hn⟩
  have hrad : radiative p t c ≤ radiative p t c' ∧ (50000 < p.T → c.corrections.testBit 3 ≠ c'.corrections.testBit 3 →
      radiative p t c < radiative p t c') := by
    obtain ⟨r1, r2⟩ := radiative_nonneg p t (by linarith) hp.A tA
    have r3 := bremsstrahlung_pos p t (by linarith) hp.A
      (by rw [hp.Z]; exact_mod_cast (by linarith [hp.pos] : 0 < n)) tA tZ
    unfold radiative
    cases h3 : c.corrections.testBit 3 <;> cases h3' : c'.corrections.testBit 3
    · simp
    · rw [b3 h3'] at h3
      cases h3
    · by_cases h5 : 50000 < p.T
      · simp only [h5, true_and, if_true]
        norm_num
        exact ⟨by linarith, by linarith⟩
      · simp [h5]
    · simp
  have hc0 : (0 : ℝ) < dedx_constant := by norm_num [dedx_constant]
  have hf1 : 0 ≤ dedx_constant * z ^ 2 * (t.Z : ℝ) / (etaSq p.T / (1 + etaSq p.T) * t.A) := by positivity
  have hf2 : 0 < z → 0 < dedx_constant * z ^ 2 * (t.Z : ℝ) / (etaSq p.T / (1 + etaSq p.T) * t.A) := fun h => by positivity
  obtain ⟨hl1, hl2⟩ := hlog
  obtain ⟨hb0, hb1, hb2⟩ := hb
  obtain ⟨hr1, hr2⟩ := hrad
  generalize betheLog (shellFactor c J t.Z) J (etaSq p.T) = L at *
  generalize betheLog (shellFactor c' J' t.Z) J' (etaSq p.T) = L' at *
  generalize barkasTerm c z (etaSq p.T) t.Z = b at *
  generalize barkasTerm c' z (etaSq p.T) t.Z = b' at *
  generalize radiative p t c = r at *
  generalize radiative p t c' = r' at *
  generalize dedx_constant * z ^ 2 * (t.Z : ℝ) / (etaSq p.T / (1 + etaSq p.T) * t.A) = K at *
  generalize f (Real.log (√(etaSq p.T)) / 2.3025851) = d
  have m1 : L * (1 + b) ≤ L' * (1 + b') :=
    (mul_le_mul_of_nonneg_right hl1 (by linarith)).trans (mul_le_mul_of_nonneg_left (by linarith) hpos.le)
  have m2 := mul_le_mul_of_nonneg_left (show L * (1 + b) + l - d / 2 ≤ L' * (1 + b') + l - d / 2 by linarith) hf1
  refine ⟨by linarith, fun z0 h120 hs => ?_⟩
  have strict : L * (1 + b) < L' * (1 + b') → K * (L * (1 + b) + l - d / 2) + r < K * (L' * (1 + b') + l - d / 2) + r' := fun h => by
    have := mul_lt_mul_of_pos_left (show L * (1 + b) + l - d / 2 < L' * (1 + b') + l - d / 2 by linarith) (hf2 z0)
    linarith
  rcases hs with hs | hs | hs | hs
  · exact strict ((mul_lt_mul_of_pos_right (hl2 (.inl hs)) (by linarith)).trans_le (mul_le_mul_of_nonneg_left (by linarith) hpos.le))
  · exact strict ((mul_lt_mul_of_pos_right (hl2 (.inr hs)) (by linarith)).trans_le (mul_le_mul_of_nonneg_left (by linarith) hpos.le))
  · exact strict ((mul_le_mul_of_nonneg_right hl1 (by linarith)).trans_lt
      (mul_lt_mul_of_pos_left (by linarith [hb2 z0 h120 hs]) hpos))
  · linarith [hr2 hs.1 hs.2]

end Catima
