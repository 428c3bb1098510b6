import Verif.Lemmas.Bethe
import Verif.Lemmas.LogTen

/-!
# Bounds for the terms of the Bethe formula
-/

namespace Catima

/-! ## Density effect -/

/-- A decimal literal as a rational number. -/
def Dec.rat (d : Dec) : ℚ := d.m / 10 ^ d.e

theorem Dec.rat_cast (d : Dec) : ((d.rat : ℚ) : ℝ) = d.toScalar := by
  rw [Dec.toScalar_real, Dec.rat]; push_cast; rfl

/-- What is needed of one column of the density effect parameters. -/
def densityGood (x0 x1 c a m d : ℚ) : Prop :=
  -0.06 ≤ x0 ∧ x0 ≤ 2.2017 ∧ 1 ≤ x1 - x0 ∧ 0 ≤ c ∧ 0 ≤ a ∧ 0 < m ∧ 0 ≤ d ∧ d ≤ 0.14 ∧
    a ^ 10 * (x1 - x0) ^ (⌈10 * m⌉.toNat) ≤ (c + 0.8) ^ 10

instance (x0 x1 c a m d : ℚ) : Decidable (densityGood x0 x1 c a m d) := by
  unfold densityGood; infer_instance

theorem density_rows : ∀ i < 97, ∀ x0 x1 c a m d : Dec, density_effect_x0[i]? = some x0 →
    density_effect_x1[i]? = some x1 → density_effect_c[i]? = some c →
    density_effect_a[i]? = some a → density_effect_m[i]? = some m →
    density_effect_del_0[i]? = some d →
    densityGood x0.rat x1.rat c.rat a.rat m.rat d.rat := by
  have h : (List.range 97).all (fun i =>
      match density_effect_x0[i]?, density_effect_x1[i]?, density_effect_c[i]?,
        density_effect_a[i]?, density_effect_m[i]?, density_effect_del_0[i]? with
      | some x0, some x1, some c, some a, some m, some d =>
        decide (densityGood x0.rat x1.rat c.rat a.rat m.rat d.rat)
      | _, _, _, _, _, _ => false) = true := by decide +kernel
  intro i hi x0 x1 c a m d h0 h1 h2 h3 h4 h5
  rw [List.all_eq_true] at h
  have := h i (List.mem_range.mpr hi)
  rw [h0, h1, h2, h3, h4, h5] at this
  exact of_decide_eq_true this

theorem rdDec_at (xs : List Dec) (k : Nat) (h : k < xs.length) :
    ∃ d, xs[k]? = some d ∧ rdDec (α := ℝ) xs (k : Int) = .ok ((d.rat : ℚ) : ℝ) := by
  refine ⟨xs[k], List.getElem?_eq_getElem h, ?_⟩
  unfold rdDec
  rw [rd_nat xs k h, Dec.rat_cast]
  rfl

/-- Bound of the polynomial part of the density effect. -/
theorem density_power (x0 x1 c a m d : ℚ) (hg : densityGood x0 x1 c a m d) (x : ℝ)
    (h0 : (x0 : ℝ) ≤ x) (h1 : x ≤ x1) :
    (a : ℝ) * ((x1 : ℝ) - x) ^ (m : ℝ) ≤ c + 0.8 := by
  obtain ⟨-, -, g1, gc, ga, gm, -, -, gp⟩ := hg
  have g1' : (1 : ℝ) ≤ (x1 : ℝ) - x0 := by exact_mod_cast g1
  have gc' : (0 : ℝ) ≤ c := by exact_mod_cast gc
  have ga' : (0 : ℝ) ≤ a := by exact_mod_cast ga
  have gm' : (0 : ℝ) < m := by exact_mod_cast gm
  have hceil : (10 * m : ℚ) ≤ (⌈10 * m⌉.toNat : ℚ) := by
    have h := Int.le_ceil (10 * m)
    have h2 : (0 : Int) ≤ ⌈10 * m⌉ := Int.ceil_nonneg (by positivity)
    have h3 : ((⌈10 * m⌉.toNat : Int) : ℚ) = (⌈10 * m⌉ : ℚ) := by rw [Int.toNat_of_nonneg h2]
    rw [← Int.cast_natCast, h3]
    exact h
  generalize ⌈10 * m⌉.toNat = p at gp hceil
  have hp : (m : ℝ) ≤ (p : ℝ) / 10 := by
    have : (10 * (m : ℝ)) ≤ p := by exact_mod_cast hceil
    linarith
  have gp' : (a : ℝ) ^ 10 * ((x1 : ℝ) - x0) ^ p ≤ (c + 0.8) ^ 10 := by
    have : ((a ^ 10 * (x1 - x0) ^ p : ℚ) : ℝ) ≤ (((c + 0.8) ^ 10 : ℚ) : ℝ) := by exact_mod_cast gp
    push_cast at this
    norm_num at this ⊢
    exact this
  have s1 : ((x1 : ℝ) - x) ^ (m : ℝ) ≤ ((x1 : ℝ) - x0) ^ ((p : ℝ) / 10) := by
    calc ((x1 : ℝ) - x) ^ (m : ℝ) ≤ ((x1 : ℝ) - x0) ^ (m : ℝ) :=
          Real.rpow_le_rpow (by linarith) (by linarith) gm'.le
      _ ≤ _ := Real.rpow_le_rpow_of_exponent_le g1' hp
  have s2 : (a : ℝ) * ((x1 : ℝ) - x0) ^ ((p : ℝ) / 10) ≤ c + 0.8 := by
    apply le_of_pow_le_pow_left₀ (n := 10) (by norm_num) (by positivity)
    rw [mul_pow, ← Real.rpow_natCast (((x1 : ℝ) - x0) ^ ((p : ℝ) / 10)) 10, ← Real.rpow_mul (by linarith)]
    rw [show (p : ℝ) / 10 * ((10 : Nat) : ℝ) = (p : ℝ) by push_cast; ring, Real.rpow_natCast]
    exact gp'
  exact le_trans (mul_le_mul_of_nonneg_left s1 ga') s2

/-- The density effect with `x = log(beta gamma) / 2.3025851`: at most 0.14 below the first knee,
which is below x = 2.2017, at most linear from there on. -/
theorem density_le (beta : ℝ) (zt : Int) (h : 1 ≤ zt) :
    ∃ v, bethek_density_effect beta zt = .ok v ∧
      ((Real.log (beta * (1 / √(1 - beta * beta))) / 2.3025851 < 2.2017 ∧ v ≤ 0.14) ∨
       (-0.06 ≤ Real.log (beta * (1 / √(1 - beta * beta))) / 2.3025851 ∧
        v ≤ 4.6052 * (Real.log (beta * (1 / √(1 - beta * beta))) / 2.3025851) + 0.8)) := by
  obtain ⟨l0, l1, l2, l3, l4, l5⟩ := density_lengths
  have hi : 0 ≤ (if zt > 97 then (97 : Int) else zt) - 1 ∧
      (if zt > 97 then (97 : Int) else zt) - 1 < 97 := by split <;> omega
  unfold bethek_density_effect
  dsimp only
  generalize (if zt > 97 then (97 : Int) else zt) - 1 = i at hi
  obtain ⟨k, rfl⟩ := Int.eq_ofNat_of_zero_le hi.1
  have hk : k < 97 := by omega
  obtain ⟨x0, g0, e0⟩ := rdDec_at density_effect_x0 k (by omega)
  obtain ⟨x1, g1, e1⟩ := rdDec_at density_effect_x1 k (by omega)
  obtain ⟨c, g2, e2⟩ := rdDec_at density_effect_c k (by omega)
  obtain ⟨a, g3, e3⟩ := rdDec_at density_effect_a k (by omega)
  obtain ⟨m, g4, e4⟩ := rdDec_at density_effect_m k (by omega)
  obtain ⟨d, g5, e5⟩ := rdDec_at density_effect_del_0 k (by omega)
  have hg := density_rows k hk _ _ _ _ _ _ g0 g1 g2 g3 g4 g5
  simp only [log_real, sqrt_real, pow_real]
  rw [show (1.0 : ℝ) = 1 by norm_num]
  generalize Real.log (beta * (1 / √(1 - beta * beta))) / 2.3025851 = x
  have hpow := density_power _ _ _ _ _ _ hg x
  obtain ⟨q0, q1, q2, q3, -, -, q6, q7, -⟩ := hg
  norm_num at q0 q1 q7
  have q0' : (-0.06 : ℝ) ≤ (x0.rat : ℝ) := by
    have : ((-(3 / 50) : ℚ) : ℝ) ≤ (x0.rat : ℝ) := by exact_mod_cast q0
    push_cast at this; norm_num at this ⊢; exact this
  have q1' : (x0.rat : ℝ) ≤ 2.2017 := by
    have : (x0.rat : ℝ) ≤ ((22017 / 10000 : ℚ) : ℝ) := by exact_mod_cast q1
    push_cast at this; norm_num at this ⊢; exact this
  have q3' : (0 : ℝ) ≤ (c.rat : ℝ) := by exact_mod_cast q3
  have q6' : (0 : ℝ) ≤ (d.rat : ℝ) := by exact_mod_cast q6
  have q7' : (d.rat : ℝ) ≤ 0.14 := by
    have : (d.rat : ℝ) ≤ ((7 / 50 : ℚ) : ℝ) := by exact_mod_cast q7
    push_cast at this; norm_num at this ⊢; exact this
  rw [e0, bind_ok]
  split
  · rename_i hx
    rw [lt_real] at hx
    rw [e5, bind_ok]
    refine ⟨_, rfl, Or.inl ⟨by linarith, ?_⟩⟩
    split
    · have : (10.0 : ℝ) ^ (2.0 * (x - (x0.rat : ℝ))) ≤ 1 :=
        Real.rpow_le_one_of_one_le_of_nonpos (by norm_num) (by norm_num; linarith)
      nlinarith
    · norm_num
  · rename_i hx
    rw [lt_real, not_lt] at hx
    rw [e2, bind_ok, e1, bind_ok]
    split
    · rename_i hx1
      rw [Bool.and_eq_true, le_real, le_real] at hx1
      rw [e3, bind_ok, e4, bind_ok]
      refine ⟨_, rfl, Or.inr ⟨by linarith, ?_⟩⟩
      have := hpow hx1.1 hx1.2
      linarith
    · refine ⟨_, rfl, Or.inr ⟨by linarith, ?_⟩⟩
      have : (0 : ℝ) ≤ 0.8 := by norm_num
      linarith

/-! ## Mean excitation energies and shell correction -/

/-- Mean excitation energies for which the shell correction is moderate: at most 1170 eV and
`I² ≤ 11500 Z`. -/
theorem ipot_typical (z : Int) (h1 : 1 ≤ z) (h2 : z ≤ 120) :
    (ipot z : ℝ) ≤ 1170 ∧ (ipot z : ℝ) ^ 2 ≤ 11500 * z := by
  have h : (List.range 120).all (fun k => match ionisation_potentials_z[k + 1]? with
      | some d => decide (d.rat ≤ 1170 ∧ d.rat ^ 2 ≤ 11500 * ((k : ℚ) + 1))
      | none => false) = true := by decide +kernel
  obtain ⟨k, hk⟩ := Int.eq_ofNat_of_zero_le (show 0 ≤ z - 1 by omega)
  have hz : z.toNat = k + 1 := by omega
  rw [List.all_eq_true] at h
  have hh := h k (List.mem_range.mpr (by omega))
  unfold ipot
  rw [if_neg (by omega), hz]
  have hl : k + 1 < ionisation_potentials_z.length := by rw [ipot_len.1]; omega
  rw [List.getElem?_eq_getElem hl] at hh ⊢
  obtain ⟨a, b⟩ := of_decide_eq_true hh
  dsimp only
  rw [← Dec.rat_cast]
  have hzr : (z : ℝ) = (k : ℝ) + 1 := by
    have : z = (k : Int) + 1 := by omega
    rw [this]; push_cast; rfl
  rw [hzr]
  constructor
  · exact_mod_cast a
  · exact_mod_cast b

/-- The shell correction is at most 0.545 for `eta⁻² ≤ 46.6`. -/
theorem shell_le (eta I z : ℝ) (he : 0 < eta) (hy : 1 ≤ 46.6 * eta ^ 2) (hI : 0 < I) (hI1 : I ≤ 1170)
    (hz : 0 < z) (hI2 : I ^ 2 ≤ 11500 * z) : shellCor eta I / z ≤ 0.545 := by
  have hp2 : eta ^ (-2.0 : ℝ) = (eta ^ 2)⁻¹ := by
    rw [show (-2.0 : ℝ) = -((2 : Nat) : ℝ) by norm_num, Real.rpow_neg he.le, Real.rpow_natCast]
  have hp4 : eta ^ (-4.0 : ℝ) = (eta ^ 2)⁻¹ ^ 2 := by
    rw [show (-4.0 : ℝ) = -((4 : Nat) : ℝ) by norm_num, Real.rpow_neg he.le, Real.rpow_natCast]
    rw [inv_pow, ← pow_mul]
  have hp6 : eta ^ (-6.0 : ℝ) = (eta ^ 2)⁻¹ ^ 3 := by
    rw [show (-6.0 : ℝ) = -((6 : Nat) : ℝ) by norm_num, Real.rpow_neg he.le, Real.rpow_natCast]
    rw [inv_pow, ← pow_mul]
  have hi2 : I ^ (2.0 : ℝ) = I ^ 2 := by
    rw [show (2.0 : ℝ) = ((2 : Nat) : ℝ) by norm_num, Real.rpow_natCast]
  have hi3 : I ^ (3.0 : ℝ) = I ^ 2 * I := by
    rw [show (3.0 : ℝ) = ((3 : Nat) : ℝ) by norm_num, Real.rpow_natCast]; ring
  unfold shellCor
  simp only [pow_real]
  rw [hp2, hp4, hp6, hi2, hi3]
  have y0 : 0 < (eta ^ 2)⁻¹ := by positivity
  have y1 : (eta ^ 2)⁻¹ ≤ 46.6 := by
    rw [inv_le_iff_one_le_mul₀ (by positivity)]; linarith
  generalize (eta ^ 2)⁻¹ = y at y0 y1
  norm_num at y1 ⊢
  have hP : 422377 / 1000000 * y + 304043 / 10000000 * y ^ 2 - 19053 / 50000000 * y ^ 3 ≤ 47.3 := by
    nlinarith [mul_nonneg y0.le (sub_nonneg.mpr y1), mul_nonneg (mul_nonneg y0.le y0.le) (sub_nonneg.mpr y1)]
  have hQ : 422377 / 1000000 * y + 304043 / 10000000 * y ^ 2 - 19053 / 50000000 * y ^ 3
      + 1.17 * (3858019 / 1000000 * y - 1667989 / 10000000 * y ^ 2 + 31591 / 20000000 * y ^ 3) ≤ 47.3 := by
    nlinarith [sq_nonneg (y - 20.7), mul_nonneg y0.le (sq_nonneg (y - 20.7)), mul_nonneg (sub_nonneg.mpr y1) (sq_nonneg (y - 20.7))]
  rw [div_le_iff₀ hz]
  generalize 422377 / 1000000 * y + 304043 / 10000000 * y ^ 2 - 19053 / 50000000 * y ^ 3 = P at *
  generalize 3858019 / 1000000 * y - 1667989 / 10000000 * y ^ 2 + 31591 / 20000000 * y ^ 3 = Q at *
  -- P + Q I / 1000 is between its values at I = 0 and I = 1170
  have hPQ : P + Q * I / 1000 ≤ 47.3 := by
    norm_num at hP hQ ⊢
    rcases le_total 0 Q with h | h <;> nlinarith
  have e : ∀ u : ℝ, P * (1 / 1000000) * u + Q * (1 / 1000000000) * (u * I) =
      u * (P + Q * I / 1000) / 1000000 := fun u => by ring
  rw [e]
  have hu : 0 ≤ I ^ 2 := by positivity
  norm_num at hPQ
  nlinarith

/-! ## The stopping number -/

theorem exp_2_9 : Real.exp 2.9 ≤ 18.2 := by
  have e : Real.exp (2.9 : ℝ) * Real.exp 0.1 = Real.exp 1 ^ 3 := by
    rw [← Real.exp_nat_mul, ← Real.exp_add]; norm_num
  have h1 := Real.exp_one_lt_d9
  have h2 : (1.105 : ℝ) ≤ Real.exp 0.1 := by
    have := Real.quadratic_le_exp_of_nonneg (show (0 : ℝ) ≤ 0.1 by norm_num)
    norm_num at this ⊢; exact this
  have h3 : Real.exp 1 ^ 3 ≤ 2.7183 ^ 3 := by
    have := Real.exp_pos 1
    gcongr
    norm_num at h1 ⊢; linarith
  have h4 := Real.exp_pos (2.9 : ℝ)
  norm_num at h2 h3 e ⊢
  nlinarith

theorem exp_6_7 : Real.exp 6.7 ≤ 873 := by
  have e : Real.exp (6.7 : ℝ) * Real.exp 0.3 = Real.exp 1 ^ 7 := by
    rw [← Real.exp_nat_mul, ← Real.exp_add]; norm_num
  have h1 := Real.exp_one_lt_d9
  have h2 : (1.345 : ℝ) ≤ Real.exp 0.3 := by
    have := Real.quadratic_le_exp_of_nonneg (show (0 : ℝ) ≤ 0.3 by norm_num)
    norm_num at this ⊢; exact this
  have h3 : Real.exp 1 ^ 7 ≤ 2.7183 ^ 7 := by
    have := Real.exp_pos 1
    gcongr
    norm_num at h1 ⊢; linarith
  have h4 := Real.exp_pos (6.7 : ℝ)
  norm_num at h2 h3 e ⊢
  nlinarith

theorem exp_10_14 : Real.exp 10.14 ≤ 26000 := by
  have e : Real.exp (10.14 : ℝ) * Real.exp 0.86 = Real.exp 1 ^ 11 := by
    rw [← Real.exp_nat_mul, ← Real.exp_add]; norm_num
  have h1 := Real.exp_one_lt_d9
  have h2 : (2.3105 : ℝ) ≤ Real.exp 0.86 := by
    have e2 : Real.exp (0.86 : ℝ) = Real.exp 0.215 ^ 4 := by
      rw [← Real.exp_nat_mul]; norm_num
    have := Real.quadratic_le_exp_of_nonneg (show (0 : ℝ) ≤ 0.215 by norm_num)
    rw [e2]
    calc (2.3105 : ℝ) ≤ (1 + 0.215 + 0.215 ^ 2 / 2) ^ 4 := by norm_num
      _ ≤ _ := by gcongr
  have h3 : Real.exp 1 ^ 11 ≤ 2.7183 ^ 11 := by
    have := Real.exp_pos 1
    gcongr
    norm_num at h1 ⊢; linarith
  have h4 := Real.exp_pos (10.14 : ℝ)
  norm_num at h2 h3 e ⊢
  nlinarith

/-- The bracket of the Bethe formula is positive: `f` the logarithm with shell and relativistic
terms, `d` the density effect, `l` the Lindhard-Sørensen correction. -/
theorem bracket_pos (T I sh d l : ℝ) (hT : 10 ≤ T) (hI0 : 0 < I) (hI1 : I ≤ 1170) (hsh : sh ≤ 0.545)
    (g b2 x : ℝ) (hg : g = 1 + T / 931.4940954) (hb : b2 = 1 - 1 / (g * g))
    (hx : x = Real.log (√b2 * g) / 2.3025851)
    (hd : (x < 2.2017 ∧ d ≤ 0.14) ∨ (-0.06 ≤ x ∧ d ≤ 4.6052 * x + 0.8))
    (hl : -6.51 ≤ l) (hl' : T ≤ 150000 → -2.23 ≤ l) :
    0 < Real.log (2.0 * 0.510998928 * 1000000.0 * b2 / I) - sh + (2.0 * Real.log g - b2) ∧
    0 < Real.log (2.0 * 0.510998928 * 1000000.0 * b2 / I) - sh + (2.0 * Real.log g - b2) + l - d / 2.0 := by
  have g1 : 1.0107 ≤ g := by
    rw [hg]
    have : (10 : ℝ) / 931.4940954 ≤ T / 931.4940954 := by gcongr
    norm_num at this ⊢
    linarith
  norm_num at g1
  have g0 : 0 < g := by linarith
  have ig : 0 < 1 / g ∧ 1 / g ≤ 10000 / 10107 := by
    refine ⟨by positivity, ?_⟩
    rw [div_le_div_iff₀ g0 (by norm_num)]
    linarith
  have hb' : b2 = 1 - (1 / g) ^ 2 := by rw [hb]; field_simp
  have b0 : 0.021 ≤ b2 := by
    have h1 := pow_le_pow_left₀ ig.1.le ig.2 2
    have h2 : (10000 / 10107 : ℝ) ^ 2 ≤ 1 - 0.021 := by norm_num
    rw [hb']
    linarith
  have b1 : b2 ≤ 1 := by rw [hb']; nlinarith [sq_nonneg (1 / g)]
  norm_num at b0
  have bp : 0 < b2 := by linarith
  have hrel : 0 ≤ 2 * Real.log g - b2 := by
    have := Real.one_sub_inv_le_log_of_pos g0
    rw [← one_div] at this
    rw [hb']
    nlinarith [sq_nonneg (1 - 1 / g)]
  have hlog : 2.9 ≤ Real.log (2.0 * 0.510998928 * 1000000.0 * b2 / I) := by
    rw [Real.le_log_iff_exp_le (by positivity), le_div_iff₀ hI0]
    have h := exp_2_9
    have hp := Real.exp_pos (2.9 : ℝ)
    norm_num at h ⊢
    calc Real.exp (29 / 10) * I ≤ 91 / 5 * 1170 := by gcongr
      _ ≤ _ := by linarith
  norm_num at hlog hsh hl hl' ⊢
  refine ⟨by linarith, ?_⟩
  -- the logarithm in terms of `x`
  have hlx : Real.log (√b2 * g) = 2.3025851 * x := by rw [hx]; field_simp
  have hlx2 : 2 * Real.log (√b2 * g) = Real.log b2 + 2 * Real.log g := by
    rw [Real.log_mul (Real.sqrt_pos.mpr bp).ne' g0.ne', Real.log_sqrt bp.le]
    ring
  have hbig : 150000 ≤ T → 2.2017 ≤ x := by
    intro h
    have g2 : 162 ≤ g := by
      rw [hg]
      have : (150000 : ℝ) / 931.4940954 ≤ T / 931.4940954 := by gcongr
      norm_num at this ⊢
      linarith
    have hgg : b2 * g ^ 2 = g ^ 2 - 1 := by rw [hb]; field_simp
    have : 10.14 ≤ Real.log b2 + 2 * Real.log g := by
      rw [show Real.log b2 + 2 * Real.log g = Real.log (b2 * g ^ 2) by
        rw [Real.log_mul bp.ne' (by positivity), Real.log_pow]; norm_num]
      rw [hgg, Real.le_log_iff_exp_le (by nlinarith)]
      have := exp_10_14
      norm_num at this ⊢
      nlinarith
    rw [← hlx2, hlx] at this
    norm_num at this ⊢
    linarith
  rcases hd with ⟨hx1, hd⟩ | ⟨hx1, hd⟩
  · have hT2 : T ≤ 150000 := by
      by_contra hlt
      linarith [hbig (by linarith)]
    have := hl' hT2
    norm_num at hd
    linarith
  · have hK : 6.7 ≤ Real.log (127749732 / 125 / I) := by
      rw [Real.le_log_iff_exp_le (by positivity), le_div_iff₀ hI0]
      have h := exp_6_7
      calc Real.exp 6.7 * I ≤ 873 * 1170 := by gcongr
        _ ≤ _ := by norm_num
    have hsplit : Real.log (127749732 / 125 * b2 / I) = Real.log (127749732 / 125 / I) + Real.log b2 := by
      rw [show (127749732 / 125 * b2 / I : ℝ) = 127749732 / 125 / I * b2 by ring,
        Real.log_mul (by positivity) bp.ne']
    rw [hsplit]
    have e : Real.log b2 + 2 * Real.log g = 2 * (2.3025851 * x) := by rw [← hlx2, hlx]
    norm_num at hK e hd hx1 hbig
    rcases le_total T 150000 with h | h
    · have := hl' h
      linarith
    · have := hbig h
      linarith

end Catima
