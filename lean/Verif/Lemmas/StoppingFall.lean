import Verif.Lemmas.LindhardSlope
import Verif.Lemmas.RadiativeStep
import Verif.Lemmas.BetheValue
import Verif.Lemmas.BarkasStep
import Verif.Lemmas.ProtonSteady
import Verif.Props.DensityEffect

/-!
# Helper lemmas: the stopping power between 30 and 300 MeV/u falls with the energy
-/

namespace Catima

/-- The logarithm of the Bethe formula rises at most 1.44 times as fast as the logarithm of `eta²`. -/
theorem betheLog_rise (c I s s' : ℝ) (hc : 0 ≤ c) (hc' : c ≤ 0.0115) (hI : 0 < I) (hI' : I ≤ 1170) (h0 : 0 < s)
    (h : s ≤ s') (hy : s⁻¹ ≤ 15.4) : betheLog c I s' - betheLog c I s ≤ 1.44 * (s' / s - 1) := by
  have hs' : 0 < s' := by linarith
  have hlog : Real.log s' - Real.log s ≤ s' / s - 1 := by
    rw [← Real.log_div hs'.ne' h0.ne']
    exact Real.log_le_sub_one_of_pos (by positivity)
  have hb : s / (1 + s) ≤ s' / (1 + s') := by
    rw [div_le_div_iff₀ (by positivity) (by positivity)]; linarith
  have r1 : 0 ≤ s' / s - 1 := by rw [sub_nonneg, one_le_div h0]; exact h
  have hyy : s⁻¹ = s' / s * s'⁻¹ := by field_simp
  have key : c * (shellPoly (I / 1000) s⁻¹ - shellPoly (I / 1000) s'⁻¹) ≤ 0.44 * (s' / s - 1) := by
    have ha : 0 < s'⁻¹ := by positivity
    have hab : s'⁻¹ ≤ s⁻¹ := by gcongr
    have hu : 0 < I / 1000 := by positivity
    have hu' : I / 1000 ≤ 1.17 := by norm_num; linarith
    have hba : s⁻¹ - s'⁻¹ = s'⁻¹ * (s' / s - 1) := by rw [hyy]; ring
    generalize s' / s - 1 = q at *
    generalize I / 1000 = u at *
    generalize s'⁻¹ = a at *
    generalize s⁻¹ = b at *
    have e : shellPoly u b - shellPoly u a = q * (a * (0.422377 + 0.0304043 * (a + b) - 0.00038106 * (a ^ 2 + a * b + b ^ 2)) +
        u * (a * (3.858019 - 0.1667989 * (a + b) + 0.00157955 * (a ^ 2 + a * b + b ^ 2)))) := by
      have : shellPoly u b - shellPoly u a = (b - a) * ((0.422377 + 0.0304043 * (a + b) - 0.00038106 * (a ^ 2 + a * b + b ^ 2)) +
        u * (3.858019 - 0.1667989 * (a + b) + 0.00157955 * (a ^ 2 + a * b + b ^ 2))) := by unfold shellPoly; ring
      rw [this, hba]; ring
    have t1 : a * (0.422377 + 0.0304043 * (a + b) - 0.00038106 * (a ^ 2 + a * b + b ^ 2)) ≤ 21 := by
      have b0 : 0 < b := by linarith
      have : 0 ≤ a ^ 2 + a * b + b ^ 2 := by positivity
      norm_num at hy ⊢
      have h1 : 422377 / 1000000 + 304043 / 10000000 * (a + b) - 19053 / 50000000 * (a ^ 2 + a * b + b ^ 2) ≤ 1.359 := by
        norm_num; linarith
      norm_num at h1
      nlinarith
    have t2 : a * (3.858019 - 0.1667989 * (a + b) + 0.00157955 * (a ^ 2 + a * b + b ^ 2)) ≤ 14.3 := by
      norm_num at hy ⊢
      have h2 : 3858019 / 1000000 - 1667989 / 10000000 * (a + b) + 31591 / 20000000 * (a ^ 2 + a * b + b ^ 2) ≤
          3.858019 - 0.2606 * a := by
        norm_num
        nlinarith [mul_nonneg (sub_nonneg.mpr hab) (sub_nonneg.mpr hy), mul_nonneg ha.le (sub_nonneg.mpr hy),
          mul_nonneg ha.le (sub_nonneg.mpr hab)]
      norm_num at h2
      nlinarith [sq_nonneg (a - 7.4)]
    have t3 : a * (0.422377 + 0.0304043 * (a + b) - 0.00038106 * (a ^ 2 + a * b + b ^ 2)) +
        u * (a * (3.858019 - 0.1667989 * (a + b) + 0.00157955 * (a ^ 2 + a * b + b ^ 2))) ≤ 38 := by
      generalize a * (0.422377 + 0.0304043 * (a + b) - 0.00038106 * (a ^ 2 + a * b + b ^ 2)) = v1 at *
      generalize a * (3.858019 - 0.1667989 * (a + b) + 0.00157955 * (a ^ 2 + a * b + b ^ 2)) = v2 at *
      norm_num at t1 t2 hu' ⊢
      nlinarith
    rw [e]
    generalize a * (0.422377 + 0.0304043 * (a + b) - 0.00038106 * (a ^ 2 + a * b + b ^ 2)) +
        u * (a * (3.858019 - 0.1667989 * (a + b) + 0.00157955 * (a ^ 2 + a * b + b ^ 2))) = v at *
    have h5 : c * v ≤ 0.44 := by norm_num at hc' ⊢; nlinarith
    calc c * (q * v) = q * (c * v) := by ring
      _ ≤ q * 0.44 := by gcongr
      _ = _ := by ring
  unfold betheLog
  norm_num at key ⊢
  nlinarith

/-- The logarithm of the Bethe formula is large enough. -/
theorem betheLog_large (c I s : ℝ) (hc : 0 ≤ c) (hc' : c ≤ 0.0115) (hI : 0 < I) (hI' : I ≤ 1170) (h0 : 0.0654 ≤ s) (h1 : s ≤ 0.77) :
    3.3 ≤ betheLog c I s ∧ (0.2 ≤ s → 4.1 ≤ betheLog c I s) ∧ (0.4 ≤ s → 4.8 ≤ betheLog c I s) := by
  have s0 : 0 < s := by norm_num at h0; linarith
  have hlogI : Real.log 873.5 ≤ Real.log (1021997.856 / I) := by
    apply Real.log_le_log (by norm_num)
    rw [le_div_iff₀ hI]; norm_num; linarith
  have hsh : c * shellPoly (I / 1000) s⁻¹ ≤ 0.55 := by
    have hu : 0 < I / 1000 := by positivity
    have hu' : I / 1000 ≤ 1.17 := by norm_num; linarith
    have hy : s⁻¹ ≤ 15.3 := by rw [inv_le_comm₀ s0 (by norm_num)]; refine le_trans ?_ h0; norm_num
    have hy0 : 0 < s⁻¹ := by positivity
    generalize I / 1000 = u at *
    generalize s⁻¹ = y at *
    have : shellPoly u y ≤ 47 := by
      unfold shellPoly
      norm_num at hy hu' ⊢
      have t1 : 422377 / 1000000 * y + 304043 / 10000000 * y ^ 2 - 19053 / 50000000 * y ^ 3 ≤ 13.6 := by
        have := pow_pos hy0 3
        norm_num; nlinarith
      have t2 : 3858019 / 1000000 * y - 1667989 / 10000000 * y ^ 2 + 31591 / 20000000 * y ^ 3 ≤ 26 := by
        have : y ^ 3 ≤ 15.3 * y ^ 2 := by norm_num; nlinarith [sq_nonneg y]
        norm_num at this
        nlinarith [sq_nonneg (y - 13.5)]
      norm_num at t1
      nlinarith
    norm_num at hc' ⊢
    nlinarith
  have hb : s / (1 + s) ≤ s := by rw [div_le_iff₀ (by linarith)]; nlinarith
  have hb' : s / (1 + s) ≤ 0.4351 := by
    rw [div_le_iff₀ (by linarith)]; norm_num at h1 ⊢; linarith
  have l0 : 4.04 ≤ Real.log 873.5 + Real.log 0.0654 := by
    rw [← Real.log_mul (by norm_num) (by norm_num), Real.le_log_iff_exp_le (by norm_num)]
    have e : Real.exp (4.04 : ℝ) = Real.exp 1 ^ 4 * Real.exp 0.04 := by
      rw [← Real.exp_nat_mul, ← Real.exp_add]; norm_num
    have h27 := Real.exp_one_lt_d9
    have h5 := Real.exp_bound' (x := 0.04) (by norm_num) (by norm_num) (n := 3) (by norm_num)
    simp only [Finset.sum_range_succ, Finset.sum_range_zero, Nat.factorial] at h5
    rw [e]
    calc Real.exp 1 ^ 4 * Real.exp 0.04 ≤ 2.7182818286 ^ 4 * 1.0409 := by
          gcongr
          norm_num at h5 ⊢; linarith
      _ ≤ _ := by norm_num
  have l1 : 5.15 ≤ Real.log 873.5 + Real.log 0.2 := by
    rw [← Real.log_mul (by norm_num) (by norm_num), Real.le_log_iff_exp_le (by norm_num)]
    have e : Real.exp (5.15 : ℝ) = Real.exp 1 ^ 5 * Real.exp 0.15 := by
      rw [← Real.exp_nat_mul, ← Real.exp_add]; norm_num
    have h27 := Real.exp_one_lt_d9
    have h5 := Real.exp_bound' (x := 0.15) (by norm_num) (by norm_num) (n := 4) (by norm_num)
    simp only [Finset.sum_range_succ, Finset.sum_range_zero, Nat.factorial] at h5
    rw [e]
    calc Real.exp 1 ^ 5 * Real.exp 0.15 ≤ 2.7182818286 ^ 5 * 1.1619 := by
          gcongr
          norm_num at h5 ⊢; linarith
      _ ≤ _ := by norm_num
  have m1 : 0.2 ≤ s → Real.log 0.2 ≤ Real.log s := fun h => Real.log_le_log (by norm_num) h
  have m0 : Real.log 0.0654 ≤ Real.log s := Real.log_le_log (by norm_num) h0
  have big : 0.2 ≤ s → 4.1 ≤ betheLog c I s := by
    intro h
    have := m1 h
    unfold betheLog
    norm_num at l1 hb' hsh hlogI this ⊢
    linarith
  have bigger : 0.4 ≤ s → 4.8 ≤ betheLog c I s := by
    intro h
    have h4 : Real.log 0.4 ≤ Real.log s := Real.log_le_log (by norm_num) h
    have e4 : Real.log 0.4 = Real.log 0.2 + Real.log 2 := by
      rw [← Real.log_mul (by norm_num) (by norm_num)]; norm_num
    have := Real.log_two_gt_d9
    rw [e4] at h4
    unfold betheLog
    norm_num at l1 hb' hsh hlogI this h4 ⊢
    linarith
  refine ⟨?_, big, bigger⟩
  rcases le_total s 0.2 with h | h
  · unfold betheLog
    have hb3 : s / (1 + s) ≤ 1 / 6 := by
      rw [div_le_iff₀ (by linarith)]; norm_num at h ⊢; linarith
    norm_num at l0 hb hsh hlogI m0 h ⊢
    linarith
  · exact le_trans (by norm_num) (big h)

/-- The density effect below `x = -0.06`. -/
theorem density_low (zt : Int) (h : 1 ≤ zt) : ∃ f : ℝ → ℝ,
    (∀ b, bethek_density_effect b zt = .ok (f (Real.log (b * (1 / √(1 - b * b))) / 2.3025851))) ∧
    ∀ x x', x ≤ x' → x' < -0.06 → f x ≤ f x' ∧ 0 ≤ f x ∧ f x ≤ 0.14 := by
  obtain ⟨i, hi, x0, x1, c, a, m, d, hi', g0, g1, g2, g3, g4, g5, hD⟩ := density_formula zt h
  obtain ⟨q0, -, -, -, -, -, q6, q7, -⟩ := density_rows i hi _ _ _ _ _ _ g0 g1 g2 g3 g4 g5
  refine ⟨_, hD, fun x x' hx hx' => ?_⟩
  norm_num at q0 q7
  have q0' : (-0.06 : ℝ) ≤ (x0.rat : ℝ) := by
    have : ((-(3 / 50) : ℚ) : ℝ) ≤ (x0.rat : ℝ) := by exact_mod_cast q0
    push_cast at this; norm_num at this ⊢; exact this
  have q6' : (0 : ℝ) ≤ (d.rat : ℝ) := by exact_mod_cast q6
  have q7' : (d.rat : ℝ) ≤ 0.14 := by
    have : (d.rat : ℝ) ≤ ((7 / 50 : ℚ) : ℝ) := by exact_mod_cast q7
    push_cast at this; norm_num at this ⊢; exact this
  unfold densityFormula
  rw [if_pos (by linarith), if_pos (by linarith)]
  have m1 : (10 : ℝ) ^ (2 * (x - (x0.rat : ℝ))) ≤ (10 : ℝ) ^ (2 * (x' - (x0.rat : ℝ))) :=
    Real.rpow_le_rpow_of_exponent_le (by norm_num) (by linarith)
  have m2 : (10 : ℝ) ^ (2 * (x - (x0.rat : ℝ))) ≤ 1 := Real.rpow_le_one_of_one_le_of_nonpos (by norm_num) (by linarith)
  have m3 : 0 < (10 : ℝ) ^ (2 * (x - (x0.rat : ℝ))) := Real.rpow_pos_of_pos (by norm_num) _
  generalize (10 : ℝ) ^ (2 * (x - (x0.rat : ℝ))) = w at *
  generalize (10 : ℝ) ^ (2 * (x' - (x0.rat : ℝ))) = w' at *
  refine ⟨by gcongr, by positivity, ?_⟩
  nlinarith

/-- Kinematics of a step of at most 3 percent. -/
theorem fall_kinematics (x x' : ℝ) (h0 : 30 ≤ x) (h1 : x < x') (h2 : x' ≤ 1.03 * x) (h3 : x' ≤ 300) :
    0.0654 ≤ etaSq x ∧ etaSq x < etaSq x' ∧ etaSq x' ≤ 1.062 * etaSq x ∧ etaSq x' ≤ 0.75 ∧ x' / x - 1 ≤ etaSq x' / etaSq x - 1 := by
  have e : ∀ y : ℝ, etaSq y = y / 931.4940954 * (2 + y / 931.4940954) := fun y => by unfold etaSq; ring
  rw [e, e]
  have a0 : 0.032206 ≤ x / 931.4940954 := by rw [le_div_iff₀ (by norm_num)]; norm_num; linarith
  have a1 : x / 931.4940954 < x' / 931.4940954 := by gcongr
  have a2 : x' / 931.4940954 ≤ 1.03 * (x / 931.4940954) := by
    rw [mul_div_assoc']; gcongr
  have a3 : x' / 931.4940954 ≤ 0.32207 := by rw [div_le_iff₀ (by norm_num)]; norm_num; linarith
  have a4 : x' / x = (x' / 931.4940954) / (x / 931.4940954) := by field_simp
  rw [a4]
  generalize x / 931.4940954 = u at *
  generalize x' / 931.4940954 = v at *
  norm_num at a0 a2 a3 ⊢
  have u0 : 0 < u := by linarith
  refine ⟨by nlinarith, by nlinarith, by nlinarith, by nlinarith, ?_⟩
  rw [div_le_div_iff₀ u0 (by positivity)]
  have : 0 ≤ v * u * (v - u) := mul_nonneg (mul_nonneg (by linarith) u0.le) (by linarith)
  nlinarith

/-- The effective charge of ions up to calcium changes little. -/
theorem charge_rise (z b b' q : ℝ) (hz : 1 ≤ z) (hz' : z ≤ 20) (hb : 0.247 ≤ b) (h : b ≤ b') (hq : b' ^ 2 ≤ b ^ 2 * (1 + q))
    (q0 : 0 ≤ q) (q1 : q ≤ 0.0625) :
    z_eff_Pierce_Blann z b' ^ 2 ≤ z_eff_Pierce_Blann z b ^ 2 * (1 + 0.13 * q) := by
  rw [pierce_blann_eq, pierce_blann_eq]
  have p0 : 0 < z ^ ((2 : ℝ) / 3) := Real.rpow_pos_of_pos (by linarith) _
  have p1 : z ^ ((2 : ℝ) / 3) ≤ 7.37 := by
    apply le_of_pow_le_pow_left₀ (n := 3) (by norm_num) (by norm_num)
    rw [← Real.rpow_natCast (z ^ ((2 : ℝ) / 3)) 3, ← Real.rpow_mul (by linarith)]
    rw [show (2 : ℝ) / 3 * ((3 : Nat) : ℝ) = ((2 : Nat) : ℝ) by norm_num, Real.rpow_natCast]
    norm_num
    nlinarith
  have hk : 17.6 ≤ 0.95 * fine_structure_inverted / z ^ ((2 : ℝ) / 3) := by
    rw [le_div_iff₀ p0]
    have : (130 : ℝ) ≤ 0.95 * fine_structure_inverted := by norm_num [fine_structure_inverted, fine_structure]
    norm_num at p1 this ⊢
    linarith
  generalize 0.95 * fine_structure_inverted / z ^ ((2 : ℝ) / 3) = k at hk
  have b0 : 0 < b := by norm_num at hb; linarith
  -- the velocity grows by at most half of q
  have hb2 : b' ≤ b * (1 + q / 2) := by
    apply le_of_pow_le_pow_left₀ (n := 2) (by norm_num) (by positivity)
    refine hq.trans ?_
    rw [mul_pow]
    have : 1 + q ≤ (1 + q / 2) ^ 2 := by nlinarith [sq_nonneg q]
    gcongr
  have hu : 4.3 ≤ k * b := by norm_num at hk hb ⊢; nlinarith
  have hd : k * b' - k * b ≤ k * b * (q / 2) := by
    have : k * b' ≤ k * (b * (1 + q / 2)) := by gcongr
    linarith
  obtain ⟨u, hu'⟩ : ∃ u, u = k * b := ⟨_, rfl⟩
  rw [← hu'] at hu hd ⊢
  have e2 : Real.exp (-(k * b')) ≥ Real.exp (-u) * (1 - u * (q / 2)) := by
    have : Real.exp (-(k * b')) = Real.exp (-u) * Real.exp (-(k * b' - u)) := by rw [← Real.exp_add]; congr 1; ring
    rw [this]
    have h5 := Real.add_one_le_exp (-(k * b' - u))
    gcongr
    linarith
  have e3 : Real.exp (-u) * u ≤ 0.12 * (1 - Real.exp (-u)) := by
    have h6 : 1 + u + u ^ 2 / 2 + u ^ 3 / 6 + u ^ 4 / 24 ≤ Real.exp u := by
      have := Real.sum_le_exp_of_nonneg (x := u) (by norm_num at hu; linarith) 5
      simp only [Finset.sum_range_succ, Finset.sum_range_zero, Nat.factorial] at this
      norm_num at this
      linarith
    have h7 : u ≤ 0.12 * (Real.exp u - 1) := by
      norm_num at hu ⊢
      nlinarith [pow_le_pow_left₀ (by norm_num) hu 2, pow_le_pow_left₀ (by norm_num) hu 3, pow_le_pow_left₀ (by norm_num) hu 4]
    have h8 : Real.exp (-u) * Real.exp u = 1 := by rw [← Real.exp_add]; simp
    have h9 : 0 < Real.exp (-u) := Real.exp_pos _
    calc Real.exp (-u) * u ≤ Real.exp (-u) * (0.12 * (Real.exp u - 1)) := by gcongr
      _ = 0.12 * (Real.exp (-u) * Real.exp u - Real.exp (-u)) := by ring
      _ = _ := by rw [h8]
  have e4 : 1 - Real.exp (-(k * b')) ≤ (1 - Real.exp (-u)) * (1 + 0.06 * q) := by
    have : Real.exp (-u) * u * (q / 2) ≤ 0.12 * (1 - Real.exp (-u)) * (q / 2) := by gcongr
    norm_num at this ⊢
    nlinarith
  have e5 : 0 ≤ 1 - Real.exp (-(k * b')) := by
    rw [sub_nonneg, Real.exp_le_one_iff]
    have : 0 ≤ k * b' := mul_nonneg (by norm_num at hk; linarith) (by linarith)
    linarith
  rw [mul_pow, mul_pow, mul_assoc]
  refine mul_le_mul_of_nonneg_left ?_ (sq_nonneg _)
  refine (pow_le_pow_left₀ e5 e4 2).trans ?_
  rw [mul_pow]
  have : (1 + 0.06 * q) ^ 2 ≤ 1 + 0.13 * q := by norm_num; nlinarith
  gcongr

/-- The comparison of the two brackets. -/
theorem fall_core (s s' Z Z' M M' D : ℝ) (h0 : 0 < s) (h : s < s') (hr : s' / s - 1 ≤ 0.062) (hZ : 0 < Z) (hZ' : Z' ≤ Z * (1 + 0.13 * (s' / s - 1)))
    (hM : M' ≤ M + D * (s' / s - 1)) (hM0 : 0 < M') (hD : 0 ≤ D) (key : (1 + s') * D * 1.01 < M * (1 - 0.13 * (1 + s'))) :
    Z' * (1 + s') / s' * M' < Z * (1 + s) / s * M := by
  have hs' : 0 < s' := by linarith
  obtain ⟨q, hq⟩ : ∃ q, q = s' / s - 1 := ⟨_, rfl⟩
  have es : s' = s * (1 + q) := by rw [hq]; field_simp; ring
  rw [← hq] at hr hZ' hM
  have q0 : 0 < q := by nlinarith
  have q1 : (0 : ℝ) < 1 + 0.13 * q := by norm_num; linarith
  have hMD : 0 ≤ M + D * q := by linarith
  calc Z' * (1 + s') / s' * M' ≤ Z * (1 + 0.13 * q) * (1 + s') / s' * (M + D * q) := by gcongr
    _ = Z / s' * ((1 + 0.13 * q) * (1 + s') * (M + D * q)) := by ring
    _ < Z / s' * ((1 + s) * (1 + q) * M) := by
      apply mul_lt_mul_of_pos_left _ (by positivity)
      have h1 : (1 + s) * (1 + q) = 1 + s' + q := by rw [es]; ring
      rw [h1]
      have h2 : (1 + 0.13 * q) * D ≤ 1.01 * D := by
        apply mul_le_mul_of_nonneg_right _ hD
        norm_num at hr ⊢; linarith
      have h3 : (1 + 0.13 * q) * (1 + s') * (M + D * q) = (1 + s') * M + q * ((1 + s') * (0.13 * M) + (1 + s') * ((1 + 0.13 * q) * D)) := by ring
      rw [h3]
      have h4 : (1 + s') * ((1 + 0.13 * q) * D) ≤ (1 + s') * (1.01 * D) := by gcongr
      nlinarith
    _ = Z * (1 + s) / s * M := by
      rw [es]; field_simp

/-- The bracket is large against its slope. -/
theorem fall_key (s s' L K l d : ℝ) (h0 : 0 < s) (h : s < s') (h1 : s' ≤ 1.062 * s) (h2 : s' ≤ 0.75) (hK : 0 ≤ K) (hl : -0.29 ≤ l)
    (hd : d ≤ 0.14) (b1 : 3.3 ≤ L) (b2 : 0.2 ≤ s → 4.1 ≤ L) (b3 : 0.4 ≤ s → 4.8 ≤ L) :
    (1 + s') * (1.44 * (1 + K) + 0.32) * 1.01 < (L * (1 + K) + l - d / 2) * (1 - 0.13 * (1 + s')) := by
  norm_num at *
  have hm : ∀ B, B ≤ L → B * (1 + K) - 0.36 ≤ L * (1 + K) + l - d / 2 := by
    intro B hB
    have : B * (1 + K) ≤ L * (1 + K) := by gcongr
    norm_num
    linarith
  have fin : ∀ B S, B ≤ L → s' ≤ S → S ≤ 0.75 → 1 ≤ B → (1 + S) * (1.44 * 1.01) + 0.13 * B * (1 + S) < B →
      (1 + S) * (1.76 * 1.01) < (B - 0.36) * (1 - 0.13 * (1 + S)) →
      (1 + s') * (36 / 25 * (1 + K) + 8 / 25) * (101 / 100) < (L * (1 + K) + l - d / 2) * (1 - 13 / 100 * (1 + s')) := by
    intro B S hB hS hS' hB1 c1 c2
    have a1 := hm B hB
    norm_num at *
    have w0 : 0 < 1 - 13 / 100 * (1 + S) := by linarith
    have w1 : 1 - 13 / 100 * (1 + S) ≤ 1 - 13 / 100 * (1 + s') := by linarith
    have m0 : 0 ≤ B * (1 + K) - 9 / 25 := by nlinarith
    calc (1 + s') * (36 / 25 * (1 + K) + 8 / 25) * (101 / 100) ≤ (1 + S) * (36 / 25 * (1 + K) + 8 / 25) * (101 / 100) := by gcongr
      _ < (B * (1 + K) - 9 / 25) * (1 - 13 / 100 * (1 + S)) := by nlinarith
      _ ≤ (L * (1 + K) + l - d / 2) * (1 - 13 / 100 * (1 + s')) := mul_le_mul (by linarith) w1 w0.le (by linarith)
  rcases le_total s (1 / 5) with h5 | h5
  · exact fin 3.3 0.2124 (by norm_num; linarith) (by norm_num; linarith) (by norm_num) (by norm_num) (by norm_num) (by norm_num)
  rcases le_total s (2 / 5) with h6 | h6
  · exact fin 4.1 0.4248 (by norm_num; exact b2 h5) (by norm_num; linarith) (by norm_num) (by norm_num) (by norm_num) (by norm_num)
  · exact fin 4.8 0.75 (by norm_num; exact b3 h6) (by norm_num; linarith) (by norm_num) (by norm_num) (by norm_num) (by norm_num)

end Catima
