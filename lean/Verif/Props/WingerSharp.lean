import Verif.Props.EffectiveChargeLower

/-!
# C41: where the effective charge of Winger becomes negative
-/

namespace Catima

/-- `exp (-y)` from below. -/
theorem exp_neg_ge_of (y d c : ℝ) (h : Real.exp y ≤ d) (hc : c * d ≤ 1) : c ≤ Real.exp (-y) := by
  have h0 := Real.exp_pos y
  rw [Real.exp_neg, ← one_div, le_div_iff₀ h0]
  rcases le_or_gt 0 c with h1 | h1
  · exact (mul_le_mul_of_nonneg_left h h1).trans hc
  · nlinarith

/-- `exp (-y)` from above. -/
theorem exp_neg_le_of (y d c : ℝ) (h : d ≤ Real.exp y) (hd : 0 < d) (hc : 1 ≤ c * d) : Real.exp (-y) ≤ c := by
  rw [Real.exp_neg, ← one_div, div_le_iff₀ (hd.trans_le h)]
  have : 0 < c := by
    by_contra h'
    nlinarith
  nlinarith

/-- The exponent as a polynomial of the velocity. -/
theorem winger_scaled (l lt b : ℝ) : wingerPoly l lt (b / 0.012 * Real.exp (-(0.45 * l))) =
    -0.4662 - 0.5491 / 0.012 * Real.exp (-(-0.2528 * l + 0.1089 * l ^ 2 - 0.001644 * l ^ 3 + 0.5155 * lt - 0.05633 * lt ^ 2)) * b
      + 0.005447 / 0.012 ^ 2 * Real.exp (-(0.0205 * l + 1.091 * lt)) * b ^ 2
      - 0.0008261 / 0.012 ^ 3 * Real.exp (-(0.2442 * l ^ 3 - 1.498 * l)) * b ^ 3
      - 0.00009293 / 0.012 ^ 4 * Real.exp (-(1.8 * l)) * b ^ 4 := by
  have e1 : Real.exp (-(-0.2528 * l + 0.1089 * l ^ 2 - 0.001644 * l ^ 3 + 0.5155 * lt - 0.05633 * lt ^ 2)) =
      Real.exp (0.7028 * l - 0.1089 * l ^ 2 + 0.001644 * l ^ 3 - 0.5155 * lt + 0.05633 * lt ^ 2) * Real.exp (-(0.45 * l)) := by
    rw [← Real.exp_add]; congr 1; ring
  have e2 : Real.exp (-(0.0205 * l + 1.091 * lt)) = Real.exp (0.8795 * l - 1.091 * lt) * Real.exp (-(0.45 * l)) ^ 2 := by
    rw [← Real.exp_nat_mul, ← Real.exp_add]; congr 1; push_cast; ring
  have e3 : Real.exp (-(0.2442 * l ^ 3 - 1.498 * l)) = Real.exp (2.848 * l - 0.2442 * l ^ 3) * Real.exp (-(0.45 * l)) ^ 3 := by
    rw [← Real.exp_nat_mul, ← Real.exp_add]; congr 1; push_cast; ring
  have e4 : Real.exp (-(1.8 * l)) = Real.exp (-(0.45 * l)) ^ 4 := by
    rw [← Real.exp_nat_mul]; congr 1; push_cast; ring
  rw [e1, e2, e3, e4]
  unfold wingerPoly
  generalize Real.exp (-(0.45 * l)) = u
  generalize Real.exp (0.7028 * l - 0.1089 * l ^ 2 + 0.001644 * l ^ 3 - 0.5155 * lt + 0.05633 * lt ^ 2) = p
  generalize Real.exp (0.8795 * l - 1.091 * lt) = q
  generalize Real.exp (2.848 * l - 0.2442 * l ^ 3) = r
  ring

/-- The exponent is not positive if it is not positive for the velocity of light. -/
theorem winger_chord (K1 K2 K3 K4 k1 k2 k4 b : ℝ) (hb : 0 ≤ b) (hb' : b ≤ 1) (h1 : k1 ≤ K1) (h2 : K2 ≤ k2) (h3 : 0 ≤ K3) (h4 : k4 ≤ K4)
    (h : -0.4662 - k1 + k2 - k4 ≤ 0) (hk : 3 * k4 ≤ k2) (hk4 : 0 ≤ k4) :
    -0.4662 - K1 * b + K2 * b ^ 2 - K3 * b ^ 3 - K4 * b ^ 4 ≤ 0 := by
  have g1 := mul_le_mul_of_nonneg_right h1 hb
  have g2 := mul_le_mul_of_nonneg_right h2 (pow_nonneg hb 2)
  have g3 := mul_nonneg h3 (pow_nonneg hb 3)
  have g4 := mul_le_mul_of_nonneg_right h4 (pow_nonneg hb 4)
  have g5 : 0 ≤ b * (1 - b) := mul_nonneg hb (by linarith)
  have g6 : 1 + b + b ^ 2 ≤ 3 := by nlinarith
  have g7 : k4 * (1 + b + b ^ 2) ≤ k2 := by nlinarith
  have g8 := mul_le_mul_of_nonneg_right g7 g5
  have g9 := mul_le_mul_of_nonneg_right h hb
  nlinarith

theorem log_winger_105 : Real.log 105 ≤ (4.65397 : ℝ) :=
  log_le_of 26 _ _ (by norm_num) (by norm_num) (by norm_num [Finset.sum_range_succ, Nat.factorial])

theorem log_winger_99 : (4.595 : ℝ) ≤ Real.log 99 :=
  le_log_of 5 _ _ (by norm_num) (by norm_num) (by norm_num) (by norm_num)
    (by norm_num [Finset.sum_range_succ, Nat.factorial])

theorem log_winger_14_5 : (1.029 : ℝ) ≤ Real.log 2.8 :=
  le_log_of 2 _ _ (by norm_num) (by norm_num) (by norm_num) (by norm_num)
    (by norm_num [Finset.sum_range_succ, Nat.factorial])

theorem log_winger_three : Real.log 3 ≤ (1.0988 : ℝ) :=
  log_le_of 18 _ _ (by norm_num) (by norm_num) (by norm_num [Finset.sum_range_succ, Nat.factorial])

theorem log_winger_four : (1.386 : ℝ) ≤ Real.log 4 :=
  le_log_of 2 _ _ (by norm_num) (by norm_num) (by norm_num) (by norm_num)
    (by norm_num [Finset.sum_range_succ, Nat.factorial])

/-- The part of the first exponent that depends on the projectile. -/
theorem winger_first (l : ℝ) (h : 4.595 ≤ l) (h' : l ≤ 4.65397) :
    -0.2528 * l + 0.1089 * l ^ 2 - 0.001644 * l ^ 3 ≤ 1.01648 := by
  have : 0 ≤ (4.65397 - l) * (0.2 + (l - 4.595)) := mul_nonneg (by linarith) (by linarith)
  nlinarith [mul_nonneg (by linarith : 0 ≤ 4.65397 - l) (by linarith : 0 ≤ l - 4.595),
    mul_nonneg (mul_nonneg (by linarith : 0 ≤ 4.65397 - l) (by linarith : 0 ≤ l - 4.595)) (by linarith : 0 ≤ l)]

/-- C41, lower bound of Winger: up to dubnium the effective charge is not negative, in every target. -/
theorem winger_nonneg_105 (z b : ℝ) (t : ℤ) (hz : 1 ≤ z) (hz' : z ≤ 105) (ht : 1 ≤ t) (hb : 0 ≤ b) (hb' : b ≤ 1) :
    0 ≤ z_eff_Winger z b (t : ℝ) := by
  rcases le_or_gt z 99 with h99 | h99
  · exact winger_nonneg z b t hz h99 ht hb hb'
  rw [winger_eq]
  apply mul_nonneg (by linarith)
  rw [sub_nonneg, Real.exp_le_one_iff]
  have hx : b / 0.012 / z ^ (0.45 : ℝ) = b / 0.012 * Real.exp (-(0.45 * Real.log z)) := by
    rw [Real.rpow_def_of_pos (by linarith), Real.exp_neg, div_eq_mul_inv]
    congr 3
    ring
  rw [hx]
  have l0 : 4.595 ≤ Real.log z := log_winger_99.trans (Real.log_le_log (by norm_num) h99.le)
  have l1 : Real.log z ≤ 4.65397 := (Real.log_le_log (by linarith) hz').trans log_winger_105
  generalize Real.log z = l at l0 l1
  have hf := winger_first l l0 l1
  have h3 : 0 ≤ 0.0008261 / 0.012 ^ 3 * Real.exp (-(0.2442 * l ^ 3 - 1.498 * l)) := by positivity
  have h4 : 1.0309 ≤ 0.00009293 / 0.012 ^ 4 * Real.exp (-(1.8 * l)) := by
    have : (0.00023004 : ℝ) ≤ Real.exp (-(1.8 * l)) := by
      refine exp_neg_ge_of _ 4347 _ ((Real.exp_le_exp.mpr (by linarith : _ ≤ (8.377146 : ℝ))).trans ?_) (by norm_num)
      exact exp_le 9 _ _ (by norm_num) (by norm_num) (by norm_num) (by norm_num [Finset.sum_range_succ, Nat.factorial])
    norm_num at this ⊢
    linarith
  by_cases t4 : 4 ≤ t
  · have e : wingerZ (t : ℝ) = t := by
      unfold wingerZ
      have h3' : (4 : ℝ) ≤ t := by exact_mod_cast t4
      rw [if_neg (by linarith), if_neg (by linarith)]
    rw [e]
    have h4' : (4 : ℝ) ≤ t := by exact_mod_cast t4
    have hlt : (1.386 : ℝ) ≤ Real.log t := log_winger_four.trans (Real.log_le_log (by norm_num) h4')
    apply winger_linear l _ b hb hb'
    nlinarith
  rw [winger_scaled]
  by_cases t1 : t = 1
  · have e : wingerZ (t : ℝ) = 2.6 := by simp [wingerZ, t1]
    rw [e]
    have u1 := log_13_5
    have u2 := log_13_5'
    generalize Real.log 2.6 = lt at u1 u2
    refine winger_chord _ _ _ _ 10.649 12.1392 1.0309 b hb hb' ?_ ?_ h3 h4 (by norm_num) (by norm_num) (by norm_num)
    · have : (0.23272344 : ℝ) ≤ Real.exp (-(-0.2528 * l + 0.1089 * l ^ 2 - 0.001644 * l ^ 3 + 0.5155 * lt - 0.05633 * lt ^ 2)) := by
        refine exp_neg_ge_of _ 4.29694 _ ((Real.exp_le_exp.mpr (by nlinarith : _ ≤ (1.45785 : ℝ))).trans ?_) (by norm_num)
        exact exp_le 2 _ _ (by norm_num) (by norm_num) (by norm_num) (by norm_num [Finset.sum_range_succ, Nat.factorial])
      norm_num at this ⊢
      linarith
    · have : Real.exp (-(0.0205 * l + 1.091 * lt)) ≤ 0.3209182 := by
        refine exp_neg_le_of _ 3.11606 _ ((exp_ge 16 1.136648 _ (by norm_num) ?_).trans (Real.exp_le_exp.mpr (by linarith)))
          (by norm_num) (by norm_num)
        norm_num [Finset.sum_range_succ, Nat.factorial]
      norm_num at this ⊢
      linarith
  · have hlt : 1.029 ≤ Real.log (wingerZ (t : ℝ)) ∧ Real.log (wingerZ (t : ℝ)) ≤ 1.0988 := by
      rcases (by omega : t = 2 ∨ t = 3) with h | h
      · have e : wingerZ (t : ℝ) = 2.8 := by norm_num [wingerZ, h]
        rw [e]
        exact ⟨log_winger_14_5, log_14_5.trans (by norm_num)⟩
      · have e : wingerZ (t : ℝ) = 3 := by norm_num [wingerZ, h]
        rw [e]
        exact ⟨(by norm_num : (1.029 : ℝ) ≤ 1.0985).trans log_three, log_winger_three⟩
    generalize Real.log (wingerZ (t : ℝ)) = lt at hlt
    refine winger_chord _ _ _ _ 10 11.25 1.0309 b hb hb' ?_ ?_ h3 h4 (by norm_num) (by norm_num) (by norm_num)
    · have : (0.21855 : ℝ) ≤ Real.exp (-(-0.2528 * l + 0.1089 * l ^ 2 - 0.001644 * l ^ 3 + 0.5155 * lt - 0.05633 * lt ^ 2)) := by
        refine exp_neg_ge_of _ 4.5755 _ ((Real.exp_le_exp.mpr (by nlinarith : _ ≤ (1.5207 : ℝ))).trans ?_) (by norm_num)
        exact exp_le 2 _ _ (by norm_num) (by norm_num) (by norm_num) (by norm_num [Finset.sum_range_succ, Nat.factorial])
      norm_num at this ⊢
      linarith
    · have : Real.exp (-(0.0205 * l + 1.091 * lt)) ≤ 0.2974 := by
        refine exp_neg_le_of _ 3.3626 _ ((exp_ge 16 1.2168 _ (by norm_num) ?_).trans (Real.exp_le_exp.mpr (by linarith [hlt.1])))
          (by norm_num) (by norm_num)
        norm_num [Finset.sum_range_succ, Nat.factorial]
      norm_num at this ⊢
      linarith

/-- C41 for Winger, what holds: up to dubnium (Z = 105) the effective charge is between 0 and Z in every target.  The rest is
refuted by `winger_negative_106`. -/
theorem winger_bounds_partial (debug : Bool) (p : Projectile ℝ) (t : Target ℝ) (c : Config ℝ) (hT : 0 < p.T) (hZ : 1 ≤ p.Z)
    (hZ' : p.Z ≤ 105) (ht : 1 ≤ t.Z) (h : c.z_effective = 4) :
    ∃ z, z_effective debug p t c = .ok z ∧ 0 ≤ z ∧ z ≤ p.Z := by
  obtain ⟨z, hz1, hz2⟩ := z_eff_upper_partial debug p t c (by linarith) (by omega)
  refine ⟨z, hz1, ?_, hz2⟩
  have e : z_effective debug p t c = .ok (z_eff_Winger p.Z (beta_from_T p.T) (ofInt t.Z)) := by
    unfold z_effective
    rw [if_neg (by omega), if_neg (by omega), if_neg (by omega), if_neg (by omega), if_pos h]
    rfl
  rw [e] at hz1
  cases hz1
  rw [ofInt_real]
  have hb := (gamma_beta_bounds p.T hT).2
  exact winger_nonneg_105 _ _ _ hZ hZ' ht hb.1.le hb.2.le

/-- Dubnium at 1 TeV/u in hydrogen. -/
example : ∃ z, z_effective false (⟨268, 105, 105, 1000000⟩ : Projectile ℝ) ⟨1, 1, 1⟩ { Config.default with z_effective := 4 } = .ok z ∧
    0 ≤ z ∧ z ≤ 105 :=
  winger_bounds_partial false _ _ _ (by norm_num) (by norm_num) (by norm_num) (by norm_num) rfl

theorem log_winger_106 : (4.6634 : ℝ) ≤ Real.log 106 :=
  le_log_of 5 _ _ (by norm_num) (by norm_num) (by norm_num) (by norm_num)
    (by norm_num [Finset.sum_range_succ, Nat.factorial])

theorem log_winger_118 : Real.log 118 ≤ (4.7708 : ℝ) :=
  log_le_of 26 _ _ (by norm_num) (by norm_num) (by norm_num [Finset.sum_range_succ, Nat.factorial])

/-- C41 refuted for Winger: from seaborgium (Z = 106) on, in hydrogen, ions of 931 GeV/u and more have a negative effective
charge. -/
theorem winger_negative_106 (debug : Bool) (p : Projectile ℝ) (hZ : 106 ≤ p.Z) (hZ' : p.Z ≤ 118) (hT : 1000 * atomic_mass_unit ≤ p.T)
    (t : Target ℝ) (ht : t.Z = 1) (c : Config ℝ) (h : c.z_effective = 4) :
    ∃ z, z_effective debug p t c = .ok z ∧ z < 0 := by
  have e : z_effective debug p t c = .ok (z_eff_Winger p.Z (beta_from_T p.T) ((1 : ℤ) : ℝ)) := by
    unfold z_effective
    rw [if_neg (by omega), if_neg (by omega), if_neg (by omega), if_neg (by omega), if_pos h, ofInt_real, ht]
    rfl
  refine ⟨_, e, ?_⟩
  have hu := amu_pos
  have hT0 : 0 < p.T := lt_of_lt_of_le (by positivity) hT
  have hb1 : (0.999999 : ℝ) ≤ beta_from_T p.T := by
    unfold beta_from_T gamma_from_T
    rw [sqrt_real]
    have e1 : (1000 : ℝ) ≤ p.T / atomic_mass_unit := by rw [le_div_iff₀ hu]; exact hT
    apply Real.le_sqrt_of_sq_le
    have e2 : (1001 : ℝ) ^ 2 ≤ (1 + p.T / atomic_mass_unit) ^ 2 := pow_le_pow_left₀ (by norm_num) (by linarith) 2
    have e3 : (1.0 : ℝ) / ((1.0 + p.T / atomic_mass_unit) * (1.0 + p.T / atomic_mass_unit)) ≤ 1e-6 := by
      rw [div_le_iff₀ (by positivity)]
      norm_num at e2 ⊢
      nlinarith
    norm_num at e3 ⊢
    linarith
  have hb2 : beta_from_T p.T ≤ 1 := (gamma_beta_bounds _ hT0).2.2.le
  generalize beta_from_T p.T = b at hb1 hb2
  rw [winger_eq]
  have e : wingerZ ((1 : ℤ) : ℝ) = 2.6 := by simp [wingerZ]
  have hx : b / 0.012 / p.Z ^ (0.45 : ℝ) = b / 0.012 * Real.exp (-(0.45 * Real.log p.Z)) := by
    rw [Real.rpow_def_of_pos (by linarith), Real.exp_neg, div_eq_mul_inv]
    congr 3
    ring
  rw [e, hx, winger_scaled]
  have l0 : 4.6634 ≤ Real.log p.Z := log_winger_106.trans (Real.log_le_log (by norm_num) hZ)
  have l1 : Real.log p.Z ≤ 4.7708 := (Real.log_le_log (by linarith) hZ').trans log_winger_118
  have u1 := log_13_5
  have u2 := log_13_5'
  generalize Real.log 2.6 = lt at u1 u2
  generalize Real.log p.Z = l at l0 l1
  have h1 : 0.5491 / 0.012 * Real.exp (-(-0.2528 * l + 0.1089 * l ^ 2 - 0.001644 * l ^ 3 + 0.5155 * lt - 0.05633 * lt ^ 2)) ≤ 10.588 := by
    have : Real.exp (-(-0.2528 * l + 0.1089 * l ^ 2 - 0.001644 * l ^ 3 + 0.5155 * lt - 0.05633 * lt ^ 2)) ≤ 0.231388 := by
      have hE : (1.46369 : ℝ) ≤ -0.2528 * l + 0.1089 * l ^ 2 - 0.001644 * l ^ 3 + 0.5155 * lt - 0.05633 * lt ^ 2 := by
        have q1 : (1.02256 : ℝ) ≤ -0.2528 * l + 0.1089 * l ^ 2 - 0.001644 * l ^ 3 := by
          nlinarith [mul_nonneg (by linarith : 0 ≤ 4.7708 - l) (by linarith : 0 ≤ l - 4.6634),
            mul_nonneg (mul_nonneg (by linarith : 0 ≤ 4.7708 - l) (by linarith : 0 ≤ l - 4.6634)) (by linarith : 0 ≤ l)]
        have q2 : (0.44113 : ℝ) ≤ 0.5155 * lt - 0.05633 * lt ^ 2 := by nlinarith
        linarith
      refine exp_neg_le_of _ 4.32176 _ ((exp_ge 16 1.46369 _ (by norm_num) ?_).trans (Real.exp_le_exp.mpr hE)) (by norm_num) (by norm_num)
      norm_num [Finset.sum_range_succ, Nat.factorial]
    norm_num at this ⊢
    linarith
  have h2 : 12.08 ≤ 0.005447 / 0.012 ^ 2 * Real.exp (-(0.0205 * l + 1.091 * lt)) := by
    have : (0.31953 : ℝ) ≤ Real.exp (-(0.0205 * l + 1.091 * lt)) := by
      refine exp_neg_ge_of _ 3.12955 _ ((Real.exp_le_exp.mpr (by linarith : _ ≤ (1.1408 : ℝ))).trans ?_) (by norm_num)
      exact exp_le 2 _ _ (by norm_num) (by norm_num) (by norm_num) (by norm_num [Finset.sum_range_succ, Nat.factorial])
    norm_num at this ⊢
    linarith
  have h3 : 0.0008261 / 0.012 ^ 3 * Real.exp (-(0.2442 * l ^ 3 - 1.498 * l)) ≤ 0.0001 := by
    have : Real.exp (-(0.2442 * l ^ 3 - 1.498 * l)) ≤ 0.0000002 := by
      have hE : (17 : ℝ) ≤ 0.2442 * l ^ 3 - 1.498 * l := by nlinarith [mul_nonneg (by linarith : 0 ≤ l - 4.6634) (by linarith : 0 ≤ l)]
      refine exp_neg_le_of _ 10000000 _ ((?_ : (10000000 : ℝ) ≤ Real.exp 17).trans (Real.exp_le_exp.mpr hE)) (by norm_num) (by norm_num)
      exact exp_ge 40 _ _ (by norm_num) (by norm_num [Finset.sum_range_succ, Nat.factorial])
    norm_num at this ⊢
    linarith
  have h4 : 0.00009293 / 0.012 ^ 4 * Real.exp (-(1.8 * l)) ≤ 1.0138 := by
    have : Real.exp (-(1.8 * l)) ≤ 0.00022621 := by
      refine exp_neg_le_of _ 4420.8 _ ((exp_ge 36 8.39412 _ (by norm_num) ?_).trans (Real.exp_le_exp.mpr (by linarith))) (by norm_num) (by norm_num)
      norm_num [Finset.sum_range_succ, Nat.factorial]
    norm_num at this ⊢
    linarith
  have b2 : 0.999998 ≤ b ^ 2 := by nlinarith
  have b0 : 0 ≤ b := by linarith
  have b3 : b ^ 3 ≤ 1 := pow_le_one₀ b0 hb2
  have b4 : b ^ 4 ≤ 1 := pow_le_one₀ b0 hb2
  have hpos : 0 < -0.4662 - 0.5491 / 0.012 * Real.exp (-(-0.2528 * l + 0.1089 * l ^ 2 - 0.001644 * l ^ 3 + 0.5155 * lt - 0.05633 * lt ^ 2)) * b
      + 0.005447 / 0.012 ^ 2 * Real.exp (-(0.0205 * l + 1.091 * lt)) * b ^ 2
      - 0.0008261 / 0.012 ^ 3 * Real.exp (-(0.2442 * l ^ 3 - 1.498 * l)) * b ^ 3
      - 0.00009293 / 0.012 ^ 4 * Real.exp (-(1.8 * l)) * b ^ 4 := by
    have g1 := mul_le_mul h1 hb2 b0 (by norm_num)
    have g2 := mul_le_mul h2 b2 (by norm_num) (le_trans (by norm_num) h2)
    have g3 := mul_le_mul h3 b3 (by positivity) (by norm_num)
    have g4 := mul_le_mul h4 b4 (by positivity) (by norm_num)
    norm_num at g1 g2 g3 g4 ⊢
    linarith
  have := Real.one_lt_exp_iff.mpr hpos
  nlinarith

/-- Seaborgium. -/
example : ∃ z, z_effective false (⟨269, 106, 106, 1000 * atomic_mass_unit⟩ : Projectile ℝ) ⟨1, 1, 1⟩
    { Config.default with z_effective := 4 } = .ok z ∧ z < 0 :=
  winger_negative_106 false _ (by norm_num) (by norm_num) le_rfl _ rfl _ rfl

end Catima
