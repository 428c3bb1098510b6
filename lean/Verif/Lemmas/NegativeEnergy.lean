import Verif.Lemmas.PowerLaw

/-!
# Helper lemmas: when the search of the outgoing energy returns a negative energy

The first estimate of the search is the incoming energy less the thickness over the slope of the range.
Below the table the range is continued by a straight line, so that the estimate is accepted even if it is negative when the
range and the thickness agree up to the tolerance.
-/

namespace Catima
open Spline

/-- The first estimate is returned when it has the right range, whatever its sign. -/
theorem energy_out_spline_first (debug : Bool) (s : Spline ℝ) (T R D th e Re : ℝ)
    (hT : s.evaluate T = .ok R) (hTd : s.deriv T = .ok D) (hlt : th < R)
    (e1 : T - th * (1 / D) = e) (he : s.evaluate e = .ok Re) (hr : |R - Re - th| < 1e-5) :
    energy_out_spline debug T th s = .ok e := by
  have h1 : (1.0 : ℝ) = 1 := by norm_num
  unfold energy_out_spline
  rw [hT, hTd]
  simp only [bind_ok]
  rw [if_neg (by rw [le_real]; linarith), h1, e1]
  unfold energyOutLoop
  rw [he]
  simp only [bind_ok]
  rw [if_pos (by
    rw [lt_real, fabs_real]
    norm_num [Eout_th_epsilon] at hr ⊢; linarith)]
  rfl

/-- `gridRatio` to the power 0.25. -/
theorem gridRatio_quarter : 1.009656 ≤ gridRatio ^ (0.25 : ℝ) ∧ gridRatio ^ (0.25 : ℝ) ≤ 1.009657 := by
  have hq := gridRatio_sharp
  have q0 : 0 < gridRatio := by have := hq.1; norm_num at this; linarith
  have hp := Real.rpow_pos_of_pos q0 0.25
  have e : (gridRatio ^ (0.25 : ℝ)) ^ 4 = gridRatio := by
    rw [← Real.rpow_natCast, ← Real.rpow_mul q0.le]
    norm_num
  have h1 := hq.1
  have h2 := hq.2
  rw [← e] at h1 h2
  constructor
  · refine le_of_pow_le_pow_left₀ (n := 4) (by norm_num) hp.le (le_trans ?_ h1)
    norm_num
  · refine le_of_pow_le_pow_left₀ (n := 4) (by norm_num) (by norm_num) (le_trans h2 ?_)
    norm_num

/-- A part of a table of ranges whose slopes follow a power law. -/
theorem table_part (y : List ℝ) (m n : ℕ) (b κ : ℝ) (h : ∀ k < n, κ * b ^ k ≤ y.getD (m + k + 1) 0 - y.getD (m + k) 0) :
    y.getD m 0 + κ * ∑ k ∈ Finset.range n, b ^ k ≤ y.getD (m + n) 0 := by
  induction n with
  | zero => simp
  | succ n ih =>
    rw [Finset.sum_range_succ, mul_add]
    have h1 := ih fun k hk => h k (by omega)
    have h2 := h n (by omega)
    rw [show m + (n + 1) = m + n + 1 by omega]
    linarith

/-- The slope of the interpolant at the first point, for steps of 5 % up to 24 keV/u and of 37 % above. -/
theorem first_slope_five (jk : Junk ℝ) (hjk : SmallJunk jk) (ci : Bool) (y : List ℝ) (ty : Tame y)
    (st : ∀ k < 82, |meanSlope y (k + 1) - meanSlope y k| ≤ 0.05 * meanSlope y k) :
    ∃ bs, Spline.new jk (energy_table.grid ci) y = .ok (ofB (energy_table.grid ci) y bs) ∧
      |(pieces (energy_table.grid ci) y bs).c 0 - meanSlope y 0| ≤ 0.04 * meanSlope y 0 := by
  have s0 := ty.pos 0 (by norm_num)
  have grow1 : ∀ k < 83, meanSlope y k ≤ 1.05 ^ k * meanSlope y 0 := by
    intro k
    induction k with
    | zero => intro _; simp
    | succ k ih =>
      intro hk
      have h1 := (abs_le.mp (st k (by omega))).2
      have h2 := ih (by omega)
      have h3 : meanSlope y (k + 1) ≤ 1.05 * meanSlope y k := by norm_num at h1 ⊢; linarith
      calc meanSlope y (k + 1) ≤ 1.05 * meanSlope y k := h3
        _ ≤ 1.05 * (1.05 ^ k * meanSlope y 0) := mul_le_mul_of_nonneg_left h2 (by norm_num)
        _ = _ := by ring
  obtain ⟨bs, hnew, hc0, -⟩ := slopes_local jk hjk ci y ty.length (fun i => 0.05 * meanSlope y 0 * 1.34 ^ i)
    (fun i _ => by positivity) (fun i hi => by
      rcases Nat.lt_or_ge i 82 with h | h
      · refine (st i h).trans ?_
        have := grow1 i (by omega)
        have h2 : (1.05 : ℝ) ^ i ≤ 1.34 ^ i := pow_le_pow_left₀ (by norm_num) (by norm_num) i
        have h3 := mul_le_mul_of_nonneg_right h2 s0.le
        have := this.trans h3
        norm_num at this ⊢
        linarith
      · have h1 := ty.near i (by omega)
        have p1 := ty.pos i (by omega)
        have p2 := ty.pos (i + 1) (by omega)
        have h2 : |meanSlope y (i + 1) - meanSlope y i| ≤ 0.37 * meanSlope y i := by
          rw [abs_le]
          norm_num at h1 ⊢
          constructor <;> linarith
        refine h2.trans ?_
        have h3 : ∀ j, meanSlope y 82 * 1.37 ^ j ≥ 0 := fun j => by have := ty.pos 82 (by norm_num); positivity
        have h4 : ∀ j, 82 + j < 599 → meanSlope y (82 + j) ≤ 1.37 ^ j * meanSlope y 82 := by
          intro j
          induction j with
          | zero => intro _; simp
          | succ j ih =>
            intro hj
            have k1 := (ty.near (82 + j) (by omega)).2
            have k2 := ih (by omega)
            calc meanSlope y (82 + (j + 1)) ≤ 1.37 * meanSlope y (82 + j) := k1
              _ ≤ 1.37 * (1.37 ^ j * meanSlope y 82) := mul_le_mul_of_nonneg_left k2 (by norm_num)
              _ = _ := by ring
        have h5 := h4 (i - 82) (by omega)
        rw [show 82 + (i - 82) = i by omega] at h5
        have h6 := grow1 82 (by norm_num)
        have h7 : (1.37 : ℝ) ^ (i - 82) * 1.05 ^ 82 * 0.37 ≤ 0.05 * 1.34 ^ i := by
          obtain ⟨j, rfl⟩ : ∃ j, i = 82 + j := ⟨i - 82, by omega⟩
          rw [show 82 + j - 82 = j by omega, pow_add]
          have m1 : (1.37 : ℝ) ^ j ≤ (1.0224 : ℝ) ^ j * 1.34 ^ j := by
            rw [← mul_pow]; exact pow_le_pow_left₀ (by norm_num) (by norm_num) j
          have m2 : (1.0224 : ℝ) ^ j ≤ 1.0224 ^ 516 := pow_le_pow_right₀ (by norm_num) (by omega)
          have m3 : (1.0224 : ℝ) ^ 516 * 1.05 ^ 82 * 0.37 ≤ 0.05 * 1.34 ^ 82 := by
            have e1 : (1.0224 : ℝ) ^ 516 ≤ 1.1422 ^ 86 := by
              rw [show 516 = 6 * 86 by norm_num, pow_mul]
              exact pow_le_pow_left₀ (by norm_num) (by norm_num) 86
            have e2 : (1.1422 : ℝ) ^ 86 * (1.05 ^ 82 * 0.37) ≤ 0.05 * 1.34 ^ 82 := by norm_num
            rw [mul_assoc]
            exact (mul_le_mul_of_nonneg_right e1 (by positivity)).trans e2
          have m4 : (0 : ℝ) < 1.34 ^ j := by positivity
          calc (1.37 : ℝ) ^ j * 1.05 ^ 82 * 0.37 ≤ (1.0224 : ℝ) ^ 516 * 1.34 ^ j * 1.05 ^ 82 * 0.37 := by
                gcongr
                exact m1.trans (mul_le_mul_of_nonneg_right m2 m4.le)
            _ = ((1.0224 : ℝ) ^ 516 * 1.05 ^ 82 * 0.37) * 1.34 ^ j := by ring
            _ ≤ (0.05 * 1.34 ^ 82) * 1.34 ^ j := mul_le_mul_of_nonneg_right m3 m4.le
            _ = _ := by ring
        calc 0.37 * meanSlope y i ≤ 0.37 * (1.37 ^ (i - 82) * (1.05 ^ 82 * meanSlope y 0)) := by
              refine mul_le_mul_of_nonneg_left (h5.trans ?_) (by norm_num)
              exact mul_le_mul_of_nonneg_left h6 (by positivity)
          _ = (1.37 ^ (i - 82) * 1.05 ^ 82 * 0.37) * meanSlope y 0 := by ring
          _ ≤ (0.05 * 1.34 ^ i) * meanSlope y 0 := mul_le_mul_of_nonneg_right h7 s0.le
          _ = _ := by ring) (fun i _ => by
      have : 0 < meanSlope y 0 * 1.34 ^ i := by positivity
      rw [pow_succ]
      constructor
      · refine le_of_sub_nonneg ?_
        have e : 1.35 * (0.05 * meanSlope y 0 * (1.34 ^ i * 1.34)) - 0.05 * meanSlope y 0 * 1.34 ^ i =
          (1.35 * 1.34 - 1) * 0.05 * (meanSlope y 0 * 1.34 ^ i) := by ring
        rw [e]; exact mul_nonneg (by norm_num) this.le
      · refine le_of_sub_nonneg ?_
        have e : 1.35 * (0.05 * meanSlope y 0 * 1.34 ^ i) - 0.05 * meanSlope y 0 * (1.34 ^ i * 1.34) =
          0.01 * 0.05 * (meanSlope y 0 * 1.34 ^ i) := by ring
        rw [e]; exact mul_nonneg (by norm_num) this.le)
  refine ⟨bs, hnew, ?_⟩
  have e : (pieces (energy_table.grid ci) y bs).slope (energy_table.grid ci).val 0 ((energy_table : EnergyTable ℝ).val 0) =
      (pieces (energy_table.grid ci) y bs).c 0 := by
    have : (energy_table.grid ci : Grid ℝ).val 0 = (energy_table : EnergyTable ℝ).val 0 := rfl
    simp only [Cubics.slope, this, sub_self]; norm_num
  rw [e] at hc0
  refine hc0.trans (le_of_eq ?_)
  rw [pow_zero]; ring

/-- A step of the table in terms of the mean slope. -/
theorem slope_step (y : List ℝ) (k : ℕ) :
    meanSlope y k * ((gridRatio - 1) * (gridRatio ^ k * (energy_table : EnergyTable ℝ).val 0)) = y.getD (k + 1) 0 - y.getD k 0 := by
  have g0 : 1 < gridRatio := by have := gridRatio_sharp.1; norm_num at this; linarith
  unfold meanSlope
  rw [grid_geometric k, ← grid_pow k]
  have : (energy_table : EnergyTable ℝ).val k ≠ 0 := (EnergyTable.val_pos _ k).ne'
  have e : gridRatio * (energy_table : EnergyTable ℝ).val k - (energy_table : EnergyTable ℝ).val k =
    (gridRatio - 1) * (energy_table : EnergyTable ℝ).val k := by ring
  rw [e, div_mul_cancel₀]
  exact mul_ne_zero (by linarith) ‹_›

/-- The ranges at the points 82 and 83 of a table whose slopes fall like the power -0.25 of the energy. -/
theorem quarter_low (y : List ℝ) (y0 : y.getD 0 0 = 0) (κ : ℝ) (κ0 : 0 < κ)
    (lo1 : ∀ k < 18, κ * ((gridRatio ^ (0.25 : ℝ)) ^ (k + 1))⁻¹ ≤ 1.216 * meanSlope y k)
    (lo2 : ∀ k < 83, 18 ≤ k → κ * ((gridRatio ^ (0.25 : ℝ)) ^ (k + 1))⁻¹ ≤ 1.121 * meanSlope y k) :
    11.33 * (κ * (energy_table : EnergyTable ℝ).val 0) ≤ y.getD 82 0 := by
  set X0 := (energy_table : EnergyTable ℝ).val 0 with hX
  set a := gridRatio ^ (0.25 : ℝ) with ha
  have hg := gridRatio_sharp
  have hab := gridRatio_quarter
  rw [← ha] at hab
  have g0 : 1 < gridRatio := by have := hg.1; norm_num at this; linarith
  have g1 : 0 < gridRatio - 1 := by linarith
  have a0 : 1 < a := by have := hab.1; norm_num at this; linarith
  have X0p : 0 < X0 := EnergyTable.val_pos _ 0
  have κX : 0 < κ * X0 := mul_pos κ0 X0p
  have hb1 : (1.029248 : ℝ) ≤ gridRatio / a := by
    rw [le_div_iff₀ (by linarith)]
    have := hg.1; have := hab.2
    norm_num at *; linarith
  have key : ∀ k (c : ℝ), 0 < c → κ * (a ^ (k + 1))⁻¹ ≤ c * meanSlope y k →
      κ * X0 * (gridRatio - 1) / (c * a) * (gridRatio / a) ^ k ≤ y.getD (k + 1) 0 - y.getD k 0 := by
    intro k c c0 h
    rw [← slope_step y k]
    have hf : 0 < (gridRatio - 1) * (gridRatio ^ k * X0) := mul_pos g1 (mul_pos (pow_pos (by linarith) k) X0p)
    have h2 := mul_le_mul_of_nonneg_right h hf.le
    have ak : a ^ k ≠ 0 := by positivity
    have a1 : a ≠ 0 := by positivity
    have e : κ * X0 * (gridRatio - 1) / (c * a) * (gridRatio / a) ^ k =
        κ * (a ^ (k + 1))⁻¹ * ((gridRatio - 1) * (gridRatio ^ k * X0)) / c := by
      rw [div_pow, pow_succ]; field_simp
    rw [e, div_le_iff₀ c0]
    linarith
  have h1 := table_part y 0 18 (gridRatio / a) (κ * X0 * (gridRatio - 1) / (1.216 * a)) fun k hk => by
    simpa using key k 1.216 (by norm_num) (lo1 k hk)
  have h2 := table_part y 18 64 (gridRatio / a) (κ * X0 * (gridRatio - 1) / (1.121 * a) * (gridRatio / a) ^ 18) fun k hk => by
    have := key (18 + k) 1.121 (by norm_num) (lo2 (18 + k) (by omega) (by omega))
    rwa [pow_add, ← mul_assoc] at this
  rw [y0, zero_add, zero_add] at h1
  rw [show 18 + 64 = 82 by norm_num] at h2
  have p18 : (1.68 : ℝ) ≤ (gridRatio / a) ^ 18 := le_trans (by norm_num) (pow_le_pow_left₀ (by norm_num) hb1 18)
  have s18 : (23.25 : ℝ) ≤ ∑ k ∈ Finset.range 18, (gridRatio / a) ^ k :=
    le_trans (by norm_num) (geom_low (gridRatio / a) 1.029248 18 (by norm_num) hb1)
  have s64 : (182.1 : ℝ) ≤ ∑ k ∈ Finset.range 64, (gridRatio / a) ^ k :=
    le_trans (by norm_num) (geom_low (gridRatio / a) 1.029248 64 (by norm_num) hb1)
  generalize (∑ k ∈ Finset.range 18, (gridRatio / a) ^ k) = s at *
  generalize (∑ k ∈ Finset.range 64, (gridRatio / a) ^ k) = s' at *
  generalize (gridRatio / a) ^ 18 = q at *
  have hq : 0.039188 / 1.009657 ≤ (gridRatio - 1) / a :=
    div_le_div₀ g1.le (by have := hg.1; norm_num at *; linarith) (by linarith) hab.2
  have e1 : κ * X0 * (gridRatio - 1) / (1.216 * a) = (gridRatio - 1) / a * (κ * X0 / 1.216) := by field_simp
  have e2 : κ * X0 * (gridRatio - 1) / (1.121 * a) = (gridRatio - 1) / a * (κ * X0 / 1.121) := by field_simp
  rw [e1] at h1
  rw [e2] at h2
  generalize (gridRatio - 1) / a = r at *
  generalize κ * X0 = K at *
  have r0 : 0 < r := lt_of_lt_of_le (by norm_num) hq
  have i1 : 0.039188 / 1.009657 * (K / 1.216) * 23.25 ≤ r * (K / 1.216) * s :=
    mul_le_mul (mul_le_mul_of_nonneg_right hq (by positivity)) s18 (by norm_num) (by positivity)
  have i2 : 0.039188 / 1.009657 * (K / 1.121) * 1.68 * 182.1 ≤ r * (K / 1.121) * q * s' :=
    mul_le_mul (mul_le_mul (mul_le_mul_of_nonneg_right hq (by positivity)) p18 (by norm_num) (by positivity)) s64 (by norm_num)
      (by have : 0 < q := lt_of_lt_of_le (by norm_num) p18
          positivity)
  have fin : 11.33 * K ≤ 0.039188 / 1.009657 * (K / 1.216) * 23.25 + 0.039188 / 1.009657 * (K / 1.121) * 1.68 * 182.1 := by
    have : 0.039188 / 1.009657 * (K / 1.216) * 23.25 + 0.039188 / 1.009657 * (K / 1.121) * 1.68 * 182.1 =
      (0.039188 / 1.009657 / 1.216 * 23.25 + 0.039188 / 1.009657 / 1.121 * 1.68 * 182.1) * K := by ring
    rw [this]
    exact mul_le_mul_of_nonneg_right (by norm_num) κX.le
  linarith

theorem quarter_high (y : List ℝ) (y0 : y.getD 0 0 = 0) (κ : ℝ) (κ0 : 0 < κ)
    (hi : ∀ k < 83, meanSlope y k ≤ κ * ((gridRatio ^ (0.25 : ℝ)) ^ k)⁻¹) :
    y.getD 83 0 ≤ 13.34 * (κ * (energy_table : EnergyTable ℝ).val 0) := by
  set X0 := (energy_table : EnergyTable ℝ).val 0 with hX
  set a := gridRatio ^ (0.25 : ℝ) with ha
  have hg := gridRatio_sharp
  have hab := gridRatio_quarter
  rw [← ha] at hab
  have g0 : 1 < gridRatio := by have := hg.1; norm_num at this; linarith
  have a0 : 1 < a := by have := hab.1; norm_num at this; linarith
  have X0p : 0 < X0 := EnergyTable.val_pos _ 0
  have κX : 0 < κ * X0 := mul_pos κ0 X0p
  have hb1 : gridRatio / a ≤ 1.029253 := by
    rw [div_le_iff₀ (by linarith)]
    have := hg.2; have := hab.1
    norm_num at *; linarith
  have h1 := (table_sum y y0 83 (gridRatio / a) (κ * X0 * (gridRatio - 1))).2 fun k hk => by
    rw [← slope_step y k]
    have := hi k (by omega)
    have hf : 0 < (gridRatio - 1) * (gridRatio ^ k * X0) :=
      mul_pos (by linarith) (mul_pos (pow_pos (by linarith) k) X0p)
    have h2 := mul_le_mul_of_nonneg_right this hf.le
    refine h2.trans (le_of_eq ?_)
    rw [div_pow]; field_simp
  have h2 := geom_high (gridRatio / a) 1.029253 83 (by norm_num) (by positivity) hb1
  have h3 : (1.029253 ^ 83 - 1) / (1.029253 - 1) ≤ (340.1 : ℝ) := by norm_num
  have h4 : y.getD 83 0 ≤ κ * X0 * (gridRatio - 1) * 340.1 := by
    refine h1.trans (mul_le_mul_of_nonneg_left (h2.trans h3) ?_)
    have : 0 < gridRatio - 1 := by linarith
    positivity
  refine h4.trans ?_
  have h5 : (gridRatio - 1) * 340.1 ≤ 13.34 := by
    have := hg.2
    norm_num at *; linarith
  nlinarith

/-- The last numbers: all in units of the range. -/
theorem negative_numbers (x0 T R S c0 D κ a82 a83 : ℝ) (x0p : 0 < x0)
    (hκ : κ * x0 ≤ 1.25e-6) (κ0 : 0 < κ) (Dp : 0 < D) (S0 : 0 < S)
    (hR1 : 11.33 * (κ * x0) ≤ R) (hR2 : R ≤ 13.34 * (κ * x0)) (A82 : 2.198 ≤ a82) (A83 : a83 ≤ 2.221)
    (A83' : 0 < a83) (hT1 : 23.38 * x0 ≤ T) (hT2 : T ≤ 24.31 * x0) (hc : |c0 - S| ≤ 0.04 * S) (shi : S ≤ κ)
    (dlo : κ * a83⁻¹ ≤ 1.121 * D) (dhi : D ≤ κ * a82⁻¹) :
    (T + x0 / 2) * D < R ∧ |R - -(c0 * (x0 + x0 / 2)) - (T + x0 / 2) * D| < 1e-5 := by
  have d1 : D * 2.198 ≤ κ := by
    have := mul_le_mul_of_nonneg_right dhi (by norm_num at A82; linarith : 0 ≤ a82)
    rw [mul_assoc, inv_mul_cancel₀ (by norm_num at A82; linarith), mul_one] at this
    exact le_trans (mul_le_mul_of_nonneg_left A82 Dp.le) this
  have d2 : κ ≤ 1.121 * D * 2.221 := by
    have h := mul_le_mul_of_nonneg_right dlo A83'.le
    rw [mul_assoc, inv_mul_cancel₀ A83'.ne', mul_one] at h
    refine h.trans ?_
    exact mul_le_mul_of_nonneg_left A83 (by positivity)
  have c1 := (abs_le.mp hc).1
  have c2 := (abs_le.mp hc).2
  have c3 : 0 ≤ c0 := by norm_num at c1 ⊢; linarith
  have c4 : c0 * (x0 + x0 / 2) ≤ 1.56 * (κ * x0) := by
    have : c0 * (x0 + x0 / 2) ≤ (1.04 * κ) * (x0 + x0 / 2) := mul_le_mul_of_nonneg_right (by norm_num at c2 ⊢; linarith) (by positivity)
    refine this.trans (le_of_eq ?_)
    ring
  have c5 : 0 ≤ c0 * (x0 + x0 / 2) := by positivity
  have L1 : (T + x0 / 2) * D ≤ 11.289 * (κ * x0) := by
    have h1 : (T + x0 / 2) * D ≤ 24.81 * x0 * D := mul_le_mul_of_nonneg_right (by norm_num at *; linarith) Dp.le
    have h2 := mul_le_mul_of_nonneg_left d1 x0p.le
    norm_num at *
    nlinarith
  have L2 : 9.39 * (κ * x0) ≤ (T + x0 / 2) * D := by
    have h1 : 23.88 * x0 * D ≤ (T + x0 / 2) * D := mul_le_mul_of_nonneg_right (by norm_num at *; linarith) Dp.le
    have h2 := mul_le_mul_of_nonneg_left d2 x0p.le
    norm_num at *
    nlinarith
  have κx : 0 < κ * x0 := by positivity
  generalize (T + x0 / 2) * D = L at *
  generalize c0 * (x0 + x0 / 2) = C at *
  generalize κ * x0 = K at *
  refine ⟨by norm_num at *; linarith, ?_⟩
  rw [abs_lt]
  norm_num at *
  constructor <;> linarith

set_option maxHeartbeats 1000000 in
/-- A table whose slopes fall like the power -0.25 of the energy up to 24 keV/u (within 22 % below 2 keV/u and 12 % above), in steps
of at most 5 %: the search returns a negative energy. -/
theorem search_negative (jk : Junk ℝ) (hjk : SmallJunk jk) (ci debug : Bool) (y : List ℝ) (ty : Tame y) (y0 : y.getD 0 0 = 0) (κ : ℝ) (κ0 : 0 < κ)
    (hκ : κ * (energy_table : EnergyTable ℝ).val 0 ≤ 1.25e-6)
    (lo1 : ∀ k < 18, κ * ((gridRatio ^ (0.25 : ℝ)) ^ (k + 1))⁻¹ ≤ 1.216 * meanSlope y k)
    (lo2 : ∀ k < 83, 18 ≤ k → κ * ((gridRatio ^ (0.25 : ℝ)) ^ (k + 1))⁻¹ ≤ 1.121 * meanSlope y k)
    (hi : ∀ k < 83, meanSlope y k ≤ κ * ((gridRatio ^ (0.25 : ℝ)) ^ k)⁻¹)
    (st : ∀ k < 82, |meanSlope y (k + 1) - meanSlope y k| ≤ 0.05 * meanSlope y k) :
    ∃ s, Spline.new jk (energy_table.grid ci) y = .ok s ∧ ∃ T th R E, 0.023 ≤ T ∧ T ≤ 0.025 ∧ 0 < th ∧
      s.evaluate T = .ok R ∧ th < R ∧ E ≤ -4e-4 ∧ energy_out_spline debug T th s = .ok E := by
  have hb := energy_table_bounds
  set X := (energy_table : EnergyTable ℝ).val with hX
  set a := gridRatio ^ (0.25 : ℝ) with ha
  have hg := gridRatio_sharp
  have hab := gridRatio_quarter
  rw [← ha] at hab
  have g0 : 1 < gridRatio := by have := hg.1; norm_num at this; linarith
  have a0 : 1 < a := by have := hab.1; norm_num at this; linarith
  have X0 : 0 < X 0 := EnergyTable.val_pos _ 0
  have X0b := energy_table_range.2.1
  rw [← hX] at X0b
  have X0l : 0.000999999 ≤ X 0 := by have := (abs_le.mp X0b).1; norm_num at this ⊢; linarith
  have X0h : X 0 ≤ 0.001000001 := by have := (abs_le.mp X0b).2; norm_num at this ⊢; linarith
  have hpow : ∀ k, X k = gridRatio ^ k * X 0 := grid_pow
  have hgeo : ∀ k, X (k + 1) = gridRatio * X k := grid_geometric
  obtain ⟨bs, hnew, hc0⟩ := first_slope_five jk hjk ci y ty st
  obtain ⟨s', hs', -, hinc⟩ := interpolant_increasing jk hjk ci y ty
  rw [hnew] at hs'
  cases hs'
  refine ⟨_, hnew, ?_⟩
  set P := pieces (energy_table.grid ci) y bs with hP
  have hgr := library_table_ordered ci
  have Xpos : ∀ k, 0 < X k := EnergyTable.val_pos _
  have gap : ∀ k, X (k + 1) - X k = (gridRatio - 1) * X k := fun k => by rw [hgeo k]; ring
  have pg1 : (1.039188 : ℝ) ^ 82 ≤ gridRatio ^ 82 := pow_le_pow_left₀ (by norm_num) hg.1 82
  have pg2 : gridRatio ^ 83 ≤ (1.03919 : ℝ) ^ 83 := pow_le_pow_left₀ (by linarith) hg.2 83
  have pa2 : a ^ 83 ≤ (1.009657 : ℝ) ^ 83 := pow_le_pow_left₀ (by linarith) hab.2 83
  have pa3 : (1.009656 : ℝ) ^ 82 ≤ a ^ 82 := pow_le_pow_left₀ (by norm_num) hab.1 82
  have G82 : (23.38 : ℝ) ≤ gridRatio ^ 82 := le_trans (by norm_num) pg1
  have G83 : gridRatio ^ 83 ≤ 24.31 := le_trans pg2 (by norm_num)
  have A82 : (2.198 : ℝ) ≤ a ^ 82 := le_trans (by norm_num) pa3
  have A83 : a ^ 83 ≤ 2.221 := le_trans pa2 (by norm_num)
  clear pg1 pg2 pa2 pa3
  have X82 : X 82 = gridRatio ^ 82 * X 0 := hpow 82
  have X83 : X 83 = gridRatio ^ 83 * X 0 := hpow 83
  have x82 : 0.02337 ≤ X 82 := by rw [X82]; norm_num at G82 X0l ⊢; nlinarith
  have x83 : X 83 ≤ 0.02432 := by rw [X83]; norm_num at G83 X0h ⊢; nlinarith
  have h82 : 0.0009 ≤ X 83 - X 82 := by
    have := gap 82
    have := hg.1
    rw [gap 82]; norm_num at *; nlinarith
  have h83 : 0.0009 ≤ X 84 - X 83 := by
    have := hg.1
    rw [gap 83]; norm_num at *; nlinarith
  obtain ⟨t, t1, t2, te⟩ := quadratic_mean (P.a 82) (P.b 82) (P.c 82) (X 83 - X 82) (by norm_num at h82; linarith)
  have D : P.slope X 82 (X 82 + t) = meanSlope y 82 := by
    have j1 : P.at X 82 (X 83) = y.getD 83 0 := pieces_join hgr y bs 82 (by show 83 < 600; norm_num)
    have j2 : P.at X 82 (X 82) = y.getD 82 0 := pieces_at_knot (g := energy_table.grid ci) y bs 82
    have e : P.slope X 82 (X 82 + t) = 3 * P.a 82 * t ^ 2 + 2 * P.b 82 * t + P.c 82 := by simp [Cubics.slope]
    rw [e, te]
    have hne : X 83 - X 82 ≠ 0 := by norm_num at h82; linarith
    show _ = (y.getD 83 0 - y.getD 82 0) / (X 83 - X 82)
    rw [eq_div_iff hne, ← j1, ← j2]
    simp only [Cubics.at]
    ring
  have sm : (10 * 2⁻¹ ^ 52 : ℝ) ≤ 1e-14 := by norm_num
  obtain ⟨ev, de⟩ := interpolant_inside ci y bs ty.length 82 (by norm_num) (X 82 + t) (by norm_num at t1; linarith)
    (by show X 82 + t < X 83 - 10 * 2⁻¹ ^ 52; norm_num at t2 h82 sm ⊢; linarith)
  rw [← hP, ← hX] at ev de
  rw [D] at de
  have ev82 := (interpolant_inside ci y bs ty.length 82 (by norm_num) (X 82) le_rfl
    (by show X 82 < X 83 - 10 * 2⁻¹ ^ 52; norm_num at h82 sm ⊢; linarith)).1
  have ev83 := (interpolant_inside ci y bs ty.length 83 (by norm_num) (X 83) le_rfl
    (by show X 83 < X 84 - 10 * 2⁻¹ ^ 52; norm_num at h83 sm ⊢; linarith)).1
  have k82 : P.at X 82 (X 82) = y.getD 82 0 := pieces_at_knot (g := energy_table.grid ci) y bs 82
  have k83 : P.at X 83 (X 83) = y.getD 83 0 := pieces_at_knot (g := energy_table.grid ci) y bs 83
  rw [← hP, ← hX, k82] at ev82
  rw [← hP, ← hX, k83] at ev83
  have R1 := hinc _ _ _ _ ev82 ev (Or.inl (by norm_num at t1 h82 ⊢; linarith))
  have R2 := hinc _ _ _ _ ev ev83 (Or.inl (by norm_num at t2 h82 ⊢; linarith))
  set T := X 82 + t with hT
  set R := P.at X 82 T with hR
  have tl := quarter_low y y0 κ κ0 lo1 lo2
  have th' := quarter_high y y0 κ κ0 hi
  have Dp := ty.pos 82 (by norm_num)
  obtain ⟨n1, n2⟩ := negative_numbers (X 0) T R (meanSlope y 0) (P.c 0) (meanSlope y 82) κ (a ^ 82) (a ^ 83) X0 hκ κ0
    Dp (ty.pos 0 (by norm_num)) (tl.trans R1.le) (R2.le.trans th') A82 A83 (by positivity)
    (by rw [hT, X82]; norm_num at t1 G82 h82 ⊢; nlinarith) (by
      have : T ≤ X 83 := by rw [hT]; norm_num at t2 h82 ⊢; linarith
      rw [X83] at this
      exact this.trans (mul_le_mul_of_nonneg_right G83 X0.le)) hc0
    (by simpa using hi 0 (by norm_num)) (lo2 82 (by norm_num) (by norm_num)) (hi 82 (by norm_num))
  have low : (ofB (energy_table.grid ci) y bs).evaluate (-(X 0 / 2)) = .ok (-(P.c 0 * (X 0 + X 0 / 2))) := by
    rcases interpolant_value ci y bs ty.length (-(X 0 / 2)) with ⟨-, h, -⟩ | ⟨h, -⟩
    · rw [h, y0, ← hP, ← hX]
      refine congrArg Except.ok ?_
      ring
    · rw [← hX] at h; linarith
  have T0 : 0.023 ≤ T := by rw [hT]; norm_num at *; linarith
  refine ⟨T, (T + X 0 / 2) * meanSlope y 82, R, -(X 0 / 2), T0, by rw [hT]; norm_num at *; linarith, ?_, ev, n1, ?_, ?_⟩
  · refine mul_pos ?_ Dp
    norm_num at T0
    linarith
  · norm_num at X0l ⊢; linarith
  · refine energy_out_spline_first debug _ T R (meanSlope y 82) _ _ _ ev de n1 ?_ low n2
    field_simp
    ring

end Catima
