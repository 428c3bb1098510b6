import Verif.Lemmas.LocalSlope

/-!
# Helper lemmas: when the search of the outgoing energy leaves the table

The search starts with the slope of the range at the incoming energy.  For a stopping power that grows like a power of the
energy the first estimate lies below the table, the second comes back with the old slope, and the third is below the table
again.
-/

namespace Catima
open Spline

/-- A quadratic takes its mean value well inside an interval. -/
theorem quadratic_mean (A B C h : ℝ) (h0 : 0 < h) :
    ∃ t, 0.2 * h ≤ t ∧ t ≤ 0.8 * h ∧ 3 * A * t ^ 2 + 2 * B * t + C = A * h ^ 2 + B * h + C := by
  set f : ℝ → ℝ := fun t => 3 * A * t ^ 2 + 2 * B * t - A * h ^ 2 - B * h with hf
  have s3 : √3 ^ 2 = (3 : ℝ) := Real.sq_sqrt (by norm_num)
  have s0 : 0 < √(3 : ℝ) := Real.sqrt_pos.mpr (by norm_num)
  set r : ℝ := √3 / 6 with hr
  have r2 : r ^ 2 = 1 / 12 := by rw [hr, div_pow, s3]; norm_num
  have r0 : 0 < r := by positivity
  have r1 : r ≤ 0.3 := by
    by_contra hc
    push Not at hc
    norm_num at hc
    nlinarith
  have hsum : f (h * (1 / 2 - r)) + f (h * (1 / 2 + r)) = 0 := by
    have : f (h * (1 / 2 - r)) + f (h * (1 / 2 + r)) = A * h ^ 2 * (6 * r ^ 2 - 1 / 2) := by simp only [hf]; ring
    rw [this, r2]; ring
  have hle : h * (1 / 2 - r) ≤ h * (1 / 2 + r) := by nlinarith
  have hcont : ContinuousOn f (Set.uIcc (h * (1 / 2 - r)) (h * (1 / 2 + r))) := by
    apply Continuous.continuousOn
    simp only [hf]
    fun_prop
  have hmem : (0 : ℝ) ∈ Set.uIcc (f (h * (1 / 2 - r))) (f (h * (1 / 2 + r))) := by
    rw [Set.mem_uIcc]
    rcases le_total (f (h * (1 / 2 - r))) 0 with hc | hc
    · left; constructor <;> linarith
    · right; constructor <;> linarith
  obtain ⟨t, ht, e⟩ := intermediate_value_uIcc hcont hmem
  rw [Set.uIcc_of_le hle] at ht
  refine ⟨t, ?_, ?_, ?_⟩
  · norm_num at r1 ⊢; nlinarith [ht.1]
  · norm_num at r1 ⊢; nlinarith [ht.2]
  · simp only [hf] at e; linarith

/-- The numbers of the search: with a slope below the table `c0`, the slope `D` at the energy `T` of range `R`. -/
theorem overshoot (X0 T R c0 D : ℝ) (hD : 0 < D) (hq : 2 * D < c0) (hL : R < 2 * ((T - X0) * D)) :
    ∃ th u, 0 < u ∧ T - th * (1 / D) = X0 - u ∧ T = X0 - u + (R + c0 * u - th) * (1 / D) ∧
      u * c0 = 2 * ((T - X0) * D) - R + 2 * (D * u) ∧ th = (T - X0) * D + D * u := by
  set L := (T - X0) * D with hLdef
  refine ⟨L + D * ((2 * L - R) / (c0 - 2 * D)), (2 * L - R) / (c0 - 2 * D), div_pos (by linarith) (by linarith), ?_, ?_, ?_, rfl⟩
  · rw [hLdef]; field_simp; ring
  · have hne : c0 - 2 * D ≠ 0 := by linarith
    have : c0 * ((2 * L - R) / (c0 - 2 * D)) - D * ((2 * L - R) / (c0 - 2 * D)) = 2 * L - R + D * ((2 * L - R) / (c0 - 2 * D)) := by
      field_simp; ring
    set u := (2 * L - R) / (c0 - 2 * D)
    rw [mul_one_div, eq_comm, ← eq_sub_iff_add_eq', div_eq_iff hD.ne']
    rw [hLdef] at this ⊢
    linarith
  · have hne : c0 - 2 * D ≠ 0 := by linarith
    field_simp; ring

theorem energy_out_spline_stops (debug : Bool) (s : Spline ℝ) (X0 T R c0 D th u : ℝ)
    (hT : s.evaluate T = .ok R) (hTd : s.deriv T = .ok D) (hlt : th < R) (hth : 1e-5 ≤ th)
    (e1 : T - th * (1 / D) = X0 - u) (e2 : T = X0 - u + (R + c0 * u - th) * (1 / D))
    (hlow : s.evaluate (X0 - u) = .ok (-(c0 * u))) (hr : 1e-5 ≤ R + c0 * u - th) (hT0 : 1e-3 ≤ T) (hu : X0 - u < 1e-3) :
    energy_out_spline debug T th s = .ok 0 := by
  have h1 : (1.0 : ℝ) = 1 := by norm_num
  unfold energy_out_spline
  rw [hT, hTd]
  simp only [bind_ok]
  rw [if_neg (by rw [le_real]; linarith), h1, e1]
  unfold energyOutLoop
  rw [hlow]
  simp only [bind_ok]
  have a1 : R - -(c0 * u) - th = R + c0 * u - th := by ring
  rw [if_neg (by
    rw [lt_real, fabs_real, a1, abs_of_nonneg (by norm_num at hr; linarith)]
    norm_num [Eout_th_epsilon] at hr ⊢; linarith)]
  have a2 : X0 - u - -(R - -(c0 * u) - th) * (1 / D) = T := by rw [a1]; linarith
  rw [a2, if_neg (by rw [lt_real]; norm_num [Ezero] at hT0 ⊢; linarith), hTd]
  simp only [bind_ok]
  rw [if_neg (by decide), h1]
  unfold energyOutLoop
  rw [hT]
  simp only [bind_ok]
  have a3 : R - R - th = -th := by ring
  rw [a3, if_neg (by
    rw [lt_real, fabs_real, abs_neg, abs_of_nonneg (by norm_num at hth; linarith)]
    norm_num [Eout_th_epsilon] at hth ⊢; linarith)]
  have a4 : T - - -th * (1 / D) = X0 - u := by rw [neg_neg]; exact e1
  rw [a4, if_pos (by rw [lt_real]; norm_num [Ezero] at hu ⊢; linarith)]
  norm_num [pure, Except.pure]

theorem gridRatio_sharp : 1.039188 ≤ gridRatio ∧ gridRatio ≤ 1.03919 := by
  have h0 : (LN10 : ℝ) * (10 / 599) = 23.0258509299404568401799145468 / 599 := by norm_num [LN10]
  have h := Real.exp_bound' (x := 23.0258509299404568401799145468 / 599) (by norm_num) (by norm_num) (n := 5) (by norm_num)
  have h' := Real.sum_le_exp_of_nonneg (x := 23.0258509299404568401799145468 / 599) (by norm_num) 5
  simp only [Finset.sum_range_succ, Finset.sum_range_zero, Nat.factorial] at h h'
  unfold gridRatio
  rw [h0]
  norm_num at h h' ⊢
  constructor <;> linarith

theorem grid_pow (k : ℕ) : (energy_table : EnergyTable ℝ).val k = gridRatio ^ k * (energy_table : EnergyTable ℝ).val 0 := by
  induction k with
  | zero => simp
  | succ k ih => rw [grid_geometric, ih]; ring

/-- `gridRatio` to the power 0.45. -/
theorem gridRatio_rpow : 1.01744 ≤ gridRatio ^ (0.45 : ℝ) ∧ gridRatio ^ (0.45 : ℝ) ≤ 1.01746 := by
  have hq := gridRatio_sharp
  have q0 : 0 < gridRatio := by have := hq.1; norm_num at this; linarith
  have hp := Real.rpow_pos_of_pos q0 0.45
  have e : (gridRatio ^ (0.45 : ℝ)) ^ 20 = gridRatio ^ 9 := by
    rw [← Real.rpow_natCast, ← Real.rpow_mul q0.le, ← Real.rpow_natCast]
    norm_num
  have h1 : (1.039188 : ℝ) ^ 9 ≤ gridRatio ^ 9 := pow_le_pow_left₀ (by norm_num) hq.1 9
  have h2 : gridRatio ^ 9 ≤ (1.03919 : ℝ) ^ 9 := pow_le_pow_left₀ q0.le hq.2 9
  rw [← e] at h1 h2
  constructor
  · refine le_of_pow_le_pow_left₀ (n := 20) (by norm_num) hp.le (le_trans ?_ h1)
    norm_num
  · refine le_of_pow_le_pow_left₀ (n := 20) (by norm_num) (by norm_num) (le_trans h2 ?_)
    norm_num

/-- Values of the interpolant at a point of the table and inside an interval. -/
theorem interpolant_inside (ci : Bool) (y bs : List ℝ) (hl : y.length = 600) (k : ℕ) (hk : k < 598) (x : ℝ)
    (h0 : (energy_table : EnergyTable ℝ).val k ≤ x) (h1 : x < (energy_table : EnergyTable ℝ).val (k + 1) - 10 * 2⁻¹ ^ 52) :
    (ofB (energy_table.grid ci) y bs).evaluate x = .ok ((pieces (energy_table.grid ci) y bs).at (energy_table : EnergyTable ℝ).val k x) ∧
    (ofB (energy_table.grid ci) y bs).deriv x = .ok ((pieces (energy_table.grid ci) y bs).slope (energy_table : EnergyTable ℝ).val k x) := by
  have hb := energy_table_bounds
  have hmono : ∀ i j, i ≤ j → (energy_table : EnergyTable ℝ).val i ≤ (energy_table : EnergyTable ℝ).val j :=
    fun i j h => (EnergyTable.val_le_iff (energy_table : EnergyTable ℝ) hb.1 hb.2.1 i j).mpr h
  rcases interpolant_value ci y bs hl x with ⟨h, -⟩ | ⟨-, j, hj, j1, j2, -, -, -, e, e'⟩
  · have := hmono 0 k (by omega); linarith
  · have : j = k := by
      rcases Nat.lt_trichotomy j k with h | h | h
      · have := hmono (j + 1) k (by omega)
        have := j2 (by omega)
        linarith
      · exact h
      · have := hmono (k + 1) j (by omega)
        linarith
    rw [this] at e e'
    exact ⟨e, e'⟩

/-- Sums of a table of ranges whose slopes follow a power law. -/
theorem table_sum (y : List ℝ) (y0 : y.getD 0 0 = 0) (n : ℕ) (b κ : ℝ) :
    ((∀ k < n, κ * b ^ k ≤ y.getD (k + 1) 0 - y.getD k 0) → κ * ∑ k ∈ Finset.range n, b ^ k ≤ y.getD n 0) ∧
    ((∀ k < n, y.getD (k + 1) 0 - y.getD k 0 ≤ κ * b ^ k) → y.getD n 0 ≤ κ * ∑ k ∈ Finset.range n, b ^ k) := by
  induction n with
  | zero =>
    rw [y0]
    simp
  | succ n ih =>
    rw [Finset.sum_range_succ, mul_add]
    constructor
    · intro h
      have := ih.1 fun k hk => h k (by omega)
      have := h n (by omega)
      linarith
    · intro h
      have := ih.2 fun k hk => h k (by omega)
      have := h n (by omega)
      linarith

theorem geom_low (b c : ℝ) (n : ℕ) (hc : 1 < c) (h : c ≤ b) : (c ^ n - 1) / (c - 1) ≤ ∑ k ∈ Finset.range n, b ^ k := by
  rw [← geom_sum_eq hc.ne']
  exact Finset.sum_le_sum fun k _ => pow_le_pow_left₀ (by linarith) h k

theorem geom_high (b c : ℝ) (n : ℕ) (hc : 1 < c) (h0 : 0 ≤ b) (h : b ≤ c) : ∑ k ∈ Finset.range n, b ^ k ≤ (c ^ n - 1) / (c - 1) := by
  rw [← geom_sum_eq hc.ne']
  exact Finset.sum_le_sum fun k _ => pow_le_pow_left₀ h0 h k

/-- The slope of the interpolant at the first point, for steps of 2.6 % up to 24 keV/u and of 37 % above. -/
theorem first_slope (jk : Junk ℝ) (hjk : SmallJunk jk) (ci : Bool) (y : List ℝ) (ty : Tame y)
    (st : ∀ k < 82, |meanSlope y (k + 1) - meanSlope y k| ≤ 0.026 * meanSlope y k) :
    ∃ bs, Spline.new jk (energy_table.grid ci) y = .ok (ofB (energy_table.grid ci) y bs) ∧
      |(pieces (energy_table.grid ci) y bs).c 0 - meanSlope y 0| ≤ 0.0208 * meanSlope y 0 := by
  have s0 := ty.pos 0 (by norm_num)
  have grow1 : ∀ k < 83, meanSlope y k ≤ 1.026 ^ k * meanSlope y 0 := by
    intro k
    induction k with
    | zero => intro _; simp
    | succ k ih =>
      intro hk
      have h1 := (abs_le.mp (st k (by omega))).2
      have h2 := ih (by omega)
      have h3 : meanSlope y (k + 1) ≤ 1.026 * meanSlope y k := by norm_num at h1 ⊢; linarith
      calc meanSlope y (k + 1) ≤ 1.026 * meanSlope y k := h3
        _ ≤ 1.026 * (1.026 ^ k * meanSlope y 0) := mul_le_mul_of_nonneg_left h2 (by norm_num)
        _ = _ := by ring
  obtain ⟨bs, hnew, hc0, -⟩ := slopes_local jk hjk ci y ty.length (fun i => 0.026 * meanSlope y 0 * 1.34 ^ i)
    (fun i _ => by positivity) (fun i hi => by
      rcases Nat.lt_or_ge i 82 with h | h
      · refine (st i h).trans ?_
        have := grow1 i (by omega)
        have h2 : (1.026 : ℝ) ^ i ≤ 1.34 ^ i := pow_le_pow_left₀ (by norm_num) (by norm_num) i
        have h3 := mul_le_mul_of_nonneg_right h2 s0.le
        have := this.trans h3
        norm_num at this ⊢
        linarith
      · have h1 := ty.near i (by omega)
        have p1 := ty.pos i (by omega)
        have p2 := ty.pos (i + 1) (by omega)
        have h2 : |meanSlope y (i + 1) - meanSlope y i| ≤ 0.37 * meanSlope y i := by
          rw [abs_le]
          norm_num at h1 ⊢
          constructor <;> linarith
        refine h2.trans ?_
        have h3 : ∀ j, meanSlope y 82 * 1.37 ^ j ≥ 0 := fun j => by have := ty.pos 82 (by norm_num); positivity
        have h4 : ∀ j, 82 + j < 599 → meanSlope y (82 + j) ≤ 1.37 ^ j * meanSlope y 82 := by
          intro j
          induction j with
          | zero => intro _; simp
          | succ j ih =>
            intro hj
            have k1 := (ty.near (82 + j) (by omega)).2
            have k2 := ih (by omega)
            calc meanSlope y (82 + (j + 1)) ≤ 1.37 * meanSlope y (82 + j) := k1
              _ ≤ 1.37 * (1.37 ^ j * meanSlope y 82) := mul_le_mul_of_nonneg_left k2 (by norm_num)
              _ = _ := by ring
        have h5 := h4 (i - 82) (by omega)
        rw [show 82 + (i - 82) = i by omega] at h5
        have h6 := grow1 82 (by norm_num)
        have h7 : (1.37 : ℝ) ^ (i - 82) * 1.026 ^ 82 * 0.37 ≤ 0.026 * 1.34 ^ i := by
          obtain ⟨j, rfl⟩ : ∃ j, i = 82 + j := ⟨i - 82, by omega⟩
          rw [show 82 + j - 82 = j by omega, pow_add]
          have m1 : (1.37 : ℝ) ^ j ≤ (1.0224 : ℝ) ^ j * 1.34 ^ j := by
            rw [← mul_pow]; exact pow_le_pow_left₀ (by norm_num) (by norm_num) j
          have m2 : (1.0224 : ℝ) ^ j ≤ 1.0224 ^ 516 := pow_le_pow_right₀ (by norm_num) (by omega)
          have m3 : (1.0224 : ℝ) ^ 516 * 1.026 ^ 82 * 0.37 ≤ 0.026 * 1.34 ^ 82 := by
            have e1 : (1.0224 : ℝ) ^ 516 ≤ 1.1422 ^ 86 := by
              rw [show 516 = 6 * 86 by norm_num, pow_mul]
              exact pow_le_pow_left₀ (by norm_num) (by norm_num) 86
            have e2 : (1.1422 : ℝ) ^ 86 * (1.026 ^ 82 * 0.37) ≤ 0.026 * 1.34 ^ 82 := by norm_num
            rw [mul_assoc]
            exact (mul_le_mul_of_nonneg_right e1 (by positivity)).trans e2
          have m4 : (0 : ℝ) < 1.34 ^ j := by positivity
          calc (1.37 : ℝ) ^ j * 1.026 ^ 82 * 0.37 ≤ (1.0224 : ℝ) ^ 516 * 1.34 ^ j * 1.026 ^ 82 * 0.37 := by
                gcongr
                exact m1.trans (mul_le_mul_of_nonneg_right m2 m4.le)
            _ = ((1.0224 : ℝ) ^ 516 * 1.026 ^ 82 * 0.37) * 1.34 ^ j := by ring
            _ ≤ (0.026 * 1.34 ^ 82) * 1.34 ^ j := mul_le_mul_of_nonneg_right m3 m4.le
            _ = _ := by ring
        calc 0.37 * meanSlope y i ≤ 0.37 * (1.37 ^ (i - 82) * (1.026 ^ 82 * meanSlope y 0)) := by
              refine mul_le_mul_of_nonneg_left (h5.trans ?_) (by norm_num)
              exact mul_le_mul_of_nonneg_left h6 (by positivity)
          _ = (1.37 ^ (i - 82) * 1.026 ^ 82 * 0.37) * meanSlope y 0 := by ring
          _ ≤ (0.026 * 1.34 ^ i) * meanSlope y 0 := mul_le_mul_of_nonneg_right h7 s0.le
          _ = _ := by ring) (fun i _ => by
      have : 0 < meanSlope y 0 * 1.34 ^ i := by positivity
      rw [pow_succ]
      constructor
      · refine le_of_sub_nonneg ?_
        have e : 1.35 * (0.026 * meanSlope y 0 * (1.34 ^ i * 1.34)) - 0.026 * meanSlope y 0 * 1.34 ^ i =
          (1.35 * 1.34 - 1) * 0.026 * (meanSlope y 0 * 1.34 ^ i) := by ring
        rw [e]; exact mul_nonneg (by norm_num) this.le
      · refine le_of_sub_nonneg ?_
        have e : 1.35 * (0.026 * meanSlope y 0 * 1.34 ^ i) - 0.026 * meanSlope y 0 * (1.34 ^ i * 1.34) =
          0.01 * 0.026 * (meanSlope y 0 * 1.34 ^ i) := by ring
        rw [e]; exact mul_nonneg (by norm_num) this.le)
  refine ⟨bs, hnew, ?_⟩
  have e : (pieces (energy_table.grid ci) y bs).slope (energy_table.grid ci).val 0 ((energy_table : EnergyTable ℝ).val 0) =
      (pieces (energy_table.grid ci) y bs).c 0 := by
    have : (energy_table.grid ci : Grid ℝ).val 0 = (energy_table : EnergyTable ℝ).val 0 := rfl
    simp only [Cubics.slope, this, sub_self]; norm_num
  rw [e] at hc0
  refine hc0.trans (le_of_eq ?_)
  rw [pow_zero]; ring

/-- The ranges at the points 82 and 83 of a table whose slopes fall like the power -0.45 of the energy. -/
theorem table_low (y : List ℝ) (y0 : y.getD 0 0 = 0) (κ : ℝ) (κ0 : 0 < κ)
    (lo : ∀ k < 83, κ * ((gridRatio ^ (0.45 : ℝ)) ^ (k + 1))⁻¹ ≤ 1.049 * meanSlope y k) :
    8.0 * (κ * (energy_table : EnergyTable ℝ).val 0) ≤ y.getD 82 0 := by
  set X := (energy_table : EnergyTable ℝ).val with hX
  set a := gridRatio ^ (0.45 : ℝ) with ha
  have hg := gridRatio_sharp
  have hab := gridRatio_rpow
  rw [← ha] at hab
  have g0 : 1 < gridRatio := by have := hg.1; norm_num at this; linarith
  have a0 : 1 < a := by have := hab.1; norm_num at this; linarith
  have X0 : 0 < X 0 := EnergyTable.val_pos _ 0
  have hpow : ∀ k, X k = gridRatio ^ k * X 0 := grid_pow
  have hgeo : ∀ k, X (k + 1) = gridRatio * X k := grid_geometric
  have hsl : ∀ k, meanSlope y k * ((gridRatio - 1) * (gridRatio ^ k * X 0)) = y.getD (k + 1) 0 - y.getD k 0 := by
    intro k
    unfold meanSlope
    rw [← hX, hgeo k, ← hpow k]
    have : X k ≠ 0 := (EnergyTable.val_pos _ k).ne'
    have : gridRatio * X k - X k = (gridRatio - 1) * X k := by ring
    rw [this, div_mul_cancel₀]
    exact mul_ne_zero (by linarith) ‹_›
  have κX : 0 < κ * X 0 := mul_pos κ0 X0
  have hb1 : (1.021355 : ℝ) ≤ gridRatio / a := by
    rw [le_div_iff₀ (by linarith)]
    have := hg.1; have := hab.2
    norm_num at *; linarith
  have h1 := (table_sum y y0 82 (gridRatio / a) (κ * X 0 * (gridRatio - 1) / (1.049 * a))).1 fun k hk => by
    rw [← hsl k]
    have := lo k (by omega)
    have hf : 0 < (gridRatio - 1) * (gridRatio ^ k * X 0) :=
      mul_pos (by linarith) (mul_pos (pow_pos (by linarith) k) X0)
    have h2 := mul_le_mul_of_nonneg_right this hf.le
    have ak : a ^ k ≠ 0 := by positivity
    have a1 : a ≠ 0 := by positivity
    have e : κ * X 0 * (gridRatio - 1) / (1.049 * a) * (gridRatio / a) ^ k =
        κ * (a ^ (k + 1))⁻¹ * ((gridRatio - 1) * (gridRatio ^ k * X 0)) / 1.049 := by
      rw [div_pow, pow_succ]; field_simp
    rw [e, div_le_iff₀ (by norm_num)]
    linarith
  have h2 := geom_low (gridRatio / a) 1.021355 82 (by norm_num) hb1
  have h3 : (217.9 : ℝ) ≤ (1.021355 ^ 82 - 1) / (1.021355 - 1) := by norm_num
  have h4 : 217.9 * (κ * X 0 * (gridRatio - 1) / (1.049 * a)) ≤ y.getD 82 0 := by
    refine le_trans ?_ h1
    rw [mul_comm]
    refine mul_le_mul_of_nonneg_left (h3.trans h2) ?_
    have : 0 < gridRatio - 1 := by linarith
    positivity
  refine le_trans ?_ h4
  rw [← mul_div_assoc, le_div_iff₀ (by positivity)]
  have h5 : 8.0 * (1.049 * a) ≤ 217.9 * (gridRatio - 1) := by
    have := hg.1; have := hab.2
    norm_num at *; linarith
  nlinarith

theorem table_high (y : List ℝ) (y0 : y.getD 0 0 = 0) (κ : ℝ) (κ0 : 0 < κ)
    (hi : ∀ k < 83, meanSlope y k ≤ κ * ((gridRatio ^ (0.45 : ℝ)) ^ k)⁻¹) :
    y.getD 83 0 ≤ 8.79 * (κ * (energy_table : EnergyTable ℝ).val 0) := by
  set X := (energy_table : EnergyTable ℝ).val with hX
  set a := gridRatio ^ (0.45 : ℝ) with ha
  have hg := gridRatio_sharp
  have hab := gridRatio_rpow
  rw [← ha] at hab
  have g0 : 1 < gridRatio := by have := hg.1; norm_num at this; linarith
  have a0 : 1 < a := by have := hab.1; norm_num at this; linarith
  have X0 : 0 < X 0 := EnergyTable.val_pos _ 0
  have hpow : ∀ k, X k = gridRatio ^ k * X 0 := grid_pow
  have hgeo : ∀ k, X (k + 1) = gridRatio * X k := grid_geometric
  have hsl : ∀ k, meanSlope y k * ((gridRatio - 1) * (gridRatio ^ k * X 0)) = y.getD (k + 1) 0 - y.getD k 0 := by
    intro k
    unfold meanSlope
    rw [← hX, hgeo k, ← hpow k]
    have : X k ≠ 0 := (EnergyTable.val_pos _ k).ne'
    have : gridRatio * X k - X k = (gridRatio - 1) * X k := by ring
    rw [this, div_mul_cancel₀]
    exact mul_ne_zero (by linarith) ‹_›
  have κX : 0 < κ * X 0 := mul_pos κ0 X0
  have hb1 : gridRatio / a ≤ 1.021378 := by
    rw [div_le_iff₀ (by linarith)]
    have := hg.2; have := hab.1
    norm_num at *; linarith
  have h1 := (table_sum y y0 83 (gridRatio / a) (κ * X 0 * (gridRatio - 1))).2 fun k hk => by
    rw [← hsl k]
    have := hi k (by omega)
    have hf : 0 < (gridRatio - 1) * (gridRatio ^ k * X 0) :=
      mul_pos (by linarith) (mul_pos (pow_pos (by linarith) k) X0)
    have h2 := mul_le_mul_of_nonneg_right this hf.le
    refine h2.trans (le_of_eq ?_)
    rw [div_pow]; field_simp
  have h2 := geom_high (gridRatio / a) 1.021378 83 (by norm_num) (by positivity) hb1
  have h3 : (1.021378 ^ 83 - 1) / (1.021378 - 1) ≤ (224.2 : ℝ) := by norm_num
  have h4 : y.getD 83 0 ≤ κ * X 0 * (gridRatio - 1) * 224.2 := by
    refine h1.trans (mul_le_mul_of_nonneg_left (h2.trans h3) ?_)
    have : 0 < gridRatio - 1 := by linarith
    positivity
  refine h4.trans ?_
  have h5 : (gridRatio - 1) * 224.2 ≤ 8.79 := by
    have := hg.2
    norm_num at *; linarith
  nlinarith

/-- The last numbers: all in units of the range. -/
theorem search_numbers (x0 T R S c0 D κ a81 a82 a83 a : ℝ) (x0p : 0 < x0) (x0h : x0 ≤ 0.001000001) (x0l : 0.000999999 ≤ x0)
    (hκ : 4.6e-5 ≤ κ * x0) (κ0 : 0 < κ) (Dp : 0 < D) (S0 : 0 < S)
    (hR1 : 8.0 * (κ * x0) ≤ R) (hR2 : R ≤ 8.79 * (κ * x0)) (A81 : 4.056 ≤ a81) (A82 : 4.127 ≤ a82) (A83 : a83 ≤ 4.208)
    (A83' : 0 < a83) (ha : a82 = a * a81) (a0 : 0 < a)
    (hT1 : 23.38 * x0 ≤ T) (hT2 : T ≤ 24.31 * x0) (hc : |c0 - S| ≤ 0.0208 * S) (slo : κ * a⁻¹ ≤ 1.049 * S) (shi : S ≤ κ)
    (dlo : κ * a83⁻¹ ≤ 1.049 * D) (dhi : D ≤ κ * a82⁻¹) :
    2 * D < c0 ∧ R < 2 * ((T - x0) * D) ∧ ∀ th u, 0 < u → u * c0 = 2 * ((T - x0) * D) - R + 2 * (D * u) →
      th = (T - x0) * D + D * u → th + 2e-5 ≤ R ∧ 1e-4 ≤ th ∧ 1e-3 ≤ u := by
  have d1 : D * a82 ≤ κ := by
    have := mul_le_mul_of_nonneg_right dhi (by norm_num at A82; linarith : 0 ≤ a82)
    rwa [mul_assoc, inv_mul_cancel₀ (by norm_num at A82; linarith), mul_one] at this
  have d2 : κ ≤ 1.049 * D * 4.208 := by
    have h := mul_le_mul_of_nonneg_right dlo A83'.le
    rw [mul_assoc, inv_mul_cancel₀ A83'.ne', mul_one] at h
    refine h.trans ?_
    exact mul_le_mul_of_nonneg_left A83 (by positivity)
  have s1 : κ ≤ 1.049 * S * a := by
    have h := mul_le_mul_of_nonneg_right slo a0.le
    rwa [mul_assoc, inv_mul_cancel₀ a0.ne', mul_one] at h
  have c1 := (abs_le.mp hc).1
  have c2 := (abs_le.mp hc).2
  have q : 3.784 * D ≤ c0 := by
    -- D a a81 ≤ κ ≤ 1.049 S a
    have h1 : D * a81 ≤ 1.049 * S := by
      have : a * (D * a81) ≤ a * (1.049 * S) := by rw [ha] at d1; linarith
      exact le_of_mul_le_mul_left this a0
    have h2 : D * 4.056 ≤ D * a81 := mul_le_mul_of_nonneg_left A81 Dp.le
    norm_num at *
    linarith
  have dk : D * 4.127 ≤ κ := le_trans (mul_le_mul_of_nonneg_left A82 Dp.le) d1
  have L1 : (T - x0) * D ≤ 5.649 * (κ * x0) := by
    have h1 : (T - x0) * D ≤ 23.31 * x0 * D := mul_le_mul_of_nonneg_right (by norm_num at *; linarith) Dp.le
    have h2 := mul_le_mul_of_nonneg_left dk x0p.le
    norm_num at *
    nlinarith
  have L2 : 5.069 * (κ * x0) ≤ (T - x0) * D := by
    have h1 : 22.38 * x0 * D ≤ (T - x0) * D := mul_le_mul_of_nonneg_right (by norm_num at *; linarith) Dp.le
    have h2 := mul_le_mul_of_nonneg_left d2 x0p.le
    norm_num at *
    nlinarith
  have κx : 0 < κ * x0 := by positivity
  generalize hL : (T - x0) * D = L at *
  generalize hK : κ * x0 = K at *
  refine ⟨by norm_num at q; linarith, by norm_num at *; linarith, fun th u u0 hu hth => ?_⟩
  have v0 : 0 < D * u := by positivity
  -- (3.784 - 2) D u ≤ 2 L - R
  have v1 : 1.784 * (D * u) ≤ 2 * L - R := by
    have := mul_le_mul_of_nonneg_right q u0.le
    norm_num at *; linarith
  have v2 : u * c0 ≤ u * (1.0208 * κ) := mul_le_mul_of_nonneg_left (by norm_num at *; linarith) u0.le
  refine ⟨?_, ?_, ?_⟩
  · rw [hth]; norm_num at *; linarith
  · rw [hth]; norm_num at *; linarith
  · have v3 : 1.348 * K ≤ u * (1.0208 * κ) := by norm_num at *; linarith
    rw [← hK] at v3
    have v4 : κ * (1.348 * x0) ≤ κ * (1.0208 * u) := by norm_num at *; linarith
    have v5 := le_of_mul_le_mul_left v4 κ0
    norm_num at *; linarith

set_option maxHeartbeats 1000000 in
/-- A table whose slopes fall like the power -0.45 of the energy up to 24 keV/u (within 5 %), in steps of at most 2.6 %: the
search says that the particle stops although more than 2e-5 g/cm2 of its range is left. -/
theorem search_stops (jk : Junk ℝ) (hjk : SmallJunk jk) (ci debug : Bool) (y : List ℝ) (ty : Tame y) (y0 : y.getD 0 0 = 0) (κ : ℝ)
    (hκ : 4.6e-5 ≤ κ * (energy_table : EnergyTable ℝ).val 0)
    (lo : ∀ k < 83, κ * ((gridRatio ^ (0.45 : ℝ)) ^ (k + 1))⁻¹ ≤ 1.049 * meanSlope y k)
    (hi : ∀ k < 83, meanSlope y k ≤ κ * ((gridRatio ^ (0.45 : ℝ)) ^ k)⁻¹)
    (st : ∀ k < 82, |meanSlope y (k + 1) - meanSlope y k| ≤ 0.026 * meanSlope y k) :
    ∃ s, Spline.new jk (energy_table.grid ci) y = .ok s ∧ ∃ T th R, 0.023 ≤ T ∧ T ≤ 0.025 ∧ 1e-4 ≤ th ∧
      s.evaluate T = .ok R ∧ th + 2e-5 ≤ R ∧ energy_out_spline debug T th s = .ok 0 := by
  have hb := energy_table_bounds
  set X := (energy_table : EnergyTable ℝ).val with hX
  set a := gridRatio ^ (0.45 : ℝ) with ha
  have hg := gridRatio_sharp
  have hab := gridRatio_rpow
  rw [← ha] at hab
  have g0 : 1 < gridRatio := by have := hg.1; norm_num at this; linarith
  have a0 : 1 < a := by have := hab.1; norm_num at this; linarith
  have X0 : 0 < X 0 := EnergyTable.val_pos _ 0
  have X0b := energy_table_range.2.1
  rw [← hX] at X0b
  have X0l : 0.000999999 ≤ X 0 := by have := (abs_le.mp X0b).1; norm_num at this ⊢; linarith
  have X0h : X 0 ≤ 0.001000001 := by have := (abs_le.mp X0b).2; norm_num at this ⊢; linarith
  have κ0 : 0 < κ := by
    by_contra hc
    push Not at hc
    have := mul_nonpos_of_nonpos_of_nonneg hc X0.le
    norm_num at hκ
    linarith
  have hpow : ∀ k, X k = gridRatio ^ k * X 0 := grid_pow
  have hgeo : ∀ k, X (k + 1) = gridRatio * X k := grid_geometric
  obtain ⟨bs, hnew, hc0⟩ := first_slope jk hjk ci y ty st
  obtain ⟨s', hs', -, hinc⟩ := interpolant_increasing jk hjk ci y ty
  rw [hnew] at hs'
  cases hs'
  refine ⟨_, hnew, ?_⟩
  set P := pieces (energy_table.grid ci) y bs with hP
  have hgr := library_table_ordered ci
  have Xpos : ∀ k, 0 < X k := EnergyTable.val_pos _
  have gap : ∀ k, X (k + 1) - X k = (gridRatio - 1) * X k := fun k => by rw [hgeo k]; ring
  have pg1 : (1.039188 : ℝ) ^ 82 ≤ gridRatio ^ 82 := pow_le_pow_left₀ (by norm_num) hg.1 82
  have pg2 : gridRatio ^ 83 ≤ (1.03919 : ℝ) ^ 83 := pow_le_pow_left₀ (by linarith) hg.2 83
  have pa1 : (1.01744 : ℝ) ^ 81 ≤ a ^ 81 := pow_le_pow_left₀ (by norm_num) hab.1 81
  have pa2 : a ^ 83 ≤ (1.01746 : ℝ) ^ 83 := pow_le_pow_left₀ (by linarith) hab.2 83
  have pa3 : (1.01744 : ℝ) ^ 82 ≤ a ^ 82 := pow_le_pow_left₀ (by norm_num) hab.1 82
  have G82 : (23.38 : ℝ) ≤ gridRatio ^ 82 := le_trans (by norm_num) pg1
  have G83 : gridRatio ^ 83 ≤ 24.31 := le_trans pg2 (by norm_num)
  have A81 : (4.056 : ℝ) ≤ a ^ 81 := le_trans (by norm_num) pa1
  have A82 : (4.127 : ℝ) ≤ a ^ 82 := le_trans (by norm_num) pa3
  have A83 : a ^ 83 ≤ 4.208 := le_trans pa2 (by norm_num)
  clear pg1 pg2 pa1 pa2 pa3
  have X82 : X 82 = gridRatio ^ 82 * X 0 := hpow 82
  have X83 : X 83 = gridRatio ^ 83 * X 0 := hpow 83
  have x82 : 0.02337 ≤ X 82 := by rw [X82]; norm_num at G82 X0l ⊢; nlinarith
  have x83 : X 83 ≤ 0.02432 := by rw [X83]; norm_num at G83 X0h ⊢; nlinarith
  have h82 : 0.0009 ≤ X 83 - X 82 := by
    have := gap 82
    have := hg.1
    rw [gap 82]; norm_num at *; nlinarith
  have h83 : 0.0009 ≤ X 84 - X 83 := by
    have := hg.1
    rw [gap 83]; norm_num at *; nlinarith
  obtain ⟨t, t1, t2, te⟩ := quadratic_mean (P.a 82) (P.b 82) (P.c 82) (X 83 - X 82) (by norm_num at h82; linarith)
  have D : P.slope X 82 (X 82 + t) = meanSlope y 82 := by
    have j1 : P.at X 82 (X 83) = y.getD 83 0 := pieces_join hgr y bs 82 (by show 83 < 600; norm_num)
    have j2 : P.at X 82 (X 82) = y.getD 82 0 := pieces_at_knot (g := energy_table.grid ci) y bs 82
    have e : P.slope X 82 (X 82 + t) = 3 * P.a 82 * t ^ 2 + 2 * P.b 82 * t + P.c 82 := by simp [Cubics.slope]
    rw [e, te]
    have hne : X 83 - X 82 ≠ 0 := by norm_num at h82; linarith
    show _ = (y.getD 83 0 - y.getD 82 0) / (X 83 - X 82)
    rw [eq_div_iff hne, ← j1, ← j2]
    simp only [Cubics.at]
    ring
  have sm : (10 * 2⁻¹ ^ 52 : ℝ) ≤ 1e-14 := by norm_num
  obtain ⟨ev, de⟩ := interpolant_inside ci y bs ty.length 82 (by norm_num) (X 82 + t) (by norm_num at t1; linarith)
    (by show X 82 + t < X 83 - 10 * 2⁻¹ ^ 52; norm_num at t2 h82 sm ⊢; linarith)
  rw [← hP, ← hX] at ev de
  rw [D] at de
  have ev82 := (interpolant_inside ci y bs ty.length 82 (by norm_num) (X 82) le_rfl
    (by show X 82 < X 83 - 10 * 2⁻¹ ^ 52; norm_num at h82 sm ⊢; linarith)).1
  have ev83 := (interpolant_inside ci y bs ty.length 83 (by norm_num) (X 83) le_rfl
    (by show X 83 < X 84 - 10 * 2⁻¹ ^ 52; norm_num at h83 sm ⊢; linarith)).1
  have k82 : P.at X 82 (X 82) = y.getD 82 0 := pieces_at_knot (g := energy_table.grid ci) y bs 82
  have k83 : P.at X 83 (X 83) = y.getD 83 0 := pieces_at_knot (g := energy_table.grid ci) y bs 83
  rw [← hP, ← hX, k82] at ev82
  rw [← hP, ← hX, k83] at ev83
  have R1 := hinc _ _ _ _ ev82 ev (Or.inl (by norm_num at t1 h82 ⊢; linarith))
  have R2 := hinc _ _ _ _ ev ev83 (Or.inl (by norm_num at t2 h82 ⊢; linarith))
  set T := X 82 + t with hT
  set R := P.at X 82 T with hR
  have tl := table_low y y0 κ κ0 lo
  have th' := table_high y y0 κ κ0 hi
  obtain ⟨n1, n2, n3⟩ := search_numbers (X 0) T R (meanSlope y 0) (P.c 0) (meanSlope y 82) κ (a ^ 81) (a ^ 82) (a ^ 83) a X0 X0h X0l hκ κ0
    (ty.pos 82 (by norm_num)) (ty.pos 0 (by norm_num)) (tl.trans R1.le) (R2.le.trans th') A81 A82 A83 (by positivity) (by ring) (by linarith)
    (by rw [hT, X82]; norm_num at t1 G82 h82 ⊢; nlinarith) (by
      have : T ≤ X 83 := by rw [hT]; norm_num at t2 h82 ⊢; linarith
      rw [X83] at this
      exact this.trans (mul_le_mul_of_nonneg_right G83 X0.le)) hc0
    (by simpa using lo 0 (by norm_num)) (by simpa using hi 0 (by norm_num)) (lo 82 (by norm_num)) (hi 82 (by norm_num))
  have Dp := ty.pos 82 (by norm_num)
  obtain ⟨th, u, u0, e1, e2, e3, e4⟩ := overshoot (X 0) T R (P.c 0) (meanSlope y 82) Dp n1 n2
  obtain ⟨m1, m2, m3⟩ := n3 th u u0 e3 e4
  have low : (ofB (energy_table.grid ci) y bs).evaluate (X 0 - u) = .ok (-(P.c 0 * u)) := by
    rcases interpolant_value ci y bs ty.length (X 0 - u) with ⟨-, h, -⟩ | ⟨h, -⟩
    · rw [h, y0, ← hP, ← hX]
      refine congrArg Except.ok ?_
      ring
    · rw [← hX] at h; linarith
  refine ⟨T, th, R, by rw [hT]; norm_num at *; linarith, by rw [hT]; norm_num at *; linarith, m2, ev, m1, ?_⟩
  have cu : 0 ≤ P.c 0 * u := mul_nonneg (by linarith) u0.le
  exact energy_out_spline_stops debug _ (X 0) T R (P.c 0) (meanSlope y 82) th u ev de (by norm_num at m1; linarith)
    (by norm_num at m2 ⊢; linarith) e1 e2 low (by norm_num at m1 ⊢; linarith) (by rw [hT]; norm_num at *; linarith)
    (by norm_num at *; linarith)

end Catima
