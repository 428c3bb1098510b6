import Verif.Props.RangeIncreasing

/-!
# Slopes of the interpolated range, locally

The slope of the interpolant at an energy depends on distant data only weakly.  Weights that grow by at most 35 % from one
point to the next turn bounds of the changes of the mean slopes into bounds of the slopes of the pieces.
-/

namespace Catima
open Spline

/-- The solution of the spline equations, with any weights that change by at most 35 % per step. -/
theorem curvature_weighted (N : ℕ) (hN : 3 ≤ N) (q : ℝ) (hq1 : 1.039 ≤ q) (hq2 : q ≤ 1.0394) (h s b σ : ℕ → ℝ)
    (hpos : ∀ i, 0 < h i) (hgeo : ∀ i, h (i + 1) = q * h i) (hσ : ∀ i, i + 2 < N → 0 < σ i)
    (hd : ∀ i, i + 2 < N → |s (i + 1) - s i| ≤ σ i)
    (hk : ∀ i, i + 3 < N → σ i ≤ 1.35 * σ (i + 1) ∧ σ (i + 1) ≤ 1.35 * σ i)
    (row : ∀ i, i + 2 < N → h (i + 1) * b i + 2 * (h i + h (i + 1)) * b (i + 1) + h i * b (i + 2) =
      3 * (s (i + 1) - s i)) (b0 : |b 0| ≤ |b 1|) (bN : |b (N - 1)| ≤ |b (N - 2)|) :
    ∀ i, i + 2 < N → h (i + 1) * |b (i + 1)| ≤ 2.4 * σ i := by
  have hq0 : 0 < q := by linarith
  obtain ⟨m, hm, hmax⟩ := Finset.exists_max_image (Finset.range (N - 2))
    (fun i => h (i + 1) * |b (i + 1)| / σ i) ⟨0, by simp; omega⟩
  rw [Finset.mem_range] at hm
  have hσm := hσ m (by omega)
  set M := h (m + 1) * |b (m + 1)| / σ m with hM
  have hM0 : 0 ≤ M := div_nonneg (mul_nonneg (hpos _).le (abs_nonneg _)) hσm.le
  have hall : ∀ i, i + 2 < N → h (i + 1) * |b (i + 1)| ≤ M * σ i := by
    intro i hi
    have := hmax i (by rw [Finset.mem_range]; omega)
    exact (div_le_iff₀ (hσ i hi)).mp this
  have heq : h (m + 1) * |b (m + 1)| = M * σ m := (div_mul_cancel₀ _ hσm.ne').symm
  have hl : h m * |b m| ≤ M * (1.35 * σ m) := by
    rcases Nat.eq_zero_or_pos m with e | e
    · have : h m * |b m| ≤ h (m + 1) * |b (m + 1)| := by
        refine mul_le_mul ?_ (by rw [e]; exact b0) (abs_nonneg _) (hpos _).le
        rw [hgeo m]; nlinarith [hpos m]
      refine this.trans ?_
      rw [heq]
      nlinarith [mul_nonneg hM0 hσm.le]
    · have := hall (m - 1) (by omega)
      rw [show m - 1 + 1 = m by omega] at this
      have hk' := (hk (m - 1) (by omega)).1
      rw [show m - 1 + 1 = m by omega] at hk'
      exact this.trans (mul_le_mul_of_nonneg_left hk' hM0)
  have hr : h (m + 2) * |b (m + 2)| ≤ M * (1.35 * σ m) := by
    rcases Nat.lt_or_ge (m + 3) N with e | e
    · exact (hall (m + 1) (by omega)).trans (mul_le_mul_of_nonneg_left (hk m e).2 hM0)
    · have hb : |b (m + 2)| ≤ |b (m + 1)| := by
        rw [show m + 2 = N - 1 by omega, show m + 1 = N - 2 by omega]; exact bN
      have : h (m + 2) * |b (m + 2)| ≤ q * (h (m + 1) * |b (m + 1)|) := by
        rw [hgeo (m + 1), mul_assoc]
        exact mul_le_mul_of_nonneg_left (mul_le_mul_of_nonneg_left hb (hpos _).le) hq0.le
      refine this.trans ?_
      rw [heq]
      nlinarith [mul_nonneg hM0 hσm.le]
  have hrow := row m (by omega)
  have habs : 2 * (h m + h (m + 1)) * |b (m + 1)| ≤ 3 * σ m + h (m + 1) * |b m| + h m * |b (m + 2)| := by
    have e : 2 * (h m + h (m + 1)) * b (m + 1) = 3 * (s (m + 1) - s m) - h (m + 1) * b m - h m * b (m + 2) := by linarith
    have e1 : |2 * (h m + h (m + 1)) * b (m + 1)| = 2 * (h m + h (m + 1)) * |b (m + 1)| := by
      rw [abs_mul, abs_of_pos (by have := hpos m; have := hpos (m + 1); positivity)]
    rw [← e1, e]
    calc |3 * (s (m + 1) - s m) - h (m + 1) * b m - h m * b (m + 2)|
        ≤ |3 * (s (m + 1) - s m)| + |h (m + 1) * b m| + |h m * b (m + 2)| := by
          have t1 := abs_sub (3 * (s (m + 1) - s m) - h (m + 1) * b m) (h m * b (m + 2))
          have t2 := abs_sub (3 * (s (m + 1) - s m)) (h (m + 1) * b m)
          linarith
      _ = 3 * |s (m + 1) - s m| + h (m + 1) * |b m| + h m * |b (m + 2)| := by
          rw [abs_mul, abs_mul, abs_mul, abs_of_pos (hpos m), abs_of_pos (hpos (m + 1)), abs_of_pos (by norm_num : (0 : ℝ) < 3)]
      _ ≤ _ := by linarith [hd m (by omega)]
  have hg1 := hgeo m
  have hg2 := hgeo (m + 1)
  have f1 : h (m + 1) * |b m| = q * (h m * |b m|) := by rw [hg1]; ring
  have f2 : q ^ 2 * (h m * |b (m + 2)|) = h (m + 2) * |b (m + 2)| := by rw [hg2, hg1]; ring
  have f3 : q * (2 * (h m + h (m + 1)) * |b (m + 1)|) = 2 * (1 + q) * (h (m + 1) * |b (m + 1)|) := by rw [hg1]; ring
  rw [heq] at f3
  have key : M ≤ 2.4 := by
    set U := h m * |b m|
    set V := h m * |b (m + 2)|
    set S := σ m
    set Y := 2 * (h m + h (m + 1)) * |b (m + 1)|
    rw [← f2] at hr
    rw [f1] at habs
    -- q² times the inequality
    have g1 : q ^ 2 * Y ≤ 3 * q ^ 2 * S + q ^ 3 * (M * (1.35 * S)) + M * (1.35 * S) := by
      have a1 : q ^ 2 * Y ≤ q ^ 2 * (3 * S + q * U + V) := mul_le_mul_of_nonneg_left habs (by positivity)
      have a2 : q ^ 3 * U ≤ q ^ 3 * (M * (1.35 * S)) := mul_le_mul_of_nonneg_left hl (by positivity)
      nlinarith
    have g2 : q ^ 2 * Y = q * (2 * (1 + q) * (M * S)) := by rw [← f3]; ring
    rw [g2] at g1
    have g3 : (M * (2 * q * (1 + q) - 1.35 * (q ^ 3 + 1)) - 3 * q ^ 2) * S ≤ 0 := by
      norm_num at g1 ⊢; nlinarith
    have g4 : M * (2 * q * (1 + q) - 1.35 * (q ^ 3 + 1)) - 3 * q ^ 2 ≤ 0 := by
      by_contra hc
      push Not at hc
      have := mul_pos hc hσm
      linarith
    have g5 : 1.25 * q ^ 2 ≤ 2 * q * (1 + q) - 1.35 * (q ^ 3 + 1) := by
      norm_num at hq1 hq2 ⊢
      nlinarith [mul_nonneg (sub_nonneg.mpr hq1) (sub_nonneg.mpr hq2), mul_nonneg hq0.le (mul_nonneg (sub_nonneg.mpr hq1) (sub_nonneg.mpr hq2))]
    have g6 : 0 < q ^ 2 := by positivity
    by_contra hc
    push Not at hc
    have := mul_le_mul_of_nonneg_left g5 hM0
    norm_num at hc this g4
    nlinarith
  intro i hi
  exact (hall i hi).trans (mul_le_mul_of_nonneg_right key (hσ i hi).le)

/-- Slopes of the pieces at their left ends, in terms of weights. -/
theorem slopes_local (jk : Junk ℝ) (hjk : SmallJunk jk) (ci : Bool) (y : List ℝ) (hl : y.length = 600) (σ : ℕ → ℝ) (hσ : ∀ i < 598, 0 < σ i)
    (hd : ∀ i < 598, |meanSlope y (i + 1) - meanSlope y i| ≤ σ i)
    (hk : ∀ i < 597, σ i ≤ 1.35 * σ (i + 1) ∧ σ (i + 1) ≤ 1.35 * σ i) :
    ∃ bs, Spline.new jk (energy_table.grid ci) y = .ok (ofB (energy_table.grid ci) y bs) ∧
      |(pieces (energy_table.grid ci) y bs).slope (energy_table.grid ci).val 0 ((energy_table : EnergyTable ℝ).val 0) - meanSlope y 0| ≤ 0.8 * σ 0 ∧
      (∀ k, k + 1 < 598 → |(pieces (energy_table.grid ci) y bs).slope (energy_table.grid ci).val (k + 1) ((energy_table : EnergyTable ℝ).val (k + 1))
        - meanSlope y (k + 1)| ≤ 1.6 * σ k + 0.8 * σ (k + 1)) := by
  set g : Grid ℝ := energy_table.grid ci with hgdef
  have hg := library_table_ordered ci
  rw [← hgdef] at hg
  have hn : g.n = 600 := rfl
  have hv : g.val = (energy_table : EnergyTable ℝ).val := rfl
  obtain ⟨bs, e1, e2⟩ := solve_data hg jk y (by rw [hn, hl])
  refine ⟨bs, e2, ?_⟩
  obtain ⟨xs, e1', sw, hb0, hbN⟩ := small_ends hg jk hjk fun i => y.getD i 0
  rw [e1] at e1'
  cases e1'
  have hq := gridRatio_bounds
  have hval0 : ∀ i, 0 < (energy_table : EnergyTable ℝ).val i := EnergyTable.val_pos _
  have hstep : ∀ i, (energy_table : EnergyTable ℝ).val (i + 1) - (energy_table : EnergyTable ℝ).val i =
      (gridRatio - 1) * (energy_table : EnergyTable ℝ).val i := fun i => by rw [grid_geometric]; ring
  have hpos : ∀ i, 0 < (energy_table : EnergyTable ℝ).val (i + 1) - (energy_table : EnergyTable ℝ).val i := fun i => by
    rw [hstep]; exact mul_pos (by linarith [hq.1]) (hval0 i)
  rw [hn] at hbN
  have hrow : ∀ i, i + 2 < 600 → ((energy_table : EnergyTable ℝ).val (i + 1 + 1) - (energy_table : EnergyTable ℝ).val (i + 1)) * bs.getD i 0
      + 2 * (((energy_table : EnergyTable ℝ).val (i + 1) - (energy_table : EnergyTable ℝ).val i)
        + ((energy_table : EnergyTable ℝ).val (i + 1 + 1) - (energy_table : EnergyTable ℝ).val (i + 1))) * bs.getD (i + 1) 0
      + ((energy_table : EnergyTable ℝ).val (i + 1) - (energy_table : EnergyTable ℝ).val i) * bs.getD (i + 2) 0
      = 3 * (meanSlope y (i + 1) - meanSlope y i) := by
    intro i hi
    have := sw (i + 1) (by rw [hn]; omega)
    simp only [hn, matrix, rhs, hv] at this
    have n0 : ¬ i + 1 = 0 := by omega
    have n1 : ¬ i + 1 = 600 - 1 := by omega
    have n2 : i + 1 + 1 < 600 := by omega
    simp only [if_neg n0, if_neg n1, if_pos n2] at this
    simp only [Nat.add_sub_cancel] at this
    unfold meanSlope
    rw [← this]
    norm_num
    ring
  have cb := curvature_weighted 600 (by norm_num) gridRatio (by linarith [hq.1]) (by linarith [hq.2])
    (fun i => (energy_table : EnergyTable ℝ).val (i + 1) - (energy_table : EnergyTable ℝ).val i) (meanSlope y)
    (fun i => bs.getD i 0) σ hpos (fun i => by simp only [grid_geometric]; ring) (fun i hi => hσ i (by omega))
    (fun i hi => hd i (by omega)) (fun i hi => hk i (by omega)) hrow
    (le_of_hundredth hb0) (le_of_hundredth hbN)
  have hform : ∀ k, k < 599 → (pieces g y bs).slope g.val k ((energy_table : EnergyTable ℝ).val k) - meanSlope y k =
      ((energy_table : EnergyTable ℝ).val (k + 1) - (energy_table : EnergyTable ℝ).val k) * (bs.getD k 0 * (-2 / 3) + bs.getD (k + 1) 0 * (-1 / 3)) := by
    intro k hk'
    have hh := hpos k
    simp only [Cubics.slope, pieces, hn, hv]
    rw [if_pos (by omega), if_pos (by omega), if_pos (by omega), coefA_real, coefC_real]
    unfold meanSlope
    set h := (energy_table : EnergyTable ℝ).val (k + 1) - (energy_table : EnergyTable ℝ).val k with hhd
    field_simp
    ring
  -- the curvature at the right end of a piece
  have c2 : ∀ k, k < 598 → ((energy_table : EnergyTable ℝ).val (k + 1) - (energy_table : EnergyTable ℝ).val k) * |bs.getD (k + 1) 0| ≤ 2.4 * σ k := by
    intro k hk'
    refine le_trans ?_ (cb k (by omega))
    refine mul_le_mul_of_nonneg_right ?_ (abs_nonneg _)
    simp only [grid_geometric]
    have := hval0 k
    have h1 : 0 < (gridRatio - 1) * (energy_table : EnergyTable ℝ).val k := mul_pos (by linarith [hq.1]) this
    nlinarith [hq.1]
  constructor
  · rw [hform 0 (by norm_num), abs_mul, abs_of_pos (hpos 0)]
    have t1 := cb 0 (by norm_num)
    have h3 : |bs.getD 0 0 * (-2 / 3) + bs.getD (0 + 1) 0 * (-1 / 3)| ≤ 0.34 * |bs.getD 1 0| := by
      refine (abs_add_le _ _).trans ?_
      rw [abs_mul, abs_mul, show |(-2 / 3 : ℝ)| = 2 / 3 by norm_num [abs_of_neg], show |(-1 / 3 : ℝ)| = 1 / 3 by norm_num [abs_of_neg]]
      norm_num at hb0 ⊢
      linarith
    have t2 : ((energy_table : EnergyTable ℝ).val (0 + 1) - (energy_table : EnergyTable ℝ).val 0) * 1.039 ≤
        (energy_table : EnergyTable ℝ).val (0 + 1 + 1) - (energy_table : EnergyTable ℝ).val (0 + 1) := by
      rw [hstep, hstep, grid_geometric 0, mul_assoc]
      refine mul_le_mul_of_nonneg_left ?_ (by linarith [hq.1])
      nlinarith [hq.1, hval0 0]
    have t3 := mul_le_mul_of_nonneg_right t2 (abs_nonneg (bs.getD 1 0))
    have t4 := mul_le_mul_of_nonneg_left h3 (hpos 0).le
    refine t4.trans ?_
    have t5 : ((energy_table : EnergyTable ℝ).val (0 + 1 + 1) - (energy_table : EnergyTable ℝ).val (0 + 1)) * |bs.getD 1 0| ≤ 2.4 * σ 0 := t1
    generalize |bs.getD 1 0| = β at *
    generalize (energy_table : EnergyTable ℝ).val (0 + 1 + 1) - (energy_table : EnergyTable ℝ).val (0 + 1) = h1 at *
    generalize (energy_table : EnergyTable ℝ).val (0 + 1) - (energy_table : EnergyTable ℝ).val 0 = h0 at *
    have e0 := hσ 0 (by norm_num)
    have e6 : h0 * (0.34 * β) = 0.34 / 1.039 * (h0 * 1.039 * β) := by norm_num; ring
    rw [e6]
    norm_num at t3 t5 ⊢
    linarith
  · intro k hk'
    have h1 := cb k (by omega)
    have h2 := c2 (k + 1) (by omega)
    have hh := hpos (k + 1)
    rw [hform (k + 1) (by omega), abs_mul, abs_of_pos hh]
    have h3 : |bs.getD (k + 1) 0 * (-2 / 3) + bs.getD (k + 1 + 1) 0 * (-1 / 3)| ≤ |bs.getD (k + 1) 0| * (2 / 3) + |bs.getD (k + 1 + 1) 0| * (1 / 3) := by
      refine (abs_add_le _ _).trans (le_of_eq ?_)
      rw [abs_mul, abs_mul, show |(-2 / 3 : ℝ)| = 2 / 3 by norm_num [abs_of_neg], show |(-1 / 3 : ℝ)| = 1 / 3 by norm_num [abs_of_neg]]
    have h4 := mul_le_mul_of_nonneg_left h3 hh.le
    norm_num at h1 h2 h4 ⊢
    linarith

set_option maxRecDepth 8000 in
/-- The mean slopes of the table of ranges: quadrature of the inverse stopping power. -/
theorem range_slopes (env : Env ℝ) (p : Projectile ℝ) (n : Int) (m : Material ℝ) (c : Config ℝ)
    (h : Computable p n m c) (d : DataPoint ℝ) (hd : calculate_DataPoint env p m c = .ok d) :
    d.range.length = 600 ∧ d.range[0]? = some 0 ∧ ∃ S : ℝ → ℝ,
      (∀ x v, dedx env (p.withT x) m c = .ok v → S x = v) ∧
      ∀ k < 599, meanSlope d.range k = p.A * (1 / 2 * wsum integrator.full fun x =>
        1 / S (((energy_table : EnergyTable ℝ).val (k + 1) - (energy_table : EnergyTable ℝ).val k) / 2 * x
        + ((energy_table : EnergyTable ℝ).val (k + 1) + (energy_table : EnergyTable ℝ).val k) / 2)) := by
  have hb := energy_table_bounds
  set X := (energy_table : EnergyTable ℝ).val with hX
  have ord : ∀ k, X k < X (k + 1) := fun k => (EnergyTable.val_lt_iff _ hb.1 hb.2.1 k (k + 1)).mpr (by omega)
  let S : ℝ → ℝ := fun x => match dedx env (p.withT x) m c with | .ok v => v | .error _ => 0
  have hSv : ∀ x v, dedx env (p.withT x) m c = .ok v → S x = v := fun x v hv => by simp only [S, hv]
  have key : ∀ k < 599, ∃ g : ℝ → ℝ, (∀ x, Inner (X k) (X (k + 1)) x → dedx env (p.withT x) m c = .ok (S x) ∧ g x = 1 / S x) ∧
      integrator.integrate (fdedx env p m c) (X k) (X (k + 1)) = .ok ((X (k + 1) - X k) / 2 *
        wsum integrator.full fun x => g ((X (k + 1) - X k) / 2 * x + (X (k + 1) + X k) / 2)) := by
    intro k hk
    obtain ⟨g, hg, hI⟩ := integrator_value (fdedx env p m c) (X k) (X (k + 1)) (ord k).le (fun _ => True) fun x hx => by
      obtain ⟨-, -, ha, hb, h0, hr⟩ := inner_grid k hk x hx
      obtain ⟨v, hv⟩ := h.dedx env x h0 hr
      exact ⟨1 / v, by unfold fdedx; rw [hv]; norm_num [bind, Except.bind, pure, Except.pure], trivial⟩
    refine ⟨g, fun x hx => ?_, hI⟩
    obtain ⟨-, -, ha, hb, h0, hr⟩ := inner_grid k hk x hx
    obtain ⟨v, hv⟩ := h.dedx env x h0 hr
    have := (hg x hx).1
    unfold fdedx at this
    rw [hv] at this
    rw [hSv x v hv]
    refine ⟨hv, ?_⟩
    have e : (1.0 : ℝ) / v = g x := by
      simpa [bind, Except.bind, pure, Except.pure] using this
    rw [← e]; norm_num
  choose! g hg hI using key
  obtain ⟨hl, hz, hs⟩ := table_step p.A _ _ (data_point_parts env p m c d hd).1 _ hI
  have nodes : ∀ k < 599, ∀ e ∈ integrator.full, Inner (X k) (X (k + 1)) ((X (k + 1) - X k) / 2 * e.1 + (X (k + 1) + X k) / 2) :=
    fun k hk e he => node_inner (X k) (X (k + 1)) (ord k).le e he
  refine ⟨hl, hz, S, hSv, fun k hk => ?_⟩
  obtain ⟨a, b, ha, hb, hab⟩ := hs k hk
  have hne : X (k + 1) - X k ≠ 0 := by linarith [ord k]
  have hsum : (wsum integrator.full fun x => g k ((X (k + 1) - X k) / 2 * x + (X (k + 1) + X k) / 2)) =
      wsum integrator.full fun x => 1 / S ((X (k + 1) - X k) / 2 * x + (X (k + 1) + X k) / 2) := by
    unfold wsum
    congr 1
    exact List.map_congr_left fun e he => by
      show e.2 * g k _ = e.2 * (1 / S _)
      rw [(hg k hk _ (nodes k hk e he)).2]
  unfold meanSlope
  rw [List.getD_eq_getElem?_getD, List.getD_eq_getElem?_getD, ha, hb]
  simp only [Option.getD_some]
  rw [hab, ← hX, ← hsum]
  field_simp

end Catima
