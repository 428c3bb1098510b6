import Verif.Lemmas.SplineData

/-!
# When the cubic interpolant increases

On a grid whose spacings grow by a constant factor near 1.039, the interpolant of increasing data is increasing if the mean
slopes of neighbouring intervals differ by at most 37 %.
-/

namespace Catima

/-- The solution of the spline equations is small compared with the slopes of the data: maximum principle with weights. -/
theorem curvature_bound (N : ℕ) (hN : 3 ≤ N) (q : ℝ) (hq1 : 1.039 ≤ q) (hq2 : q ≤ 1.0394) (h s b : ℕ → ℝ)
    (hpos : ∀ i, 0 < h i) (hgeo : ∀ i, h (i + 1) = q * h i) (hs : ∀ i, i + 1 < N → 0 < s i)
    (hk : ∀ i, i + 2 < N → s i ≤ 1.37 * s (i + 1) ∧ s (i + 1) ≤ 1.37 * s i)
    (row : ∀ i, i + 2 < N → h (i + 1) * b i + 2 * (h i + h (i + 1)) * b (i + 1) + h i * b (i + 2) =
      3 * (s (i + 1) - s i)) (b0 : |b 0| ≤ |b 1|) (bN : |b (N - 1)| ≤ |b (N - 2)|) :
    ∀ i, i + 2 < N → h (i + 1) * |b (i + 1)| ≤ 0.91 * min (s i) (s (i + 1)) := by
  have hq0 : 0 < q := by linarith
  obtain ⟨m, hm, hmax⟩ := Finset.exists_max_image (Finset.range (N - 2))
    (fun i => h (i + 1) * |b (i + 1)| / min (s i) (s (i + 1))) ⟨0, by simp; omega⟩
  rw [Finset.mem_range] at hm
  have hσ : ∀ i, i + 2 < N → 0 < min (s i) (s (i + 1)) := fun i hi => lt_min (hs i (by omega)) (hs (i + 1) (by omega))
  set M := h (m + 1) * |b (m + 1)| / min (s m) (s (m + 1)) with hM
  have hM0 : 0 ≤ M := div_nonneg (mul_nonneg (hpos _).le (abs_nonneg _)) (hσ m (by omega)).le
  have hall : ∀ i, i + 2 < N → h (i + 1) * |b (i + 1)| ≤ M * min (s i) (s (i + 1)) := by
    intro i hi
    have := hmax i (by rw [Finset.mem_range]; omega)
    exact (div_le_iff₀ (hσ i hi)).mp this
  have heq : h (m + 1) * |b (m + 1)| = M * min (s m) (s (m + 1)) :=
    (div_mul_cancel₀ _ (hσ m (by omega)).ne').symm
  have hσm := hσ m (by omega)
  have hkm := hk m (by omega)
  set σ := min (s m) (s (m + 1)) with hσd
  have h1 : s m ≤ 1.37 * σ := by
    rw [hσd]; rcases min_choice (s m) (s (m + 1)) with e | e <;> rw [e]
    · have := hs m (by omega); linarith
    · exact hkm.1
  have h2 : s (m + 1) ≤ 1.37 * σ := by
    rw [hσd]; rcases min_choice (s m) (s (m + 1)) with e | e <;> rw [e]
    · exact hkm.2
    · have := hs (m + 1) (by omega); linarith
  have hd : |s (m + 1) - s m| ≤ 0.37 * σ := by
    rw [abs_le]
    have e1 : σ ≤ s m := min_le_left _ _
    have e2 : σ ≤ s (m + 1) := min_le_right _ _
    constructor <;> linarith
  -- the neighbours
  have hl : h m * |b m| ≤ M * (1.37 * σ) := by
    rcases Nat.eq_zero_or_pos m with e | e
    · have hm0 := hpos m
      have : h m * |b m| ≤ h (m + 1) * |b (m + 1)| := by
        refine mul_le_mul ?_ (by rw [e]; exact b0) (abs_nonneg _) (hpos _).le
        rw [hgeo m]; nlinarith
      refine this.trans ?_
      rw [heq]
      nlinarith [mul_nonneg hM0 hσm.le]
    · have := hall (m - 1) (by omega)
      rw [show m - 1 + 1 = m by omega] at this
      exact this.trans (mul_le_mul_of_nonneg_left ((min_le_right _ _).trans h1) hM0)
  have hr : h (m + 2) * |b (m + 2)| ≤ M * (1.37 * σ) := by
    rcases Nat.lt_or_ge (m + 3) N with e | e
    · exact (hall (m + 1) (by omega)).trans (mul_le_mul_of_nonneg_left ((min_le_left _ _).trans h2) hM0)
    · have hb : |b (m + 2)| ≤ |b (m + 1)| := by
        rw [show m + 2 = N - 1 by omega, show m + 1 = N - 2 by omega]; exact bN
      have : h (m + 2) * |b (m + 2)| ≤ q * (h (m + 1) * |b (m + 1)|) := by
        rw [hgeo (m + 1), mul_assoc]
        exact mul_le_mul_of_nonneg_left (mul_le_mul_of_nonneg_left hb (hpos _).le) hq0.le
      refine this.trans ?_
      rw [heq]
      nlinarith [mul_nonneg hM0 hσm.le]
  have hrow := row m (by omega)
  -- 2 (1 + 1/q) u ≤ 3 δ σ + (q + q⁻²) M k σ
  have habs : 2 * (h m + h (m + 1)) * |b (m + 1)| ≤ 3 * (0.37 * σ) + h (m + 1) * |b m| + h m * |b (m + 2)| := by
    have e : 2 * (h m + h (m + 1)) * b (m + 1) = 3 * (s (m + 1) - s m) - h (m + 1) * b m - h m * b (m + 2) := by linarith
    have e1 : |2 * (h m + h (m + 1)) * b (m + 1)| = 2 * (h m + h (m + 1)) * |b (m + 1)| := by
      rw [abs_mul, abs_of_pos (by have := hpos m; have := hpos (m + 1); positivity)]
    rw [← e1, e]
    calc |3 * (s (m + 1) - s m) - h (m + 1) * b m - h m * b (m + 2)|
        ≤ |3 * (s (m + 1) - s m)| + |h (m + 1) * b m| + |h m * b (m + 2)| := by
          have t1 := abs_sub (3 * (s (m + 1) - s m) - h (m + 1) * b m) (h m * b (m + 2))
          have t2 := abs_sub (3 * (s (m + 1) - s m)) (h (m + 1) * b m)
          linarith
      _ = 3 * |s (m + 1) - s m| + h (m + 1) * |b m| + h m * |b (m + 2)| := by
          rw [abs_mul, abs_mul, abs_mul, abs_of_pos (hpos m), abs_of_pos (hpos (m + 1)), abs_of_pos (by norm_num : (0 : ℝ) < 3)]
      _ ≤ _ := by linarith
  have hg1 := hgeo m
  have hg2 := hgeo (m + 1)
  have hm0 := hpos m
  have f1 : h (m + 1) * |b m| = q * (h m * |b m|) := by rw [hg1]; ring
  have f2 : q ^ 2 * (h m * |b (m + 2)|) = h (m + 2) * |b (m + 2)| := by rw [hg2, hg1]; ring
  have f3 : q * (2 * (h m + h (m + 1)) * |b (m + 1)|) = 2 * (1 + q) * (h (m + 1) * |b (m + 1)|) := by rw [hg1]; ring
  rw [heq] at f3
  -- multiply by q ^ 2
  have key : 2 * (1 + q) * q * (M * σ) ≤ 3 * 0.37 * q ^ 2 * σ + q ^ 3 * (M * (1.37 * σ)) + M * (1.37 * σ) := by
    have a1 : q ^ 2 * (2 * (h m + h (m + 1)) * |b (m + 1)|) ≤
        q ^ 2 * (3 * (0.37 * σ) + h (m + 1) * |b m| + h m * |b (m + 2)|) := mul_le_mul_of_nonneg_left habs (by positivity)
    have a2 : q ^ 2 * (h (m + 1) * |b m|) ≤ q ^ 3 * (M * (1.37 * σ)) := by
      rw [f1]
      calc q ^ 2 * (q * (h m * |b m|)) = q ^ 3 * (h m * |b m|) := by ring
        _ ≤ _ := mul_le_mul_of_nonneg_left hl (by positivity)
    have a3 : q ^ 2 * (h m * |b (m + 2)|) ≤ M * (1.37 * σ) := by rw [f2]; exact hr
    have a4 : q ^ 2 * (2 * (h m + h (m + 1)) * |b (m + 1)|) = q * (2 * (1 + q) * (M * σ)) := by rw [← f3]; ring
    rw [a4] at a1
    nlinarith
  have hMle : M ≤ 0.91 := by
    have k1 : 2 * (1 + q) * q * M ≤ 3 * 0.37 * q ^ 2 + q ^ 3 * (M * 1.37) + M * 1.37 := by
      have : (2 * (1 + q) * q * M) * σ ≤ (3 * 0.37 * q ^ 2 + q ^ 3 * (M * 1.37) + M * 1.37) * σ := by
        calc (2 * (1 + q) * q * M) * σ = 2 * (1 + q) * q * (M * σ) := by ring
          _ ≤ _ := key
          _ = _ := by ring
      exact le_of_mul_le_mul_right this hσm
    have q2 : q ^ 2 ≤ 1.0394 ^ 2 := pow_le_pow_left₀ hq0.le hq2 2
    have q3 : q ^ 3 ≤ 1.0394 ^ 3 := pow_le_pow_left₀ hq0.le hq2 3
    have q2' : 1.039 ^ 2 ≤ q ^ 2 := pow_le_pow_left₀ (by norm_num) hq1 2
    by_contra hcon
    rw [not_le] at hcon
    nlinarith [mul_nonneg hM0 (sub_nonneg.mpr q3), mul_nonneg hM0 (sub_nonneg.mpr q2'), mul_nonneg hM0 (sub_nonneg.mpr hq1)]
  intro i hi
  exact (hall i hi).trans (mul_le_mul_of_nonneg_right hMle (hσ i hi).le)

/-- The slope of a cubic piece with small curvature is near the mean slope, also slightly left of the piece. -/
theorem piece_slope_near (s h b b' t : ℝ) (hs : 0 < s) (hb : h * |b| ≤ 0.91 * s) (hb' : h * |b'| ≤ 0.91 * s)
    (h0 : 0 < h) (ht0 : -0.01 ≤ t) (ht1 : t ≤ 1) :
    0.06 * s ≤ s + h * (b * (-2 / 3 + 2 * t - t ^ 2) + b' * (-1 / 3 + t ^ 2)) ∧
      s + h * (b * (-2 / 3 + 2 * t - t ^ 2) + b' * (-1 / 3 + t ^ 2)) ≤ 1.94 * s := by
  have e1 : |h * b| ≤ 0.91 * s := by rw [abs_mul, abs_of_pos h0]; exact hb
  have e2 : |h * b'| ≤ 0.91 * s := by rw [abs_mul, abs_of_pos h0]; exact hb'
  have hw : |-2 / 3 + 2 * t - t ^ 2| + |-1 / 3 + t ^ 2| ≤ 1.03 := by
    rcases abs_cases (-2 / 3 + 2 * t - t ^ 2) with ⟨a, _⟩ | ⟨a, _⟩ <;>
      rcases abs_cases (-1 / 3 + t ^ 2) with ⟨c, _⟩ | ⟨c, _⟩ <;> rw [a, c] <;> nlinarith
  have : |h * (b * (-2 / 3 + 2 * t - t ^ 2) + b' * (-1 / 3 + t ^ 2))| ≤ 0.91 * s * 1.03 := by
    calc |h * (b * (-2 / 3 + 2 * t - t ^ 2) + b' * (-1 / 3 + t ^ 2))|
        = |h * b * (-2 / 3 + 2 * t - t ^ 2) + h * b' * (-1 / 3 + t ^ 2)| := by congr 1; ring
      _ ≤ |h * b * (-2 / 3 + 2 * t - t ^ 2)| + |h * b' * (-1 / 3 + t ^ 2)| := abs_add_le _ _
      _ ≤ 0.91 * s * |-2 / 3 + 2 * t - t ^ 2| + 0.91 * s * |-1 / 3 + t ^ 2| := by
          rw [abs_mul (h * b), abs_mul (h * b')]
          exact add_le_add (mul_le_mul_of_nonneg_right e1 (abs_nonneg _)) (mul_le_mul_of_nonneg_right e2 (abs_nonneg _))
      _ = 0.91 * s * (|-2 / 3 + 2 * t - t ^ 2| + |-1 / 3 + t ^ 2|) := by ring
      _ ≤ _ := mul_le_mul_of_nonneg_left hw (by positivity)
  have := abs_le.mp this
  constructor <;> linarith [this.1, this.2]

end Catima
