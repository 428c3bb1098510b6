import Verif.Model.LindhardExact
import Verif.Lemmas.Complex
import Mathlib.Analysis.SpecificLimits.Normed

/-!
# Helper lemmas: the series inside the nucleus ends
-/

namespace Catima

/-- `(a_{n+1}, a_n, b_n)` -/
noncomputable def insideSeq (rho gz z1 k a0 : ℝ) : ℕ → ℝ × ℝ × ℝ
  | 0 => (0.5 * (gz + rho) * 1.0, a0, 1.0)
  | n + 1 =>
    let s := insideSeq rho gz z1 k a0 n
    let bn := ((rho - gz) * s.1 + fine_structure * z1 * s.2.1 / 2.0) / (2.0 * ((n : ℝ) + 1) + 2.0 * k + 1.0)
    (((gz + rho) * bn - fine_structure * z1 * s.2.2 / 2.0) / (2.0 * ((n : ℝ) + 1) + 2.0), s.1, bn)

theorem insideLoop_turn (rho gz z1 k a0 : ℝ) (fuel n : ℕ) :
    insideLoop rho gz z1 k (fuel + 1) (insideSeq rho gz z1 k a0 n).1 (insideSeq rho gz z1 k a0 n).2.1
      (insideSeq rho gz z1 k a0 n).2.2
      (∑ i ∈ Finset.range (n + 1), (insideSeq rho gz z1 k a0 i).2.1)
      (∑ i ∈ Finset.range (n + 1), (insideSeq rho gz z1 k a0 i).2.2) ((n : ℝ) + 1) =
    if 1e-6 < |(insideSeq rho gz z1 k a0 n).2.1 /
        (∑ i ∈ Finset.range (n + 1), (insideSeq rho gz z1 k a0 i).2.1)| then
      insideLoop rho gz z1 k fuel (insideSeq rho gz z1 k a0 (n + 1)).1
        (insideSeq rho gz z1 k a0 (n + 1)).2.1 (insideSeq rho gz z1 k a0 (n + 1)).2.2
        (∑ i ∈ Finset.range (n + 2), (insideSeq rho gz z1 k a0 i).2.1)
        (∑ i ∈ Finset.range (n + 2), (insideSeq rho gz z1 k a0 i).2.2) (((n + 1 : ℕ) : ℝ) + 1)
    else some (∑ i ∈ Finset.range (n + 1), (insideSeq rho gz z1 k a0 i).2.1,
      ∑ i ∈ Finset.range (n + 1), (insideSeq rho gz z1 k a0 i).2.2) := by
  conv_lhs => unfold insideLoop
  simp only [lt_real, fabs_real]
  rw [Finset.sum_range_succ _ (n + 1), Finset.sum_range_succ _ (n + 1)]
  have e : ((n + 1 : ℕ) : ℝ) + 1 = (n : ℝ) + 1 + 1.0 := by push_cast; norm_num
  rw [e]
  rfl

theorem insideLoop_ends (rho gz z1 k a0 : ℝ)
    (h : ∃ N : ℕ, |(insideSeq rho gz z1 k a0 N).2.1 /
      (∑ i ∈ Finset.range (N + 1), (insideSeq rho gz z1 k a0 i).2.1)| ≤ 1e-6) :
    ∃ N r, ∀ fuel ≥ N, insideLoop rho gz z1 k fuel (0.5 * (gz + rho) * 1.0) a0 1.0 a0 1.0 1.0 = some r := by
  obtain ⟨N, hN⟩ := h
  have key : ∀ j n : ℕ, n + j = N → ∃ r, ∀ fuel ≥ j + 1,
      insideLoop rho gz z1 k fuel (insideSeq rho gz z1 k a0 n).1 (insideSeq rho gz z1 k a0 n).2.1
      (insideSeq rho gz z1 k a0 n).2.2
      (∑ i ∈ Finset.range (n + 1), (insideSeq rho gz z1 k a0 i).2.1)
      (∑ i ∈ Finset.range (n + 1), (insideSeq rho gz z1 k a0 i).2.2) ((n : ℝ) + 1) = some r := by
    intro j
    induction j with
    | zero =>
      intro n hn
      rw [add_zero] at hn
      subst hn
      refine ⟨(∑ i ∈ Finset.range (n + 1), (insideSeq rho gz z1 k a0 i).2.1,
        ∑ i ∈ Finset.range (n + 1), (insideSeq rho gz z1 k a0 i).2.2), fun fuel hf => ?_⟩
      obtain ⟨f, rfl⟩ : ∃ f, fuel = f + 1 := ⟨fuel - 1, by omega⟩
      rw [insideLoop_turn, if_neg (not_lt.mpr hN)]
    | succ j ih =>
      intro n hn
      obtain ⟨r, hr⟩ := ih (n + 1) (by omega)
      by_cases hc : 1e-6 < |(insideSeq rho gz z1 k a0 n).2.1 /
          (∑ i ∈ Finset.range (n + 1), (insideSeq rho gz z1 k a0 i).2.1)|
      · refine ⟨r, fun fuel hf => ?_⟩
        obtain ⟨f, rfl⟩ : ∃ f, fuel = f + 1 := ⟨fuel - 1, by omega⟩
        rw [insideLoop_turn, if_pos hc]
        exact hr f (by omega)
      · refine ⟨(∑ i ∈ Finset.range (n + 1), (insideSeq rho gz z1 k a0 i).2.1,
          ∑ i ∈ Finset.range (n + 1), (insideSeq rho gz z1 k a0 i).2.2), fun fuel hf => ?_⟩
        obtain ⟨f, rfl⟩ : ∃ f, fuel = f + 1 := ⟨fuel - 1, by omega⟩
        rw [insideLoop_turn, if_neg hc]
  obtain ⟨r, hr⟩ := key N 0 (by omega)
  refine ⟨N + 1, r, fun fuel hf => ?_⟩
  have := hr fuel hf
  rw [Finset.sum_range_one, Finset.sum_range_one] at this
  have e : ((0 : ℕ) : ℝ) + 1 = 1.0 := by norm_num
  rw [e] at this
  exact this

/-- The size of the terms. -/
theorem insideSeq_bound (rho gz z1 k : ℝ) (hk : 1 ≤ k) (h1 : |rho - gz| ≤ 3 / 2) (h0 : rho - gz ≠ 0)
    (h2 : |gz + rho| ≤ 3 / 2) (h3 : |fine_structure * z1 / 2.0| ≤ 3 / 2) (n : ℕ) (hn : 4 ≤ n) :
    let a0 := (1.0 + 2.0 * k) * 1.0 / (rho - gz)
    |(insideSeq rho gz z1 k a0 1).2.1| + |(insideSeq rho gz z1 k a0 2).2.1| +
      |(insideSeq rho gz z1 k a0 3).2.1| ≤ 0.86 * |a0| ∧
    |(insideSeq rho gz z1 k a0 n).1| ≤ 0.022 * |a0| * (1 / 2) ^ (n - 4) ∧
    |(insideSeq rho gz z1 k a0 n).2.1| ≤ 0.044 * |a0| * (1 / 2) ^ (n - 4) ∧
    |(insideSeq rho gz z1 k a0 n).2.2| ≤ 0.026 * |a0| * (1 / 2) ^ (n - 4) := by
  intro a0
  have e1 : (1.0 : ℝ) = 1 := by norm_num
  have e2 : (2.0 : ℝ) = 2 := by norm_num
  have e5 : (0.5 : ℝ) = 1 / 2 := by norm_num
  set A := |a0| with hA
  have hA0 : 0 ≤ A := abs_nonneg _
  have hb0 : (1 : ℝ) ≤ A / 2 := by
    have hp : 0 < |rho - gz| := abs_pos.mpr h0
    have : A = (1 + 2 * k) / |rho - gz| := by
      rw [hA]
      simp only [a0, e1, e2, mul_one]
      rw [abs_div, abs_of_nonneg (by linarith)]
    rw [this, div_div, le_div_iff₀ (by positivity)]
    nlinarith
  -- one step, in absolute values
  have stepb : ∀ (m : ℕ) (x y : ℝ), |(insideSeq rho gz z1 k a0 m).1| ≤ x * A →
      |(insideSeq rho gz z1 k a0 m).2.1| ≤ y * A →
      |(insideSeq rho gz z1 k a0 (m + 1)).2.2| ≤ 3 / 2 * (x + y) / (2 * m + 5) * A := by
    intro m x y hx hy
    have hd : (0 : ℝ) < 2.0 * ((m : ℝ) + 1) + 2.0 * k + 1.0 := by rw [e1, e2]; positivity
    show |((rho - gz) * (insideSeq rho gz z1 k a0 m).1 +
      fine_structure * z1 * (insideSeq rho gz z1 k a0 m).2.1 / 2.0) / (2.0 * ((m : ℝ) + 1) + 2.0 * k + 1.0)| ≤ _
    rw [abs_div, abs_of_pos hd]
    have hnum : |(rho - gz) * (insideSeq rho gz z1 k a0 m).1 +
        fine_structure * z1 * (insideSeq rho gz z1 k a0 m).2.1 / 2.0| ≤ 3 / 2 * (x + y) * A := by
      have : fine_structure * z1 * (insideSeq rho gz z1 k a0 m).2.1 / 2.0 =
          (fine_structure * z1 / 2.0) * (insideSeq rho gz z1 k a0 m).2.1 := by
        rw [e2]; ring
      rw [this]
      refine (abs_add_le _ _).trans ?_
      rw [abs_mul, abs_mul]
      have := mul_le_mul h1 hx (abs_nonneg _) (by norm_num)
      have := mul_le_mul h3 hy (abs_nonneg _) (by norm_num)
      linarith
    have hx0 : 0 ≤ 3 / 2 * (x + y) * A := (abs_nonneg _).trans hnum
    calc _ ≤ 3 / 2 * (x + y) * A / (2.0 * ((m : ℝ) + 1) + 2.0 * k + 1.0) := by gcongr
      _ ≤ 3 / 2 * (x + y) * A / (2 * m + 5) := by
          apply div_le_div_of_nonneg_left hx0 (by positivity)
          rw [e1, e2]; linarith
      _ = _ := by ring
  have stepa : ∀ (m : ℕ) (x y : ℝ), |(insideSeq rho gz z1 k a0 (m + 1)).2.2| ≤ x * A →
      |(insideSeq rho gz z1 k a0 m).2.2| ≤ y * A →
      |(insideSeq rho gz z1 k a0 (m + 1)).1| ≤ 3 / 2 * (x + y) / (2 * m + 4) * A := by
    intro m x y hx hy
    have hd : (0 : ℝ) < 2.0 * ((m : ℝ) + 1) + 2.0 := by rw [e2]; positivity
    show |((gz + rho) * (insideSeq rho gz z1 k a0 (m + 1)).2.2 -
      fine_structure * z1 * (insideSeq rho gz z1 k a0 m).2.2 / 2.0) / (2.0 * ((m : ℝ) + 1) + 2.0)| ≤ _
    rw [abs_div, abs_of_pos hd]
    have hnum : |(gz + rho) * (insideSeq rho gz z1 k a0 (m + 1)).2.2 -
        fine_structure * z1 * (insideSeq rho gz z1 k a0 m).2.2 / 2.0| ≤ 3 / 2 * (x + y) * A := by
      have : fine_structure * z1 * (insideSeq rho gz z1 k a0 m).2.2 / 2.0 =
          (fine_structure * z1 / 2.0) * (insideSeq rho gz z1 k a0 m).2.2 := by
        rw [e2]; ring
      rw [this]
      refine (abs_sub _ _).trans ?_
      rw [abs_mul, abs_mul]
      have := mul_le_mul h2 hx (abs_nonneg _) (by norm_num)
      have := mul_le_mul h3 hy (abs_nonneg _) (by norm_num)
      linarith
    calc _ ≤ 3 / 2 * (x + y) * A / (2.0 * ((m : ℝ) + 1) + 2.0) := by gcongr
      _ = _ := by rw [e2]; ring
  have shift : ∀ m : ℕ, (insideSeq rho gz z1 k a0 (m + 1)).2.1 = (insideSeq rho gz z1 k a0 m).1 :=
    fun m => rfl
  have B0 : |(insideSeq rho gz z1 k a0 0).2.2| ≤ 0.5 * A := by
    show |(1.0 : ℝ)| ≤ _
    rw [e1, abs_one, e5]; linarith
  have A0 : |(insideSeq rho gz z1 k a0 0).2.1| ≤ 1 * A := by rw [one_mul]; rfl
  have A1 : |(insideSeq rho gz z1 k a0 0).1| ≤ 0.375 * A := by
    show |0.5 * (gz + rho) * 1.0| ≤ _
    rw [e1, e5, mul_one, abs_mul, abs_of_pos (by norm_num : (0 : ℝ) < 1 / 2)]
    rw [show (0.375 : ℝ) = 3 / 8 by norm_num]
    linarith
  have mono : ∀ {u x y : ℝ}, u ≤ x * A → x ≤ y → u ≤ y * A := fun h1 h2 =>
    h1.trans (mul_le_mul_of_nonneg_right h2 hA0)
  have B1 := mono (stepb 0 _ _ A1 A0) (by norm_num : _ ≤ (0.4125 : ℝ))
  have A2 := mono (stepa 0 _ _ B1 B0) (by norm_num : _ ≤ (0.3422 : ℝ))
  have B2 := mono (stepb 1 _ _ A2 (by rw [shift]; exact A1)) (by norm_num : _ ≤ (0.1537 : ℝ))
  have A3 := mono (stepa 1 _ _ B2 B1) (by norm_num : _ ≤ (0.1416 : ℝ))
  have B3 := mono (stepb 2 _ _ A3 (by rw [shift]; exact A2)) (by norm_num : _ ≤ (0.0807 : ℝ))
  have A4 := mono (stepa 2 _ _ B3 B2) (by norm_num : _ ≤ (0.044 : ℝ))
  have B4 := mono (stepb 3 _ _ A4 (by rw [shift]; exact A3)) (by norm_num : _ ≤ (0.026 : ℝ))
  have A5 := mono (stepa 3 _ _ B4 B3) (by norm_num : _ ≤ (0.022 : ℝ))
  refine ⟨?_, ?_⟩
  · rw [shift 0, shift 1, shift 2]
    have : (0.375 : ℝ) * A + 0.3422 * A + 0.1416 * A ≤ 0.86 * A := by
      rw [← add_mul, ← add_mul]
      exact mul_le_mul_of_nonneg_right (by norm_num) hA0
    linarith
  · obtain ⟨m, rfl⟩ : ∃ m, n = m + 4 := ⟨n - 4, by omega⟩
    clear hn
    induction m with
    | zero =>
      refine ⟨?_, ?_, ?_⟩
      · simpa using A5
      · rw [shift]; simpa using A4
      · simpa using B4
    | succ m ih =>
      obtain ⟨i1, i2, i3⟩ := ih
      have es : m + 4 - 4 = m := by omega
      have es' : m + 1 + 4 - 4 = m + 1 := by omega
      rw [es] at i1 i2 i3
      rw [es', show m + 1 + 4 = m + 4 + 1 by ring]
      have hq : (0 : ℝ) < (1 / 2) ^ m := by positivity
      have j1 : |(insideSeq rho gz z1 k a0 (m + 4)).1| ≤ 0.022 * (1 / 2) ^ m * A := by linarith
      have j2 : |(insideSeq rho gz z1 k a0 (m + 4)).2.1| ≤ 0.044 * (1 / 2) ^ m * A := by linarith
      have j3 : |(insideSeq rho gz z1 k a0 (m + 4)).2.2| ≤ 0.026 * (1 / 2) ^ m * A := by linarith
      have hm : (0 : ℝ) ≤ m := by positivity
      have b' := mono (stepb (m + 4) _ _ j1 j2) (y := 0.013 * (1 / 2) ^ m) (by
        rw [div_le_iff₀ (by positivity)]
        push_cast
        nlinarith [mul_nonneg hq.le hm])
      have a' := mono (stepa (m + 4) _ _ b' j3) (y := 0.011 * (1 / 2) ^ m) (by
        rw [div_le_iff₀ (by positivity)]
        push_cast
        nlinarith [mul_nonneg hq.le hm])
      refine ⟨?_, ?_, ?_⟩
      · rw [pow_succ]; linarith
      · rw [shift, pow_succ]; linarith
      · rw [pow_succ]; linarith

/-- The partial sums stay away from zero when charge and energy are not too large. -/
theorem insideSeq_sum_lower (rho gz z1 k : ℝ) (hk : 1 ≤ k) (h1 : |rho - gz| ≤ 3 / 2) (h0 : rho - gz ≠ 0)
    (h2 : |gz + rho| ≤ 3 / 2) (h3 : |fine_structure * z1 / 2.0| ≤ 3 / 2) :
    let a0 := (1.0 + 2.0 * k) * 1.0 / (rho - gz)
    ∀ m : ℕ, 0.05 * |a0| ≤ |∑ i ∈ Finset.range (m + 5), (insideSeq rho gz z1 k a0 i).2.1| := by
  intro a0' m
  have hb := insideSeq_bound rho gz z1 k hk h1 h0 h2 h3
  simp only [a0']
  clear a0'
  set a0 := (1.0 + 2.0 * k) * 1.0 / (rho - gz) with ha0
  have hpos : 0 < |a0| := by
    rw [abs_pos, ha0]
    apply div_ne_zero _ h0
    norm_num
    linarith
  have hsum : ∀ m : ℕ, |(∑ i ∈ Finset.range (m + 4), (insideSeq rho gz z1 k a0 (i + 1)).2.1)| ≤
      (0.86 + 0.044 * (2 - (1 / 2) ^ m)) * |a0| := by
    intro m
    induction m with
    | zero =>
      have h4 := (hb 4 le_rfl).2.2.1
      have h123 := (hb 4 le_rfl).1
      rw [Finset.sum_range_succ, Finset.sum_range_succ, Finset.sum_range_succ, Finset.sum_range_one]
      simp only [Nat.sub_self, pow_zero, mul_one] at h4
      refine (abs_add_le _ _).trans ((add_le_add_left ((abs_add_le _ _).trans
        (add_le_add_left (abs_add_le _ _) _)) _).trans ?_)
      norm_num at h4 h123 ⊢
      linarith
    | succ m ih =>
      have h5 := (hb (m + 5) (by omega)).2.2.1
      rw [show m + 5 - 4 = m + 1 by omega] at h5
      rw [show m + 1 + 4 = m + 4 + 1 by ring, Finset.sum_range_succ]
      refine (abs_add_le _ _).trans ?_
      rw [show m + 4 + 1 = m + 5 by ring]
      rw [pow_succ] at h5 ⊢
      nlinarith
  rw [Finset.sum_range_succ']
  have e : (insideSeq rho gz z1 k a0 0).2.1 = a0 := rfl
  rw [e]
  have := hsum m
  have hq : (0 : ℝ) < (1 / 2) ^ m := by positivity
  have hle : |(∑ i ∈ Finset.range (m + 4), (insideSeq rho gz z1 k a0 (i + 1)).2.1)| ≤ 0.948 * |a0| := by
    refine this.trans (mul_le_mul_of_nonneg_right ?_ hpos.le)
    norm_num
    linarith
  have := abs_sub_abs_le_abs_sub a0 (-(∑ i ∈ Finset.range (m + 4), (insideSeq rho gz z1 k a0 (i + 1)).2.1))
  rw [sub_neg_eq_add, abs_neg, add_comm a0] at this
  norm_num at hle ⊢
  linarith

/-- The loop ends when charge and energy are not too large. -/
theorem insideLoop_defined (rho gz z1 k : ℝ) (hk : 1 ≤ k) (h1 : |rho - gz| ≤ 3 / 2) (h0 : rho - gz ≠ 0)
    (h2 : |gz + rho| ≤ 3 / 2) (h3 : |fine_structure * z1 / 2.0| ≤ 3 / 2) :
    ∃ N r, ∀ fuel ≥ N, insideLoop rho gz z1 k fuel (0.5 * (gz + rho) * 1.0)
      ((1.0 + 2.0 * k) * 1.0 / (rho - gz)) 1.0 ((1.0 + 2.0 * k) * 1.0 / (rho - gz)) 1.0 1.0 = some r := by
  apply insideLoop_ends
  have hb := insideSeq_bound rho gz z1 k hk h1 h0 h2 h3
  have htot := insideSeq_sum_lower rho gz z1 k hk h1 h0 h2 h3
  set a0 := (1.0 + 2.0 * k) * 1.0 / (rho - gz) with ha0
  have hpos : 0 < |a0| := by
    rw [abs_pos, ha0]
    apply div_ne_zero _ h0
    norm_num
    linarith
  obtain ⟨m, hm⟩ := exists_pow_lt_of_lt_one (by norm_num : (0 : ℝ) < 1e-6) (by norm_num : (1 / 2 : ℝ) < 1)
  refine ⟨m + 4, ?_⟩
  have hs := htot m
  have ha := (hb (m + 4) (by omega)).2.2.1
  rw [show m + 4 - 4 = m by omega] at ha
  rw [abs_div, div_le_iff₀ (lt_of_lt_of_le (by positivity) hs)]
  calc _ ≤ 0.044 * |a0| * (1 / 2) ^ m := ha
    _ ≤ 0.044 * |a0| * 1e-6 := by gcongr
    _ ≤ 1e-6 * (0.05 * |a0|) := by
      have : (0.044 : ℝ) * |a0| * 1e-6 = 0.044e-6 * |a0| := by ring
      nlinarith
    _ ≤ _ := by gcongr

end Catima
