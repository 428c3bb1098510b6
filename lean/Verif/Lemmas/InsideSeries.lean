import Verif.Lemmas.InsideLoop
import Mathlib.Analysis.Complex.LocallyUniformLimit
import Mathlib.Analysis.Analytic.IsolatedZeros
import Mathlib.Analysis.Complex.CauchyIntegral

/-!
# Helper lemmas: the series inside the nucleus as an entire function of the energy

`insideSeq` multiplied by `ρ - gz` continues to complex `gz`; its sum is an entire function, so it
vanishes at finitely many energies of every bounded interval.
-/

namespace Catima

/-- `(ρ - g) (a_{n+1}, a_n, b_n)` for complex `g`. -/
noncomputable def insideC (rho c k : ℝ) (g : ℂ) : ℕ → ℂ × ℂ × ℂ
  | 0 => ((rho - g) * (1 / 2 * (g + rho)), 1 + 2 * k, rho - g)
  | n + 1 =>
    let s := insideC rho c k g n
    let bn := ((rho - g) * s.1 + c * s.2.1) / (2 * ((n : ℂ) + 1) + 2 * k + 1)
    (((g + rho) * bn - c * s.2.2) / (2 * ((n : ℂ) + 1) + 2), s.1, bn)

theorem insideC_real (rho gz z1 k : ℝ) (h0 : rho - gz ≠ 0) (n : ℕ) :
    let a0 := (1.0 + 2.0 * k) * 1.0 / (rho - gz)
    insideC rho (fine_structure * z1 / 2) k gz n =
      ((((rho - gz) * (insideSeq rho gz z1 k a0 n).1 : ℝ) : ℂ),
        (((rho - gz) * (insideSeq rho gz z1 k a0 n).2.1 : ℝ) : ℂ),
        (((rho - gz) * (insideSeq rho gz z1 k a0 n).2.2 : ℝ) : ℂ)) := by
  intro a0
  have e1 : (1.0 : ℝ) = 1 := by norm_num
  have e2 : (2.0 : ℝ) = 2 := by norm_num
  have e5 : (0.5 : ℝ) = 1 / 2 := by norm_num
  induction n with
  | zero =>
    have ha : (rho - gz) * a0 = 1 + 2 * k := by
      simp only [a0, e1, e2, mul_one]
      field_simp
    show (_, _, _) = ((((rho - gz) * (0.5 * (gz + rho) * 1.0) : ℝ) : ℂ), (((rho - gz) * a0 : ℝ) : ℂ),
      (((rho - gz) * 1.0 : ℝ) : ℂ))
    rw [ha, e1, e5]
    push_cast
    rw [mul_one, mul_one]
  | succ n ih =>
    show (_, _, _) = _
    unfold insideSeq
    dsimp only
    rw [ih, e1, e2]
    dsimp only
    generalize (insideSeq rho gz z1 k a0 n).1 = x
    generalize (insideSeq rho gz z1 k a0 n).2.1 = y
    generalize (insideSeq rho gz z1 k a0 n).2.2 = z
    push_cast
    congr 1
    · ring
    · congr 1
      ring

theorem insideC_differentiable (rho c k : ℝ) (n : ℕ) :
    Differentiable ℂ (fun g => (insideC rho c k g n).1) ∧
    Differentiable ℂ (fun g => (insideC rho c k g n).2.1) ∧
    Differentiable ℂ (fun g => (insideC rho c k g n).2.2) := by
  induction n with
  | zero =>
    simp only [insideC]
    refine ⟨by fun_prop, by fun_prop, by fun_prop⟩
  | succ n ih =>
    obtain ⟨h1, h2, h3⟩ := ih
    have hb : Differentiable ℂ (fun g => (insideC rho c k g (n + 1)).2.2) := by
      show Differentiable ℂ fun g : ℂ => ((rho - g) * (insideC rho c k g n).1 +
        c * (insideC rho c k g n).2.1) / (2 * ((n : ℂ) + 1) + 2 * k + 1)
      exact Differentiable.div_const (by fun_prop) _
    refine ⟨?_, h1, hb⟩
    show Differentiable ℂ fun g : ℂ => ((g + rho) * (insideC rho c k g (n + 1)).2.2 -
      c * (insideC rho c k g n).2.2) / (2 * ((n : ℂ) + 1) + 2)
    exact Differentiable.div_const (by fun_prop) _

/-- One step in norms. -/
theorem insideC_step (rho c k M : ℝ) (hk : 1 ≤ k) (g : ℂ) (h1 : ‖(rho : ℂ) - g‖ ≤ M)
    (h2 : ‖g + (rho : ℂ)‖ ≤ M) (h3 : |c| ≤ M) (n : ℕ) (x y z : ℝ)
    (hx : ‖(insideC rho c k g n).1‖ ≤ x) (hy : ‖(insideC rho c k g n).2.1‖ ≤ y)
    (hz : ‖(insideC rho c k g n).2.2‖ ≤ z) :
    ‖(insideC rho c k g (n + 1)).2.2‖ ≤ M * (x + y) / (2 * (n + 1)) ∧
    ‖(insideC rho c k g (n + 1)).1‖ ≤ M * (‖(insideC rho c k g (n + 1)).2.2‖ + z) / (2 * (n + 1)) := by
  have hM : 0 ≤ M := (abs_nonneg _).trans h3
  have hc : ‖(c : ℂ)‖ ≤ M := by rw [Complex.norm_real]; exact h3
  have hn : (0 : ℝ) ≤ n := by positivity
  constructor
  · show ‖((rho - g) * (insideC rho c k g n).1 + c * (insideC rho c k g n).2.1) /
      (2 * ((n : ℂ) + 1) + 2 * k + 1)‖ ≤ _
    have hd : (2 * ((n : ℂ) + 1) + 2 * k + 1) = ((2 * ((n : ℝ) + 1) + 2 * k + 1 : ℝ) : ℂ) := by
      push_cast; ring
    rw [hd, norm_div, Complex.norm_real, Real.norm_of_nonneg (by positivity)]
    have hnum : ‖(rho - g) * (insideC rho c k g n).1 + c * (insideC rho c k g n).2.1‖ ≤ M * (x + y) := by
      refine (norm_add_le _ _).trans ?_
      rw [norm_mul, norm_mul, mul_add]
      exact add_le_add (mul_le_mul h1 hx (norm_nonneg _) hM) (mul_le_mul hc hy (norm_nonneg _) hM)
    exact div_le_div₀ ((norm_nonneg _).trans hnum) hnum (by positivity) (by linarith)
  · show ‖((g + rho) * (insideC rho c k g (n + 1)).2.2 - c * (insideC rho c k g n).2.2) /
      (2 * ((n : ℂ) + 1) + 2)‖ ≤ _
    have hd : (2 * ((n : ℂ) + 1) + 2) = ((2 * ((n : ℝ) + 1) + 2 : ℝ) : ℂ) := by
      push_cast; ring
    rw [hd, norm_div, Complex.norm_real, Real.norm_of_nonneg (by positivity)]
    have hnum : ‖(g + rho) * (insideC rho c k g (n + 1)).2.2 - c * (insideC rho c k g n).2.2‖ ≤
        M * (‖(insideC rho c k g (n + 1)).2.2‖ + z) := by
      refine (norm_sub_le _ _).trans ?_
      rw [norm_mul, norm_mul, mul_add]
      exact add_le_add (mul_le_mul_of_nonneg_right h2 (norm_nonneg _))
        (mul_le_mul hc hz (norm_nonneg _) hM)
    exact div_le_div₀ ((norm_nonneg _).trans hnum) hnum (by positivity) (by linarith)

/-- A crude bound. -/
theorem insideC_crude (rho c k M : ℝ) (hk : 1 ≤ k) (hM1 : 1 ≤ M) (g : ℂ) (b1 : ‖(rho : ℂ) - g‖ ≤ M)
    (b2 : ‖g + (rho : ℂ)‖ ≤ M) (b3 : |c| ≤ M) (n : ℕ) :
    ‖(insideC rho c k g n).1‖ ≤ (M * M + (1 + 2 * k)) * (3 * M ^ 2) ^ n ∧
      ‖(insideC rho c k g n).2.1‖ ≤ (M * M + (1 + 2 * k)) * (3 * M ^ 2) ^ n ∧
      ‖(insideC rho c k g n).2.2‖ ≤ (M * M + (1 + 2 * k)) * (3 * M ^ 2) ^ n := by
  have hMM : M ≤ M * M := by nlinarith
  induction n with
  | zero =>
    simp only [pow_zero, mul_one]
    refine ⟨?_, ?_, ?_⟩
    · show ‖((rho : ℂ) - g) * (1 / 2 * (g + rho))‖ ≤ _
      rw [norm_mul, norm_mul]
      have e : ‖(1 / 2 : ℂ)‖ = 1 / 2 := by norm_num
      rw [e]
      have h1 := mul_le_mul b1 b2 (norm_nonneg _) (by linarith)
      have h2 := mul_nonneg (norm_nonneg ((rho : ℂ) - g)) (norm_nonneg (g + (rho : ℂ)))
      linarith
    · show ‖(1 + 2 * (k : ℂ))‖ ≤ _
      have e : (1 + 2 * (k : ℂ)) = ((1 + 2 * k : ℝ) : ℂ) := by push_cast; ring
      rw [e, Complex.norm_real, Real.norm_of_nonneg (by linarith)]
      linarith
    · show ‖(rho : ℂ) - g‖ ≤ _
      linarith
  | succ n ih =>
    generalize hv : (M * M + (1 + 2 * k)) * (3 * M ^ 2) ^ n = v at ih
    have hv0 : 0 ≤ v := by rw [← hv]; positivity
    obtain ⟨i1, i2, i3⟩ := ih
    obtain ⟨s1, s2⟩ := insideC_step rho c k M hk g b1 b2 b3 n v v v i1 i2 i3
    have hn : (1 : ℝ) ≤ 2 * (n + 1) := by
      have : (0 : ℝ) ≤ n := by positivity
      linarith
    have hMv : v ≤ M * v := le_mul_of_one_le_left hv0 hM1
    have hMMv : M * v ≤ M * (M * v) := le_mul_of_one_le_left (hv0.trans hMv) hM1
    have t1 : ‖(insideC rho c k g (n + 1)).2.2‖ ≤ 2 * (M * v) :=
      s1.trans ((div_le_self (by positivity) hn).trans (le_of_eq (by ring)))
    have t2 : ‖(insideC rho c k g (n + 1)).1‖ ≤ 3 * (M * (M * v)) := by
      refine s2.trans ((div_le_self (by positivity) hn).trans ?_)
      have := mul_le_mul_of_nonneg_left t1 (show (0 : ℝ) ≤ M by linarith)
      linarith
    have e : (M * M + (1 + 2 * k)) * (3 * M ^ 2) ^ (n + 1) = 3 * (M * (M * v)) := by
      rw [← hv, pow_succ]; ring
    rw [e]
    refine ⟨t2, ?_, by linarith⟩
    show ‖(insideC rho c k g n).1‖ ≤ _
    linarith

/-- From the terms up to `N ≥ 3 M` on the terms halve. -/
theorem insideC_halve (rho c k M V : ℝ) (hk : 1 ≤ k) (hM1 : 1 ≤ M) (hV0 : 0 ≤ V) (g : ℂ)
    (b1 : ‖(rho : ℂ) - g‖ ≤ M) (b2 : ‖g + (rho : ℂ)‖ ≤ M) (b3 : |c| ≤ M)
    (crude : ∀ n, ‖(insideC rho c k g n).1‖ ≤ V * (3 * M ^ 2) ^ n ∧
      ‖(insideC rho c k g n).2.1‖ ≤ V * (3 * M ^ 2) ^ n ∧
      ‖(insideC rho c k g n).2.2‖ ≤ V * (3 * M ^ 2) ^ n)
    (N : ℕ) (hN : 3 * M ≤ N) (n : ℕ) :
    ‖(insideC rho c k g n).1‖ ≤ 2 * V * (6 * M ^ 2) ^ N * (1 / 2) ^ (n + 1) ∧
      ‖(insideC rho c k g n).2.1‖ ≤ 2 * V * (6 * M ^ 2) ^ N * (1 / 2) ^ n ∧
      ‖(insideC rho c k g n).2.2‖ ≤ 2 * V * (6 * M ^ 2) ^ N * (1 / 2) ^ n := by
  have hM6 : 1 ≤ 6 * M ^ 2 := by nlinarith
  induction n with
  | zero =>
    obtain ⟨c1, c2, c3⟩ := crude 0
    simp only [pow_zero, mul_one, zero_add, pow_one] at c1 c2 c3 ⊢
    have hp : V * 1 ≤ V * (6 * M ^ 2) ^ N := mul_le_mul_of_nonneg_left (one_le_pow₀ hM6) hV0
    refine ⟨by linarith, by linarith, by linarith⟩
  | succ n ih =>
    by_cases hn : n + 1 ≤ N
    · obtain ⟨c1, c2, c3⟩ := crude (n + 1)
      have hp : V * (3 * M ^ 2) ^ (n + 1) ≤ 2 * V * (6 * M ^ 2) ^ N * (1 / 2) ^ (n + 1 + 1) := by
        have h1 : (3 * M ^ 2) ^ (n + 1) = (6 * M ^ 2) ^ (n + 1) * (1 / 2) ^ (n + 1) := by
          rw [← mul_pow]; congr 1; ring
        have h2 : (6 * M ^ 2) ^ (n + 1) ≤ (6 * M ^ 2) ^ N := pow_le_pow_right₀ hM6 hn
        rw [h1, pow_succ (1 / 2 : ℝ) (n + 1)]
        have hq : (0 : ℝ) < (1 / 2) ^ (n + 1) := by positivity
        have := mul_le_mul_of_nonneg_left h2 (mul_nonneg hV0 hq.le)
        linarith
      have hp' : 2 * V * (6 * M ^ 2) ^ N * (1 / 2) ^ (n + 1 + 1) ≤
          2 * V * (6 * M ^ 2) ^ N * (1 / 2) ^ (n + 1) := by
        apply mul_le_mul_of_nonneg_left _ (by positivity)
        exact pow_le_pow_of_le_one (by norm_num) (by norm_num) (by omega)
      exact ⟨c1.trans hp, c2.trans (hp.trans hp'), c3.trans (hp.trans hp')⟩
    · obtain ⟨i1, i2, i3⟩ := ih
      have hnN : (N : ℝ) ≤ n := by
        have : N ≤ n := by omega
        exact_mod_cast this
      have hn3 : 3 * M ≤ n := hN.trans hnN
      obtain ⟨s1, s2⟩ := insideC_step rho c k M hk g b1 b2 b3 n _ _ _ i1 i2 i3
      generalize hK : 2 * V * (6 * M ^ 2) ^ N = K at *
      have hK0 : 0 ≤ K := by rw [← hK]; positivity
      generalize hq : K * (1 / 2) ^ n = q at *
      have hq0 : 0 ≤ q := by rw [← hq]; positivity
      have e1 : K * (1 / 2) ^ (n + 1) = q / 2 := by rw [← hq, pow_succ]; ring
      have e2 : K * (1 / 2) ^ (n + 1 + 1) = q / 4 := by rw [← hq, pow_succ, pow_succ]; ring
      rw [e1] at i1 s1
      rw [e1, e2]
      have hnn : (0 : ℝ) < 2 * (n + 1) := by positivity
      have h3q : 3 * M * q ≤ n * q := mul_le_mul_of_nonneg_right hn3 hq0
      have t1 : ‖(insideC rho c k g (n + 1)).2.2‖ ≤ q / 4 := by
        refine s1.trans ?_
        rw [div_le_iff₀ hnn]
        linarith
      have t2 : ‖(insideC rho c k g (n + 1)).1‖ ≤ q / 4 := by
        refine s2.trans ?_
        rw [div_le_iff₀ hnn]
        have := mul_le_mul_of_nonneg_left t1 (show (0 : ℝ) ≤ M by linarith)
        have : 0 ≤ M * q := by positivity
        linarith
      exact ⟨t2, i1, by linarith⟩

/-- On every disc the terms are dominated by one geometric series. -/
theorem insideC_bound (rho c k G : ℝ) (hk : 1 ≤ k) : ∃ K, ∀ g : ℂ, ‖g‖ ≤ G → ∀ n,
    ‖(insideC rho c k g n).2.1‖ ≤ K * (1 / 2) ^ n := by
  have r0 := abs_nonneg rho
  have G0 := abs_nonneg G
  have c0 := abs_nonneg c
  have G1 := le_abs_self G
  obtain ⟨N, hN⟩ := exists_nat_ge (3 * (|rho| + |G| + |c| + 1))
  refine ⟨_, fun g hg n => (insideC_halve rho c k (|rho| + |G| + |c| + 1) _ hk (by linarith) (by positivity) g
    ?_ ?_ (by linarith) (insideC_crude rho c k _ hk (by linarith) g ?_ ?_ (by linarith)) N hN n).2.1⟩
  all_goals
    first
    | have a1 := norm_sub_le (rho : ℂ) g
      rw [Complex.norm_real, Real.norm_eq_abs] at a1
      linarith
    | have a2 := norm_add_le g (rho : ℂ)
      rw [Complex.norm_real, Real.norm_eq_abs] at a2
      linarith

/-- The sum of the series inside the nucleus, times `ρ - g`. -/
noncomputable def insideSum (rho c k : ℝ) (g : ℂ) : ℂ := ∑' n, (insideC rho c k g n).2.1

theorem insideC_summable (rho c k : ℝ) (hk : 1 ≤ k) (g : ℂ) :
    Summable fun n => (insideC rho c k g n).2.1 := by
  obtain ⟨K, hK⟩ := insideC_bound rho c k ‖g‖ hk
  exact Summable.of_norm_bounded ((summable_geometric_of_lt_one (by norm_num) (by norm_num)).mul_left K)
    (hK g le_rfl)

theorem insideSum_differentiable (rho c k : ℝ) (hk : 1 ≤ k) : Differentiable ℂ (insideSum rho c k) := by
  intro g
  obtain ⟨K, hK⟩ := insideC_bound rho c k (‖g‖ + 1) hk
  have h := Complex.differentiableOn_tsum_of_summable_norm (F := fun n g => (insideC rho c k g n).2.1)
    (U := Metric.ball 0 (‖g‖ + 1))
    ((summable_geometric_of_lt_one (by norm_num : (0 : ℝ) ≤ 1 / 2) (by norm_num)).mul_left K)
    (fun n => (insideC_differentiable rho c k n).2.1.differentiableOn) Metric.isOpen_ball
    (fun n w hw => hK w (le_of_lt (by simpa using hw)) n)
  exact h.differentiableAt (Metric.isOpen_ball.mem_nhds (by simp))

/-- If the sum is not identically zero, it has finitely many zeros in every disc. -/
theorem insideSum_zeros (rho c k : ℝ) (hk : 1 ≤ k) (g0 : ℂ) (h0 : insideSum rho c k g0 ≠ 0) (G : ℝ) :
    (Metric.closedBall (0 : ℂ) G ∩ {g | insideSum rho c k g = 0}).Finite := by
  by_contra hinf
  have hinf : (Metric.closedBall (0 : ℂ) G ∩ {g | insideSum rho c k g = 0}).Infinite := hinf
  obtain ⟨x, -, hx⟩ := hinf.exists_accPt_of_subset_isCompact (isCompact_closedBall 0 G)
    Set.inter_subset_left
  rw [accPt_iff_frequently_nhdsNE] at hx
  have han : AnalyticOnNhd ℂ (insideSum rho c k) Set.univ :=
    fun z _ => (insideSum_differentiable rho c k hk).analyticAt z
  have := han.eqOn_zero_of_preconnected_of_frequently_eq_zero isPreconnected_univ (Set.mem_univ x)
    (hx.mono fun y hy => hy.2)
  exact h0 (this (Set.mem_univ g0))

/-- The loop ends unless the sum of the series is zero. -/
theorem insideLoop_defined_of_sum (rho gz z1 k : ℝ) (hk : 1 ≤ k) (h0 : rho - gz ≠ 0)
    (hs : insideSum rho (fine_structure * z1 / 2) k gz ≠ 0) :
    ∃ N r, ∀ fuel ≥ N, insideLoop rho gz z1 k fuel (0.5 * (gz + rho) * 1.0)
      ((1.0 + 2.0 * k) * 1.0 / (rho - gz)) 1.0 ((1.0 + 2.0 * k) * 1.0 / (rho - gz)) 1.0 1.0 = some r := by
  apply insideLoop_ends
  set a0 := (1.0 + 2.0 * k) * 1.0 / (rho - gz) with ha0
  have hsum := insideC_summable rho (fine_structure * z1 / 2) k hk gz
  have hre : ∀ n, (insideC rho (fine_structure * z1 / 2) k gz n).2.1 =
      (((rho - gz) * (insideSeq rho gz z1 k a0 n).2.1 : ℝ) : ℂ) := fun n => by
    rw [insideC_real rho gz z1 k h0 n]
  have hS := hsum.hasSum.tendsto_sum_nat
  have ha := hsum.tendsto_atTop_zero
  have hq := ha.div ((Filter.tendsto_add_atTop_iff_nat 1).mpr hS) hs
  rw [zero_div] at hq
  obtain ⟨N, hN⟩ := (Metric.tendsto_atTop.mp hq) 1e-6 (by norm_num)
  refine ⟨N, ?_⟩
  have := hN N le_rfl
  rw [dist_zero_right] at this
  simp only [hre, Pi.div_apply] at this
  rw [← Complex.ofReal_sum, ← Finset.mul_sum, ← Complex.ofReal_div, Complex.norm_real,
    mul_div_mul_left _ _ h0, Real.norm_eq_abs] at this
  exact this.le

/-- The sum is not zero when charge and energy are not too large. -/
theorem insideSum_ne_zero (rho gz z1 k : ℝ) (hk : 1 ≤ k) (h1 : |rho - gz| ≤ 3 / 2) (h0 : rho - gz ≠ 0)
    (h2 : |gz + rho| ≤ 3 / 2) (h3 : |fine_structure * z1 / 2.0| ≤ 3 / 2) :
    insideSum rho (fine_structure * z1 / 2) k gz ≠ 0 := by
  have hlow := insideSeq_sum_lower rho gz z1 k hk h1 h0 h2 h3
  set a0 := (1.0 + 2.0 * k) * 1.0 / (rho - gz) with ha0
  have hpos : 0 < |a0| := by
    rw [abs_pos, ha0]
    apply div_ne_zero _ h0
    norm_num
    linarith
  have hsum := insideC_summable rho (fine_structure * z1 / 2) k hk gz
  have hre : ∀ n, (insideC rho (fine_structure * z1 / 2) k gz n).2.1 =
      (((rho - gz) * (insideSeq rho gz z1 k a0 n).2.1 : ℝ) : ℂ) := fun n => by
    rw [insideC_real rho gz z1 k h0 n]
  have hS := ((Filter.tendsto_add_atTop_iff_nat 5).mpr hsum.hasSum.tendsto_sum_nat).norm
  intro hz
  unfold insideSum at hz
  rw [hz, norm_zero] at hS
  have hle : |rho - gz| * (0.05 * |a0|) ≤ 0 := by
    refine ge_of_tendsto hS (Filter.Eventually.of_forall fun m => ?_)
    simp only [hre]
    rw [← Complex.ofReal_sum, ← Finset.mul_sum, Complex.norm_real, Real.norm_eq_abs, abs_mul]
    exact mul_le_mul_of_nonneg_left (hlow m) (abs_nonneg _)
  have := abs_pos.mpr h0
  have : 0 < |rho - gz| * (0.05 * |a0|) := by positivity
  linarith

end Catima
