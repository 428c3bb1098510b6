import Verif.Model.LindhardExact
import Verif.Lemmas.Complex
import Verif.Spec.Hypergeometric

/-!
# Helper lemmas: the series of `hyperg`
-/

namespace Catima

theorem kummerTerm_zero (a b z : ℂ) : kummerTerm a b z 0 = 1 := by simp [kummerTerm]

theorem kummerTerm_succ (a b z : ℂ) (m : ℕ) :
    kummerTerm a b z (m + 1) = kummerTerm a b z m * ((a + m) / (b + m)) * (z / (m + 1)) := by
  unfold kummerTerm
  rw [ascPochhammer_succ_eval, ascPochhammer_succ_eval, mul_div_mul_comm, pow_succ, Nat.factorial_succ]
  push_cast
  rw [div_eq_mul_inv, div_eq_mul_inv _ ((m : ℂ) + 1), div_eq_mul_inv _ (m.factorial : ℂ), mul_inv]
  ring

theorem kummerTerm_ratio (a b z : ℂ) (m : ℕ) (q : ℝ) (hb : b + m ≠ 0)
    (h : ‖a + m‖ * ‖z‖ ≤ q * (‖b + m‖ * (m + 1))) :
    ‖kummerTerm a b z (m + 1)‖ ≤ q * ‖kummerTerm a b z m‖ := by
  rw [kummerTerm_succ, norm_mul, norm_mul, norm_div, norm_div]
  have h1 : 0 < ‖b + m‖ := norm_pos_iff.mpr hb
  have h2 : ‖(m : ℂ) + 1‖ = m + 1 := by
    have : (m : ℂ) + 1 = ((m + 1 : ℕ) : ℂ) := by push_cast; rfl
    rw [this, Complex.norm_natCast]
    push_cast
    rfl
  rw [h2, mul_assoc, div_mul_div_comm, mul_comm]
  apply mul_le_mul_of_nonneg_right _ (norm_nonneg _)
  rw [div_le_iff₀ (by positivity)]
  exact h

/-- The terms decrease at least by half from some index on. -/
theorem kummerTerm_eventually (a b z : ℂ) (hb : ∀ m : ℕ, b + m ≠ 0) :
    ∃ n₀ : ℕ, ∀ n ≥ n₀, ‖kummerTerm a b z (n + 1)‖ ≤ 1 / 2 * ‖kummerTerm a b z n‖ := by
  obtain ⟨n₀, hn₀⟩ := exists_nat_ge (‖a‖ + 2 * ‖b‖ + 8 * ‖z‖)
  refine ⟨n₀, fun n hn => kummerTerm_ratio a b z n _ (hb n) ?_⟩
  have ha := norm_nonneg a
  have hbn := norm_nonneg b
  have hz := norm_nonneg z
  have hn' : (n₀ : ℝ) ≤ n := by exact_mod_cast hn
  have e1 : ‖a + n‖ ≤ 2 * n := by
    have := norm_add_le a (n : ℂ)
    rw [Complex.norm_natCast] at this
    linarith
  have e2 : (n : ℝ) / 2 ≤ ‖b + n‖ := by
    have := norm_sub_norm_le (n : ℂ) (-b)
    rw [Complex.norm_natCast, norm_neg, sub_neg_eq_add, add_comm (n : ℂ)] at this
    linarith
  have hnn : (0 : ℝ) ≤ n := by positivity
  calc ‖a + n‖ * ‖z‖ ≤ 2 * n * ((n + 1) / 8) := by
        apply mul_le_mul e1 (by linarith) hz (by positivity)
    _ = 1 / 2 * (n / 2 * (n + 1)) := by ring
    _ ≤ _ := by gcongr

theorem kummerTerm_summable (a b z : ℂ) (hb : ∀ m : ℕ, b + m ≠ 0) : Summable (kummerTerm a b z) := by
  obtain ⟨n₀, h⟩ := kummerTerm_eventually a b z hb
  exact summable_of_ratio_norm_eventually_le (by norm_num : (1 / 2 : ℝ) < 1)
    (Filter.eventually_atTop.mpr ⟨n₀, h⟩)

/-- One turn of the loop. -/
theorem hyperg_turn (a b z : Cpx ℝ) (m : ℕ) (term : Cpx ℝ)
    (ht : term.toC = kummerTerm a.toC b.toC z.toC m) :
    (term * ((a + (⟨(m : ℝ) + 1.0 - 1.0, 0.0⟩ : Cpx ℝ)) / (b + (⟨(m : ℝ) + 1.0 - 1.0, 0.0⟩ : Cpx ℝ))) *
      (z.sdiv ((m : ℝ) + 1.0))).toC = kummerTerm a.toC b.toC z.toC (m + 1) := by
  have hm : (⟨(m : ℝ) + 1.0 - 1.0, 0.0⟩ : Cpx ℝ).toC = (m : ℂ) := by
    apply Complex.ext
    · simp [Cpx.toC]
    · simp [Cpx.toC]; norm_num
  have h1 : (((m : ℝ) + 1.0 : ℝ) : ℂ) = (m : ℂ) + 1 := by norm_num
  rw [Cpx.toC_mul, Cpx.toC_mul, Cpx.toC_div, Cpx.toC_add, Cpx.toC_add, Cpx.toC_sdiv, hm, h1, ht,
    kummerTerm_succ]

theorem hypergLoop_spec (a b z : Cpx ℝ) (N : ℕ)
    (hN : ‖kummerTerm a.toC b.toC z.toC N‖ ≤ 1e-6)
    (hlt : ∀ n < N, 1e-6 < ‖kummerTerm a.toC b.toC z.toC n‖) (s : Cpx ℝ)
    (hs : s.toC = ∑ n ∈ Finset.range (N + 1), kummerTerm a.toC b.toC z.toC n) (fuel : ℕ) :
    ∀ (m : ℕ) (dm : ℝ) (term sumterm : Cpx ℝ), m < N → dm = m →
      term.toC = kummerTerm a.toC b.toC z.toC m →
      sumterm.toC = ∑ n ∈ Finset.range (m + 1), kummerTerm a.toC b.toC z.toC n →
      hypergLoop a b z fuel dm term sumterm = if N ≤ m + fuel then some s else none := by
  induction fuel with
  | zero =>
    intro m dm term sumterm hm _ _ _
    rw [if_neg (by omega)]
    rfl
  | succ fuel ih =>
    intro m dm term sumterm hm hdm ht hsum
    subst hdm
    have hturn := hyperg_turn a b z m term ht
    have hsum' : (sumterm + term * ((a + (⟨(m : ℝ) + 1.0 - 1.0, 0.0⟩ : Cpx ℝ)) /
        (b + (⟨(m : ℝ) + 1.0 - 1.0, 0.0⟩ : Cpx ℝ))) * (z.sdiv ((m : ℝ) + 1.0))).toC =
        ∑ n ∈ Finset.range (m + 2), kummerTerm a.toC b.toC z.toC n := by
      rw [Cpx.toC_add, hturn, hsum, Finset.sum_range_succ _ (m + 1)]
    have hprev : 1e-6 < term.abs := by rw [Cpx.abs_real, ht]; exact hlt m hm
    unfold hypergLoop
    dsimp only
    rw [show (1.0e-6 : ℝ) = 1e-6 by norm_num]
    generalize term * ((a + (⟨(m : ℝ) + 1.0 - 1.0, 0.0⟩ : Cpx ℝ)) /
        (b + (⟨(m : ℝ) + 1.0 - 1.0, 0.0⟩ : Cpx ℝ))) * (z.sdiv ((m : ℝ) + 1.0)) = term' at *
    by_cases hlast : m + 1 = N
    · rw [if_neg (by
        rw [Bool.and_eq_true, lt_real, lt_real, not_and_or]
        left
        rw [Cpx.abs_real, hturn, hlast, not_lt]
        exact hN), if_pos (by omega)]
      congr 1
      apply Cpx.toC_inj
      rw [hsum', hs, ← hlast]
    · rw [if_pos (by
        rw [Bool.and_eq_true, lt_real, lt_real]
        refine ⟨?_, hprev⟩
        rw [Cpx.abs_real, hturn]
        exact hlt (m + 1) (by omega))]
      rw [ih (m + 1) _ _ _ (by omega) (by push_cast; norm_num) hturn hsum']
      congr 1
      apply propext
      constructor <;> intro <;> omega

end Catima
