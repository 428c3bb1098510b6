import Verif.Lemmas.Hypergeometric

/-!
# C92: the confluent hypergeometric function
-/

namespace Catima

/-- C92: for every `b` that is not zero or a negative integer the loop of `hyperg` ends, whatever
`a` and `z` are, and the result is the sum of the series up to and including the first term of
absolute value at most `10^-6`. -/
theorem hyperg_series (a b z : Cpx ℝ) (hb : ∀ m : ℕ, b.toC + m ≠ 0) :
    ∃ (N : ℕ) (s : Cpx ℝ), ‖kummerTerm a.toC b.toC z.toC N‖ ≤ 1e-6 ∧
      (∀ n < N, 1e-6 < ‖kummerTerm a.toC b.toC z.toC n‖) ∧
      s.toC = ∑ n ∈ Finset.range (N + 1), kummerTerm a.toC b.toC z.toC n ∧
      ∀ fuel, hyperg fuel a b z = if N ≤ fuel then some s else none := by
  have hsm := kummerTerm_summable a.toC b.toC z.toC hb
  have ht := hsm.tendsto_atTop_zero
  obtain ⟨n, hn⟩ : ∃ n, ‖kummerTerm a.toC b.toC z.toC n‖ ≤ 1e-6 := by
    obtain ⟨n, hn⟩ := (Metric.tendsto_atTop.mp ht) 1e-6 (by norm_num)
    refine ⟨n, ?_⟩
    have := hn n le_rfl
    rw [dist_zero_right] at this
    exact this.le
  classical
  have hex : ∃ n, ‖kummerTerm a.toC b.toC z.toC n‖ ≤ 1e-6 := ⟨n, hn⟩
  have h0 : 0 < Nat.find hex := by
    rw [Nat.find_pos, kummerTerm_zero]
    norm_num
  refine ⟨Nat.find hex, ⟨(∑ n ∈ Finset.range (Nat.find hex + 1), kummerTerm a.toC b.toC z.toC n).re,
    (∑ n ∈ Finset.range (Nat.find hex + 1), kummerTerm a.toC b.toC z.toC n).im⟩, Nat.find_spec hex,
    fun n hn => not_le.mp (Nat.find_min hex hn), rfl, fun fuel => ?_⟩
  unfold hyperg
  rw [hypergLoop_spec a b z _ (Nat.find_spec hex) (fun n hn => not_le.mp (Nat.find_min hex hn))
    ⟨(∑ n ∈ Finset.range (Nat.find hex + 1), kummerTerm a.toC b.toC z.toC n).re,
    (∑ n ∈ Finset.range (Nat.find hex + 1), kummerTerm a.toC b.toC z.toC n).im⟩ rfl
    fuel 0 _ _ _ h0 (by norm_num)
    (by rw [kummerTerm_zero]; apply Complex.ext <;> norm_num [Cpx.toC])
    (by rw [Finset.sum_range_one, kummerTerm_zero]; apply Complex.ext <;> norm_num [Cpx.toC]), zero_add]

/-- C92, what holds: where every term of the series is at most half as large as its
predecessor, the result is within `10^-6` of `₁F₁(a; b; z)`. -/
theorem hyperg_error_partial (a b z : Cpx ℝ) (hb : ∀ m : ℕ, b.toC + m ≠ 0)
    (h : ∀ m : ℕ, ‖a.toC + m‖ * ‖z.toC‖ ≤ 1 / 2 * (‖b.toC + m‖ * (m + 1))) :
    ∃ (N : ℕ) (s : Cpx ℝ), (∀ fuel ≥ N, hyperg fuel a b z = some s) ∧
      ‖s.toC - kummer a.toC b.toC z.toC‖ ≤ 1e-6 := by
  obtain ⟨N, s, hN, -, hs, hf⟩ := hyperg_series a b z hb
  refine ⟨N, s, fun fuel hle => by rw [hf, if_pos hle], ?_⟩
  have hsm := kummerTerm_summable a.toC b.toC z.toC hb
  have htail := hsm.sum_add_tsum_nat_add (N + 1)
  rw [hs, kummer, ← htail, sub_add_cancel_left, norm_neg]
  have hgeo : ∀ i, ‖kummerTerm a.toC b.toC z.toC (i + (N + 1))‖ ≤ 1e-6 / 2 * (1 / 2) ^ i := by
    intro i
    induction i with
    | zero =>
      rw [zero_add, pow_zero, mul_one]
      have := kummerTerm_ratio a.toC b.toC z.toC N _ (hb N) (h N)
      linarith
    | succ i ih =>
      have := kummerTerm_ratio a.toC b.toC z.toC (i + (N + 1)) _ (hb _) (h _)
      rw [show i + 1 + (N + 1) = i + (N + 1) + 1 by ring, pow_succ]
      linarith
  have hsum : HasSum (fun i : ℕ => (1e-6 : ℝ) / 2 * (1 / 2) ^ i) 1e-6 := by
    have := (hasSum_geometric_of_lt_one (by norm_num : (0 : ℝ) ≤ 1 / 2) (by norm_num)).mul_left ((1e-6 : ℝ) / 2)
    norm_num at this ⊢
    exact this
  exact tsum_of_norm_bounded hsum hgeo

/-- C92 in `bethek_lindhard`: the function regular at the origin, outside the region of very high
energies. -/
theorem hyperg_regular (sk eta x : ℝ) (hs : 0 ≤ sk) (he : 0 ≤ eta) (hx : 0 ≤ x)
    (hsmall : 2 * x * (1 + eta) ≤ 1 / 2) :
    ∃ (N : ℕ) (s : Cpx ℝ), (∀ fuel ≥ N, hyperg fuel ⟨sk + 1, eta⟩ ⟨2 * sk + 1, 0⟩ ⟨0, 2 * x⟩ = some s) ∧
      ‖s.toC - kummer (sk + 1 + eta * Complex.I) (2 * sk + 1) (2 * x * Complex.I)‖ ≤ 1e-6 := by
  have ea : (⟨sk + 1, eta⟩ : Cpx ℝ).toC = sk + 1 + eta * Complex.I := by
    apply Complex.ext <;> simp [Cpx.toC]
  have eb : (⟨2 * sk + 1, 0⟩ : Cpx ℝ).toC = 2 * sk + 1 := by
    apply Complex.ext <;> simp [Cpx.toC]
  have ez : (⟨0, 2 * x⟩ : Cpx ℝ).toC = 2 * x * Complex.I := by
    apply Complex.ext <;> simp [Cpx.toC]
  have ebm : ∀ m : ℕ, (2 * sk + 1 + m : ℂ) = ((2 * sk + 1 + m : ℝ) : ℂ) := by intro m; push_cast; rfl
  have hpos : ∀ m : ℕ, (0 : ℝ) < 2 * sk + 1 + m := by intro m; positivity
  rw [← ea, ← eb, ← ez]
  apply hyperg_error_partial
  · intro m
    rw [eb, ebm, Complex.ofReal_ne_zero]
    exact (hpos m).ne'
  · intro m
    rw [ea, eb, ez, ebm, Complex.norm_real, Real.norm_of_nonneg (hpos m).le]
    have e1 : ‖(sk + 1 + eta * Complex.I + m : ℂ)‖ ≤ (sk + 1 + m) + eta := by
      have : (sk + 1 + eta * Complex.I + m : ℂ) = ((sk + 1 + m : ℝ) : ℂ) + eta * Complex.I := by
        push_cast; ring
      rw [this]
      refine (norm_add_le _ _).trans ?_
      rw [norm_mul, Complex.norm_I, mul_one, Complex.norm_real, Complex.norm_real,
        Real.norm_of_nonneg (by positivity), Real.norm_of_nonneg he]
    have e2 : ‖(2 * x * Complex.I : ℂ)‖ = 2 * x := by
      rw [norm_mul, Complex.norm_I, mul_one, norm_mul, Complex.norm_real, Real.norm_of_nonneg hx]
      norm_num
    rw [e2]
    have hm : (0 : ℝ) ≤ m := by positivity
    calc ‖(sk + 1 + eta * Complex.I + m : ℂ)‖ * (2 * x) ≤ ((2 * sk + 1 + m) * (1 + eta)) * (2 * x) := by
          apply mul_le_mul_of_nonneg_right _ (by linarith)
          nlinarith [mul_nonneg hs he, mul_nonneg hm he]
      _ = (2 * sk + 1 + m) * (2 * x * (1 + eta)) := by ring
      _ ≤ (2 * sk + 1 + m) * (1 / 2) := by gcongr
      _ ≤ _ := by nlinarith [hpos m]

/-- Uranium at 1 GeV/u: `sk` about 0.74, `eta` about 0.77, `x` about 0.034. -/
example : ∃ (N : ℕ) (s : Cpx ℝ),
    (∀ fuel ≥ N, hyperg fuel ⟨0.74 + 1, 0.77⟩ ⟨2 * 0.74 + 1, 0⟩ ⟨0, 2 * 0.034⟩ = some s) ∧
      ‖s.toC - kummer ((0.74 : ℝ) + 1 + (0.77 : ℝ) * Complex.I) (2 * (0.74 : ℝ) + 1)
        (2 * (0.034 : ℝ) * Complex.I)‖ ≤ 1e-6 :=
  hyperg_regular _ _ _ (by norm_num) (by norm_num) (by norm_num) (by norm_num)

/-- C92 is violated in general: the loop ends at the first small term, even if later terms are
large.  For `a = 10^-8`, `b = 1`, `z = 20` the result is wrong by more than 0.02. -/
theorem hyperg_error_wrong : ∃ s : Cpx ℝ, (∀ fuel ≥ 1, hyperg fuel ⟨1e-8, 0⟩ ⟨1, 0⟩ ⟨20, 0⟩ = some s) ∧
    ‖s.toC - kummer ((1e-8 : ℝ) : ℂ) 1 20‖ > 0.02 := by
  have ea : (⟨1e-8, 0⟩ : Cpx ℝ).toC = ((1e-8 : ℝ) : ℂ) := rfl
  have eb : (⟨1, 0⟩ : Cpx ℝ).toC = 1 := rfl
  have ez : (⟨20, 0⟩ : Cpx ℝ).toC = 20 := rfl
  have hb : ∀ m : ℕ, (⟨1, 0⟩ : Cpx ℝ).toC + m ≠ 0 := by
    intro m
    rw [eb]
    have : (1 : ℂ) + m = ((1 + m : ℕ) : ℂ) := by push_cast; rfl
    rw [this]
    exact_mod_cast (by omega : 1 + m ≠ 0)
  obtain ⟨N, s, hN, hlt, hs, hf⟩ := hyperg_series ⟨1e-8, 0⟩ ⟨1, 0⟩ ⟨20, 0⟩ hb
  have hsm := kummerTerm_summable (⟨1e-8, 0⟩ : Cpx ℝ).toC _ (⟨20, 0⟩ : Cpx ℝ).toC hb
  rw [ea, eb, ez] at hN hs hsm
  simp only [ea, eb, ez] at hlt
  -- the terms are real and non-negative
  let r : ℕ → ℝ := fun m => (ascPochhammer ℝ m).eval (1e-8 : ℝ) / (ascPochhammer ℝ m).eval 1 * 20 ^ m / m.factorial
  have hr : ∀ m, kummerTerm ((1e-8 : ℝ) : ℂ) 1 20 m = (r m : ℂ) := by
    intro m
    have h1 : ((ascPochhammer ℂ m).eval ((1e-8 : ℝ) : ℂ)) = (((ascPochhammer ℝ m).eval (1e-8 : ℝ) : ℝ) : ℂ) := by
      rw [← ascPochhammer_map (algebraMap ℝ ℂ), Polynomial.eval_map]
      exact Polynomial.eval₂_at_apply (algebraMap ℝ ℂ) _
    have h2 : ((ascPochhammer ℂ m).eval 1) = (((ascPochhammer ℝ m).eval 1 : ℝ) : ℂ) := by
      rw [ascPochhammer_eval_one, ascPochhammer_eval_one]
      push_cast; rfl
    simp only [kummerTerm, r, h1, h2]
    push_cast
    rfl
  have hrs : ∀ m, r (m + 1) = r m * ((1e-8 + m) / (1 + m)) * (20 / (m + 1)) := by
    intro m
    have := kummerTerm_succ ((1e-8 : ℝ) : ℂ) 1 20 m
    rw [hr, hr] at this
    have h' : ((r (m + 1) : ℝ) : ℂ) = ((r m * ((1e-8 + m) / (1 + m)) * (20 / (m + 1)) : ℝ) : ℂ) := by
      rw [this]; push_cast; rfl
    exact_mod_cast h'
  have hr0 : r 0 = 1 := by simp [r]
  have hpos : ∀ m, 0 ≤ r m := by
    intro m
    induction m with
    | zero => rw [hr0]; norm_num
    | succ m ih => rw [hrs]; positivity
  have hr1 : r 1 = 2e-7 := by
    rw [hrs 0, hr0]; norm_num
  have hN1 : N = 1 := by
    rcases Nat.lt_trichotomy N 1 with h | h | h
    · have : N = 0 := by omega
      rw [this, hr, hr0] at hN
      norm_num at hN
    · exact h
    · have := hlt 1 h
      rw [hr, hr1, Complex.norm_real] at this
      norm_num at this
  subst hN1
  refine ⟨s, fun fuel hle => by rw [hf, if_pos hle], ?_⟩
  have htail := hsm.sum_add_tsum_nat_add 2
  rw [hs, kummer, ← htail, sub_add_cancel_left, norm_neg]
  rw [funext hr] at hsm
  simp only [hr]
  have hsr : Summable r := Complex.summable_ofReal.mp hsm
  have hsr2 : Summable fun i => r (i + 2) := (summable_nat_add_iff 2).mpr hsr
  rw [← Complex.ofReal_tsum, Complex.norm_real, Real.norm_of_nonneg (tsum_nonneg fun i => hpos _)]
  refine lt_of_lt_of_le ?_ (hsr2.le_tsum 18 fun i _ => hpos _)
  have key : ∀ m : ℕ, r (m + 1) ≥ 1e-8 * 20 ^ (m + 1) / ((m + 1) * (m + 1).factorial) := by
    intro m
    induction m with
    | zero => rw [hrs, hr0]; norm_num
    | succ m ih =>
      rw [hrs]
      have hm : (0 : ℝ) ≤ m := by positivity
      have hf : (0 : ℝ) < (m + 1).factorial := by positivity
      calc r (m + 1) * ((1e-8 + (m + 1 : ℕ)) / (1 + (m + 1 : ℕ))) * (20 / ((m + 1 : ℕ) + 1))
          ≥ 1e-8 * 20 ^ (m + 1) / ((m + 1) * (m + 1).factorial) *
            ((m + 1) / (1 + (m + 1))) * (20 / ((m + 1) + 1)) := by
            push_cast
            have e1 : (m + 1 : ℝ) / (1 + (m + 1)) ≤ (1e-8 + (m + 1)) / (1 + (m + 1)) := by
              apply div_le_div_of_nonneg_right _ (by positivity)
              norm_num
            exact mul_le_mul_of_nonneg_right (mul_le_mul ih e1 (by positivity) (hpos _)) (by positivity)
        _ = 1e-8 * 20 ^ (m + 1 + 1) / (((m + 1 : ℕ) + 1) * (m + 1 + 1).factorial) := by
            rw [Nat.factorial_succ (m + 1)]
            push_cast
            field_simp
            ring
  refine lt_of_lt_of_le ?_ (key 19)
  norm_num [Nat.factorial]

end Catima
