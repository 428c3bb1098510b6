import Verif.Props.LindhardSeries
import Verif.Props.Hypergeometric
import Verif.Lemmas.InsideSeries

/-!
# C95: the loops of the Lindhard-Sørensen calculation end
-/

namespace Catima

/-- `2 √(k² - (αZ)²)` is not an integer: the constant `α` of the library is a fraction whose
denominator has no factor in common with small charges. -/
theorem two_sk_ne (Z : ℕ) (hZ1 : 1 ≤ Z) (hZ2 : Z ≤ 118) (k : ℤ) (hk : k ≠ 0) (m : ℕ) :
    2 * √((k : ℝ) * k - fine_structure * fine_structure * Z * Z) ≠ m := by
  intro h
  have hα : (fine_structure : ℝ) = 1000000000 / 137035999139 := by
    unfold fine_structure; norm_num
  have hnn : (0 : ℝ) ≤ (k : ℝ) * k - fine_structure * fine_structure * Z * Z := by
    have h1 : (1 : ℝ) ≤ (k : ℝ) * k := by
      have : (1 : ℤ) ≤ k * k := by
        have := mul_self_pos.mpr hk
        omega
      exact_mod_cast this
    have h2 : (Z : ℝ) ≤ 118 := by exact_mod_cast hZ2
    have h3 : (0 : ℝ) ≤ Z := by positivity
    have h4 : (fine_structure : ℝ) * fine_structure * Z * Z ≤ fine_structure * fine_structure * 118 * 118 := by
      have : (0 : ℝ) ≤ fine_structure := by rw [hα]; norm_num
      gcongr
    have h5 : (fine_structure : ℝ) * fine_structure * 118 * 118 ≤ 1 := by rw [hα]; norm_num
    linarith
  have hsq := Real.mul_self_sqrt hnn
  have h2 : (m : ℝ) * m = 4 * ((k : ℝ) * k) - 4 * (fine_structure * fine_structure * Z * Z) := by
    rw [← h]
    linear_combination 4 * hsq
  rw [hα] at h2
  have h3 : (m : ℝ) * m * (137035999139 * 137035999139) =
      4 * ((k : ℝ) * k) * (137035999139 * 137035999139) - 4 * (1000000000 * 1000000000 * Z * Z) := by
    rw [h2]; ring
  have h4 : (m : ℤ) * m * (137035999139 * 137035999139) =
      4 * (k * k) * (137035999139 * 137035999139) - 4 * (1000000000 * 1000000000 * Z * Z) := by
    exact_mod_cast h3
  have hdvd : (137035999139 * 137035999139 : ℤ) ∣ 4000000000000000000 * (Z * Z) :=
    ⟨4 * (k * k) - m * m, by linear_combination h4⟩
  have hco : IsCoprime (137035999139 * 137035999139 : ℤ) 4000000000000000000 := by
    rw [Int.isCoprime_iff_gcd_eq_one]
    decide
  have hd2 := hco.dvd_of_dvd_mul_left hdvd
  have hle := Int.le_of_dvd (by positivity) hd2
  have hZi : (Z : ℤ) ≤ 118 := by exact_mod_cast hZ2
  have hZp : (0 : ℤ) ≤ Z := by positivity
  nlinarith

/-- C93: the phase shifts never ask for `lngamma` on the imaginary axis, where it is wrong: none of the four
arguments (calculations.cpp:200-226) has real part zero. -/
theorem lngamma_arguments (Z : ℕ) (hZ1 : 1 ≤ Z) (hZ2 : Z ≤ 118) (k : ℤ) (hk : k ≠ 0) (sk : ℝ)
    (hsk : sk = √((k : ℝ) * k - (1 / 137.035999139) * (1 / 137.035999139) * Z * Z)) :
    sk + 1 ≠ 0 ∧ -sk + 1 ≠ 0 ∧ 2 * sk + 1 ≠ 0 ∧ -2 * sk + 1 ≠ 0 := by
  have e : (fine_structure : ℝ) = 1 / 137.035999139 := by unfold fine_structure; norm_num
  have h0 : 0 ≤ sk := by rw [hsk]; exact Real.sqrt_nonneg _
  have h1 := two_sk_ne Z hZ1 hZ2 k hk 1
  have h2 := two_sk_ne Z hZ1 hZ2 k hk 2
  rw [e, ← hsk] at h1 h2
  push_cast at h1 h2
  refine ⟨by linarith, fun h => h2 (by linarith), by linarith, fun h => h1 (by linarith)⟩

/-- Loops that end with the same value from some number of turns on. -/
theorem ends_bind {β γ : Type} (F : ℕ → Option β) (G : ℕ → β → Option γ)
    (hF : ∃ N r, ∀ fuel ≥ N, F fuel = some r) (hG : ∀ r, ∃ N v, ∀ fuel ≥ N, G fuel r = some v) :
    ∃ N v, ∀ fuel ≥ N, (F fuel >>= G fuel) = some v := by
  obtain ⟨N1, r, h1⟩ := hF
  obtain ⟨N2, v, h2⟩ := hG r
  refine ⟨max N1 N2, v, fun fuel hf => ?_⟩
  rw [h1 fuel (le_trans (le_max_left _ _) hf), some_bind', h2 fuel (le_trans (le_max_right _ _) hf)]

theorem ends_ite {β : Type} (b : Prop) [Decidable b] (F G : ℕ → Option β)
    (hF : ∃ N r, ∀ fuel ≥ N, F fuel = some r) (hG : ∃ N r, ∀ fuel ≥ N, G fuel = some r) :
    ∃ N r, ∀ fuel ≥ N, (if b then F fuel else G fuel) = some r := by
  by_cases h : b
  · simp only [if_pos h]; exact hF
  · simp only [if_neg h]; exact hG

theorem hyperg_ends (a b z : Cpx ℝ) (hb : ∀ m : ℕ, b.toC + m ≠ 0) :
    ∃ N r, ∀ fuel ≥ N, hyperg fuel a b z = some r := by
  obtain ⟨N, s, -, -, -, h⟩ := hyperg_series a b z hb
  exact ⟨N, s, fun fuel hf => by rw [h, if_pos hf]⟩

/-- A phase shift is computed in finitely many turns if the loop inside the nucleus ends. -/
theorem phaseShift_ends (c : LsInput ℝ) (Z : ℕ) (hZ1 : 1 ≤ Z) (hZ2 : Z ≤ 118) (hZ : c.Z = Z)
    (k : ℤ) (hk : k ≠ 0)
    (hin : ∀ sg : ℝ, (0 < k → sg = 1) → (k < 0 → sg = -1) →
      ∃ N r, ∀ fuel ≥ N, insideLoop c.rho (-1.0 * sg * (c.rho * c.gamma + 1.5 * c.Z * fine_structure))
        (-1.0 * sg * c.Z) |(k : ℝ)| fuel
        (0.5 * (-1.0 * sg * (c.rho * c.gamma + 1.5 * c.Z * fine_structure) + c.rho) * 1.0)
        ((1.0 + 2.0 * |(k : ℝ)|) * 1.0 /
          (c.rho - -1.0 * sg * (c.rho * c.gamma + 1.5 * c.Z * fine_structure))) 1.0
        ((1.0 + 2.0 * |(k : ℝ)|) * 1.0 /
          (c.rho - -1.0 * sg * (c.rho * c.gamma + 1.5 * c.Z * fine_structure))) 1.0 1.0 = some r) :
    ∃ N v, ∀ fuel ≥ N, phaseShift fuel c (k : ℝ) = some v := by
  have e1 : (1.0 : ℝ) = 1 := by norm_num
  have e2 : (2.0 : ℝ) = 2 := by norm_num
  have e0 : (0.0 : ℝ) = 0 := by norm_num
  unfold phaseShift
  dsimp only
  apply ends_bind
  · apply hyperg_ends
    intro m
    simp only [sqrt_real]
    have hs := Real.sqrt_nonneg ((k : ℝ) * k - fine_structure * fine_structure * c.Z * c.Z)
    intro h
    have := congrArg Complex.re h
    rw [Complex.add_re, Cpx.toC_re, Complex.natCast_re, Complex.zero_re, e1, e2] at this
    have hm : (0 : ℝ) ≤ m := by positivity
    linarith
  intro hr
  apply ends_bind
  · apply hyperg_ends
    intro m
    simp only [sqrt_real]
    intro h
    have := congrArg Complex.re h
    rw [Complex.add_re, Cpx.toC_re, Complex.natCast_re, Complex.zero_re, e1, e2, hZ] at this
    apply two_sk_ne Z hZ1 hZ2 k hk (m + 1)
    push_cast
    linarith
  intro hs
  apply ends_ite
  · -- the series inside the nucleus
    apply ends_bind
    · rw [fabs_real]
      apply hin
      · intro h
        have h : (0 : ℝ) < k := by exact_mod_cast h
        rw [if_pos (by rw [lt_real, e0]; exact h), e1]
      · intro h
        have h : (k : ℝ) < 0 := by exact_mod_cast h
        rw [if_neg (by rw [lt_real, e0]; linarith), if_pos (by rw [lt_real, e0]; exact h), e1]
    · intro r
      exact ⟨0, _, fun _ _ => rfl⟩
  · exact ⟨0, _, fun _ _ => rfl⟩

/-- The bounds that make the sum inside the nucleus differ from zero. -/
theorem inside_small (rho gamma Z sg : ℝ) (hρ : 0 < rho) (hγ : 1 ≤ gamma) (hZ : 1 ≤ Z)
    (hsmall : rho * (1 + gamma) + 1.5 * Z * fine_structure ≤ 3 / 2) (hsg : sg = 1 ∨ sg = -1) :
    |rho - -1.0 * sg * (rho * gamma + 1.5 * Z * fine_structure)| ≤ 3 / 2 ∧
    |(-1.0 * sg * (rho * gamma + 1.5 * Z * fine_structure)) + rho| ≤ 3 / 2 ∧
    |fine_structure * (-1.0 * sg * Z) / 2.0| ≤ 3 / 2 := by
  have e1 : (1.0 : ℝ) = 1 := by norm_num
  have e2 : (2.0 : ℝ) = 2 := by norm_num
  have e15 : (1.5 : ℝ) = 3 / 2 := by norm_num
  have hα : (0 : ℝ) < fine_structure := by unfold fine_structure; norm_num
  have hZα : 0 < Z * fine_structure := by positivity
  have hργ : rho * 1 ≤ rho * gamma := mul_le_mul_of_nonneg_left hγ hρ.le
  rw [e15] at hsmall ⊢
  rw [e1, e2]
  rcases hsg with rfl | rfl
  · refine ⟨abs_le.mpr ⟨?_, ?_⟩, abs_le.mpr ⟨?_, ?_⟩, abs_le.mpr ⟨?_, ?_⟩⟩ <;> nlinarith
  · refine ⟨abs_le.mpr ⟨?_, ?_⟩, abs_le.mpr ⟨?_, ?_⟩, abs_le.mpr ⟨?_, ?_⟩⟩ <;> nlinarith

theorem inside_denominator (rho gamma Z sg : ℝ) (hρ : 0 < rho) (hγ : 1 ≤ gamma) (hZ : 1 ≤ Z)
    (hsg : sg = 1 ∨ sg = -1) :
    rho - -1.0 * sg * (rho * gamma + 1.5 * Z * fine_structure) ≠ 0 := by
  have e1 : (1.0 : ℝ) = 1 := by norm_num
  have e15 : (1.5 : ℝ) = 3 / 2 := by norm_num
  have hα : (0 : ℝ) < fine_structure := by unfold fine_structure; norm_num
  have hZα : 0 < Z * fine_structure := by positivity
  have hργ : rho * 1 ≤ rho * gamma := mul_le_mul_of_nonneg_left hγ hρ.le
  rw [e1, e15]
  rcases hsg with rfl | rfl
  · intro h; nlinarith
  · intro h; nlinarith

/-- The sign that the code computes. -/
noncomputable def sgn (k : ℤ) : ℝ := if 0 < k then 1 else -1

theorem sgn_cases (k : ℤ) : sgn k = 1 ∨ sgn k = -1 := by
  unfold sgn
  split_ifs
  · exact Or.inl rfl
  · exact Or.inr rfl

/-- The sum inside the nucleus for the angular quantum number `k`, as function of `γ`. -/
noncomputable def insideAt (rho Z : ℝ) (k : ℤ) (γ : ℝ) : ℂ :=
  insideSum rho (fine_structure * (-1.0 * sgn k * Z) / 2) |(k : ℝ)|
    ((-1.0 * sgn k * (rho * γ + 1.5 * Z * fine_structure) : ℝ) : ℂ)

/-- A phase shift is computed in finitely many turns unless that sum is zero. -/
theorem phaseShift_defined (c : LsInput ℝ) (Z : ℕ) (hZ1 : 1 ≤ Z) (hZ2 : Z ≤ 118) (hZ : c.Z = Z)
    (hρ : 0 < c.rho) (hγ : 1 ≤ c.gamma) (k : ℤ) (hk : k ≠ 0) (hne : insideAt c.rho c.Z k c.gamma ≠ 0) :
    ∃ N v, ∀ fuel ≥ N, phaseShift fuel c (k : ℝ) = some v := by
  have hZp : (1 : ℝ) ≤ c.Z := by rw [hZ]; exact_mod_cast hZ1
  have hkabs : (1 : ℝ) ≤ |(k : ℝ)| := by
    have : (1 : ℤ) ≤ |k| := Int.one_le_abs hk
    exact_mod_cast this
  refine phaseShift_ends c Z hZ1 hZ2 hZ k hk fun sg h1 h2 => ?_
  have hsg : sg = sgn k := by
    unfold sgn
    split_ifs with h
    · exact h1 h
    · exact h2 (by omega)
  subst hsg
  exact insideLoop_defined_of_sum _ _ _ _ hkabs
    (inside_denominator _ _ _ _ hρ hγ hZp (sgn_cases k)) hne

/-- It is not zero while `R (1 + γ) + 1.5 αZ ≤ 1.5`. -/
theorem insideAt_ne_zero (rho gamma Z : ℝ) (hρ : 0 < rho) (hγ : 1 ≤ gamma) (hZ : 1 ≤ Z)
    (hsmall : rho * (1 + gamma) + 1.5 * Z * fine_structure ≤ 3 / 2) (k : ℤ) (hk : k ≠ 0) :
    insideAt rho Z k gamma ≠ 0 := by
  have hkabs : (1 : ℝ) ≤ |(k : ℝ)| := by
    have : (1 : ℤ) ≤ |k| := Int.one_le_abs hk
    exact_mod_cast this
  obtain ⟨h1, h2, h3⟩ := inside_small rho gamma Z (sgn k) hρ hγ hZ hsmall (sgn_cases k)
  exact insideSum_ne_zero _ _ _ _ hkabs h1 (inside_denominator _ _ _ _ hρ hγ hZ (sgn_cases k)) h2 h3

/-- It is zero at finitely many energies below every bound. -/
theorem insideAt_zeros (rho Z : ℝ) (hρ : 0 < rho) (hZ : 1 ≤ Z)
    (hsmall : rho * 2 + 1.5 * Z * fine_structure ≤ 3 / 2) (k : ℤ) (hk : k ≠ 0) (E : ℝ) :
    {T : ℝ | 0 < T ∧ T ≤ E ∧ insideAt rho Z k (1 + T / 931.4940954) = 0}.Finite := by
  have hkabs : (1 : ℝ) ≤ |(k : ℝ)| := by
    have : (1 : ℤ) ≤ |k| := Int.one_le_abs hk
    exact_mod_cast this
  have h1 := insideAt_ne_zero rho 1 Z hρ le_rfl hZ (by linarith) k hk
  have hfin := insideSum_zeros rho (fine_structure * (-1.0 * sgn k * Z) / 2) |(k : ℝ)| hkabs _ h1
    (rho * (1 + E / 931.4940954) + 1.5 * Z * fine_structure)
  have hα : (0 : ℝ) < fine_structure := by unfold fine_structure; norm_num
  refine Set.Finite.of_finite_image (f := fun T : ℝ =>
    ((-1.0 * sgn k * (rho * (1 + T / 931.4940954) + 1.5 * Z * fine_structure) : ℝ) : ℂ)) (hfin.subset ?_) ?_
  · rintro _ ⟨T, ⟨hT, hTE, h0⟩, rfl⟩
    refine ⟨?_, h0⟩
    rw [mem_closedBall_zero_iff, Complex.norm_real, Real.norm_eq_abs, abs_mul]
    have : |(-1.0 : ℝ) * sgn k| = 1 := by
      rcases sgn_cases k with h | h <;> rw [h] <;> norm_num
    rw [this, one_mul, abs_of_nonneg (by positivity)]
    gcongr
  · intro S _ T _ h
    have h := Complex.ofReal_injective h
    have hs : (-1.0 : ℝ) * sgn k ≠ 0 := by
      rcases sgn_cases k with h | h <;> rw [h] <;> norm_num
    have h := mul_left_cancel₀ hs h
    have h : rho * (1 + S / 931.4940954) = rho * (1 + T / 931.4940954) := by linarith
    have h := mul_left_cancel₀ hρ.ne' h
    have h : S / 931.4940954 = T / 931.4940954 := by linarith
    exact (div_left_inj' (by norm_num)).mp h

/-- All phase shifts that the series needs are computed in finitely many turns. -/
theorem shifts_defined (c : LsInput ℝ) (Z : ℕ) (hZ1 : 1 ≤ Z) (hZ2 : Z ≤ 118) (hZ : c.Z = Z)
    (hρ : 0 < c.rho) (hγ : 1 ≤ c.gamma)
    (hne : ∀ k : ℤ, k ≠ 0 → |k| ≤ 5001 → insideAt c.rho c.Z k c.gamma ≠ 0) :
    ∃ δ : ℤ → ℝ, ∃ N, ∀ fuel ≥ N, Shifts fuel c δ 4999 := by
  have h : ∀ k : ℤ, ∃ v N, k ≠ 0 → |k| ≤ 5001 → ∀ fuel ≥ N, phaseShift fuel c (k : ℝ) = some v := by
    intro k
    by_cases hk : k = 0
    · exact ⟨0, 0, fun h => absurd hk h⟩
    · by_cases hk2 : |k| ≤ 5001
      · obtain ⟨N, v, h⟩ := phaseShift_defined c Z hZ1 hZ2 hZ hρ hγ k hk (hne k hk hk2)
        exact ⟨v, N, fun _ _ => h⟩
      · exact ⟨0, 0, fun _ h => absurd h hk2⟩
  choose δ N hN using h
  refine ⟨δ, (Finset.Icc (-5001 : ℤ) 5001).sup N, fun fuel hf k hk hkK => ?_⟩
  have hkK : |k| ≤ 5001 := by simpa using hkK
  apply hN k hk hkK
  refine le_trans ?_ hf
  exact Finset.le_sup (f := N) (Finset.mem_Icc.mpr (abs_le.mp hkK))

/-- Both calculations end unless one of the sums inside the nucleus is zero. -/
theorem lindhard_defined_of_sum (p : Projectile ℝ) (Z : ℕ) (hZ1 : 1 ≤ Z) (hZ2 : Z ≤ 118) (hZ : p.Z = Z)
    (hT : 0 < p.T) (γ R : ℝ) (hγ : γ = 1 + p.T / 931.4940954)
    (hR : R = Real.exp (Real.log p.A / 3) * 3.05573356675e-3)
    (hne : ∀ k : ℤ, k ≠ 0 → |k| ≤ 5001 → insideAt R p.Z k γ ≠ 0) :
    ∃ (δ : ℤ → ℝ) (N : ℕ) (L X : ℝ), ∀ fuel ≥ N,
      (∀ k : ℤ, k ≠ 0 → |k| ≤ 5001 → phaseShift fuel (lsInput p) k = some (δ k)) ∧
      bethek_lindhard fuel p = some L ∧ bethek_lindhard_X fuel p = some X ∧
      L = (if γ < 10 / R then
          ∑ k ∈ Finset.Icc 1 4999, lsTerm (p.Z * (1 / 137.035999139) / √(1 - 1 / γ ^ 2)) δ k
        else -Real.log (√(1 - 1 / γ ^ 2) * γ * R) - 0.2) + (1 - 1 / γ ^ 2) / 2 ∧
      X = max 0 (2 * L - (∑ k ∈ Finset.Icc 1 999,
        lsXTerm (p.Z * (1 / 137.035999139) / √(1 - 1 / γ ^ 2)) δ k) - (1 - 1 / γ ^ 2)) := by
  have e1 : (1.0 : ℝ) = 1 := by norm_num
  have e3 : (3.0 : ℝ) = 3 := by norm_num
  have hR0 : 0 < R := by rw [hR]; positivity
  have hγ1 : 1 ≤ γ := by
    rw [hγ]
    have : 0 < p.T / 931.4940954 := by positivity
    linarith
  have hin1 : (lsInput p).rho = R := by
    simp only [lsInput, exp_real, log_real, e3, hR]
  have hin2 : (lsInput p).gamma = γ := by
    simp only [lsInput, atomic_mass_unit, e1, hγ]
  obtain ⟨δ, N, hδ⟩ := shifts_defined (lsInput p) Z hZ1 hZ2 hZ (by rw [hin1]; exact hR0)
    (by rw [hin2]; exact hγ1) (by rw [hin1, hin2]; exact hne)
  obtain ⟨L, hLd⟩ : ∃ L, L = (if γ < 10 / R then
      ∑ k ∈ Finset.Icc 1 4999, lsTerm (p.Z * (1 / 137.035999139) / √(1 - 1 / γ ^ 2)) δ k
      else -Real.log (√(1 - 1 / γ ^ 2) * γ * R) - 0.2) + (1 - 1 / γ ^ 2) / 2 := ⟨_, rfl⟩
  refine ⟨δ, N, L, max 0 (2 * L - (∑ k ∈ Finset.Icc 1 999,
    lsXTerm (p.Z * (1 / 137.035999139) / √(1 - 1 / γ ^ 2)) δ k) - (1 - 1 / γ ^ 2)), fun fuel hf => ?_⟩
  have h1 := hδ fuel hf
  have h2 : Shifts fuel (lsInput p) δ 999 := fun k hk hkK => h1 k hk (by push_cast at hkK ⊢; omega)
  have hL : bethek_lindhard fuel p = some L := by
    rw [hLd]
    by_cases h : γ < 10 / R
    · rw [if_pos h, hγ]
      exact lindhard_series fuel p δ (by rw [← hγ, ← hR]; exact h) h1
    · rw [if_neg h, hγ, hR]
      exact lindhard_ultrarelativistic fuel p (by rw [← hγ, ← hR]; exact not_lt.mp h)
  have hX := lindhard_X_series fuel p δ h2 _ hL
  rw [← hγ] at hX
  exact ⟨fun k hk hkK => h1 k hk (by push_cast; omega), hL, hX, hLd, rfl⟩

/-- C95, what holds for every energy but finitely many below any bound: for the ions of all elements both
calculations end, and yield the sums of the series over the same phase shifts (above `γ = 10 / R` the
first yields a closed expression instead).  Missing: the energies at which the sum of the series inside the nucleus,
an analytic function of the energy, is exactly zero for one of the angular momenta. -/
theorem lindhard_defined_almost_partial (A : ℝ) (hA : 0 < A) (hA2 : A ≤ 1000) (Z : ℕ) (hZ1 : 1 ≤ Z)
    (hZ2 : Z ≤ 118) :
    ∃ bad : Set ℝ, (∀ E, (bad ∩ Set.Iic E).Finite) ∧
      ∀ p : Projectile ℝ, p.A = A → p.Z = Z → 0 < p.T → p.T ∉ bad →
      ∀ γ R : ℝ, γ = 1 + p.T / 931.4940954 → R = Real.exp (Real.log A / 3) * 3.05573356675e-3 →
      ∃ (δ : ℤ → ℝ) (N : ℕ) (L X : ℝ), ∀ fuel ≥ N,
      (∀ k : ℤ, k ≠ 0 → |k| ≤ 5001 → phaseShift fuel (lsInput p) k = some (δ k)) ∧
      bethek_lindhard fuel p = some L ∧ bethek_lindhard_X fuel p = some X ∧
      L = (if γ < 10 / R then
          ∑ k ∈ Finset.Icc 1 4999, lsTerm (p.Z * (1 / 137.035999139) / √(1 - 1 / γ ^ 2)) δ k
        else -Real.log (√(1 - 1 / γ ^ 2) * γ * R) - 0.2) + (1 - 1 / γ ^ 2) / 2 ∧
      X = max 0 (2 * L - (∑ k ∈ Finset.Icc 1 999,
        lsXTerm (p.Z * (1 / 137.035999139) / √(1 - 1 / γ ^ 2)) δ k) - (1 - 1 / γ ^ 2)) := by
  set R := Real.exp (Real.log A / 3) * 3.05573356675e-3 with hR
  have hR0 : 0 < R := by rw [hR]; positivity
  have hRu : R ≤ 10 * 3.05573356675e-3 := by
    rw [hR]
    apply mul_le_mul_of_nonneg_right _ (by norm_num)
    rw [← Real.le_log_iff_exp_le (by norm_num), div_le_iff₀ (by norm_num), mul_comm,
      ← Real.log_rpow (by norm_num)]
    apply Real.log_le_log hA
    norm_num
    exact hA2
  have hsmall : R * 2 + 1.5 * (Z : ℝ) * fine_structure ≤ 3 / 2 := by
    have h2 : (Z : ℝ) ≤ 118 := by exact_mod_cast hZ2
    have h3 : 1.5 * (Z : ℝ) * fine_structure ≤ 1.5 * 118 * fine_structure := by
      have : (0 : ℝ) ≤ fine_structure := by unfold fine_structure; norm_num
      gcongr
    have h4 : (1.5 * 118 * fine_structure : ℝ) ≤ 1.3 := by unfold fine_structure; norm_num
    norm_num at hRu h3 h4 ⊢
    linarith
  have hZp : (1 : ℝ) ≤ Z := by exact_mod_cast hZ1
  refine ⟨{T | 0 < T ∧ ∃ k ∈ Set.Icc (-5001 : ℤ) 5001, k ≠ 0 ∧ insideAt R Z k (1 + T / 931.4940954) = 0}, fun E => ?_, ?_⟩
  · have hfin : (⋃ k ∈ (Set.Icc (-5001 : ℤ) 5001 \ {0}),
        {T : ℝ | 0 < T ∧ T ≤ E ∧ insideAt R Z k (1 + T / 931.4940954) = 0}).Finite :=
      ((Set.finite_Icc _ _).subset Set.diff_subset).biUnion fun k hk =>
        insideAt_zeros R Z hR0 hZp hsmall k hk.2 E
    refine hfin.subset ?_
    rintro T ⟨⟨hT, k, hk, hk0, h0⟩, hTE⟩
    exact Set.mem_biUnion ⟨hk, hk0⟩ ⟨hT, hTE, h0⟩
  · intro p hpA hpZ hT hbad γ R' hγ hR'
    subst hR'
    refine lindhard_defined_of_sum p Z hZ1 hZ2 hpZ hT γ R hγ (by rw [hpA]) fun k hk hk2 h0 => ?_
    rw [hpZ, hγ] at h0
    exact hbad ⟨hT, k, abs_le.mp hk2, hk, h0⟩

/-- C95, what holds: for the ions of all elements, up to the energy where `R (1 + γ) + 1.5 αZ`
reaches 1.5 (`R` the nuclear radius in units of the Compton wavelength), both
calculations end, and yield the sums of the series over the same phase shifts.  Missing: higher
energies, see `lindhard_defined_almost_partial`. -/
theorem lindhard_defined_partial (p : Projectile ℝ) (Z : ℕ) (hZ1 : 1 ≤ Z) (hZ2 : Z ≤ 118) (hZ : p.Z = Z)
    (hT : 0 < p.T) (γ R : ℝ) (hγ : γ = 1 + p.T / 931.4940954)
    (hR : R = Real.exp (Real.log p.A / 3) * 3.05573356675e-3)
    (hsmall : R * (1 + γ) + 1.5 * Z * (1 / 137.035999139) ≤ 3 / 2) :
    ∃ (δ : ℤ → ℝ) (N : ℕ) (L X : ℝ), ∀ fuel ≥ N,
      (∀ k : ℤ, k ≠ 0 → |k| ≤ 5001 → phaseShift fuel (lsInput p) k = some (δ k)) ∧
      bethek_lindhard fuel p = some L ∧ bethek_lindhard_X fuel p = some X ∧
      L = (∑ k ∈ Finset.Icc 1 4999, lsTerm (p.Z * (1 / 137.035999139) / √(1 - 1 / γ ^ 2)) δ k) +
        (1 - 1 / γ ^ 2) / 2 ∧
      X = max 0 (2 * L - (∑ k ∈ Finset.Icc 1 999,
        lsXTerm (p.Z * (1 / 137.035999139) / √(1 - 1 / γ ^ 2)) δ k) - (1 - 1 / γ ^ 2)) := by
  have hR0 : 0 < R := by rw [hR]; positivity
  have hγ1 : 1 ≤ γ := by
    rw [hγ]
    have : 0 < p.T / 931.4940954 := by positivity
    linarith
  have hZp : (1 : ℝ) ≤ Z := by exact_mod_cast hZ1
  have hlow : γ < 10 / R := by
    rw [lt_div_iff₀ hR0]
    have : (0 : ℝ) ≤ 1.5 * Z * (1 / 137.035999139) := by positivity
    nlinarith
  have h := lindhard_defined_of_sum p Z hZ1 hZ2 hZ hT γ R hγ hR fun k hk _ => by
    rw [hZ]
    refine insideAt_ne_zero R γ Z hR0 hγ1 hZp ?_ k hk
    have e : (fine_structure : ℝ) = 1 / 137.035999139 := by unfold fine_structure; norm_num
    rw [e]
    exact hsmall
  simpa only [if_pos hlow] using h

/-- Uranium at all but finitely many energies below any bound. -/
example : ∃ bad : Set ℝ, (∀ E, (bad ∩ Set.Iic E).Finite) ∧
    ∀ p : Projectile ℝ, p.A = 238 → p.Z = 92 → 0 < p.T → p.T ∉ bad →
    ∃ (N : ℕ) (L X : ℝ), ∀ fuel ≥ N, bethek_lindhard fuel p = some L ∧ bethek_lindhard_X fuel p = some X := by
  obtain ⟨bad, h1, h2⟩ := lindhard_defined_almost_partial 238 (by norm_num) (by norm_num) 92 (by norm_num) (by norm_num)
  refine ⟨bad, h1, fun p hA hZ hT hb => ?_⟩
  obtain ⟨δ, N, L, X, h⟩ := h2 p hA (by rw [hZ]; norm_num) hT hb _ _ rfl rfl
  exact ⟨N, L, X, fun fuel hf => ⟨(h fuel hf).2.1, (h fuel hf).2.2.1⟩⟩

/-- Uranium at 1 GeV/u meets the hypotheses of this theorem, of `lindhard_series` and of
`lindhard_X_series`. -/
example (p : Projectile ℝ) (hA : p.A = 238) (hZ : p.Z = 92) (hT : p.T = 1000) :
    ∃ (N : ℕ) (L X : ℝ), ∀ fuel ≥ N, bethek_lindhard fuel p = some L ∧ bethek_lindhard_X fuel p = some X := by
  have h : Real.exp (Real.log 238 / 3) ≤ 6.2 := by
    rw [← Real.le_log_iff_exp_le (by norm_num), div_le_iff₀ (by norm_num), mul_comm,
      ← Real.log_rpow (by norm_num)]
    apply Real.log_le_log (by norm_num)
    norm_num
  obtain ⟨δ, N, L, X, h⟩ := lindhard_defined_partial p 92 (by norm_num) (by norm_num) (by rw [hZ]; norm_num)
    (by rw [hT]; norm_num) _ _ rfl rfl (by
      rw [hA, hT]
      have h1 : Real.exp (Real.log 238 / 3) * 3.05573356675e-3 ≤ 6.2 * 3.05573356675e-3 :=
        mul_le_mul_of_nonneg_right h (by norm_num)
      have h2 := mul_le_mul_of_nonneg_right h1 (show (0 : ℝ) ≤ 1 + (1 + 1000 / 931.4940954) by norm_num)
      refine le_trans (add_le_add h2 le_rfl) ?_
      norm_num)
  exact ⟨N, L, X, fun fuel hf => ⟨(h fuel hf).2.1, (h fuel hf).2.2.1⟩⟩

end Catima
