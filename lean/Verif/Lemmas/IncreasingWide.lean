import Verif.Lemmas.SplineData

/-!
# When the cubic interpolant increases, with mean slopes that may change by a factor of 2.6

On a grid whose spacings grow by a constant factor near 1.039, the pieces of the interpolant have positive slopes if the mean
slopes of neighbouring intervals differ by a factor of at most 2.6.  The slopes at the two ends of every piece are bounded by
multiples of the mean slope: each end slope is a combination of the two neighbouring mean slopes and the two neighbouring end
slopes, so that a negative bound for all of them improves itself.
-/

namespace Catima

/-- The two end slopes at a knot, from the spline equation as the code solves it (with the off-diagonal entries exchanged). -/
theorem end_slopes (q s s' x y z : ℝ) (hq : 0 < q) (row : q ^ 2 * x + 2 * (1 + q) * q * y + z = 3 * q * (s' - s)) :
    2 * (1 + q) * (s' - (2 * (q * y) + z) / 3) =
        (2 + q) * (s' + q * s) - q * ((s' + (q * y + 2 * z) / 3) + q * (s - (2 * x + y) / 3)) ∧
      2 * (1 + q) * q * (s + (x + 2 * y) / 3) =
        (2 * q + 1) * (s' + q * s) - ((s' + (q * y + 2 * z) / 3) + q * (s - (2 * x + y) / 3)) := by
  constructor
  · linear_combination (-2 / 3) * row
  · linear_combination (2 / 3) * row

/-- A lower bound of the neighbouring end slopes gives an upper bound of the end slopes at a knot. -/
theorem end_upper (q σ s n m m' B : ℝ) (hq1 : 1.039 ≤ q) (hq2 : q ≤ 1.0394) (hσ : 0 < σ) (hσs : σ ≤ 3.7026 * s)
    (hB : 0 ≤ B) (hn : -(B * σ) ≤ n) (e : 2 * (1 + q) * m = (2 + q) * σ - q * n)
    (e' : 2 * (1 + q) * q * m' = (2 * q + 1) * σ - n) :
    m ≤ (2.76 + 0.944 * B) * s ∧ m' ≤ (2.76 + 0.944 * B) * s := by
  have hBσ : 0 ≤ B * σ := by positivity
  have k : (0.7454 + 0.2549 * B) * σ ≤ (2.76 + 0.944 * B) * s := by
    have h1 : B * σ ≤ B * (3.7026 * s) := mul_le_mul_of_nonneg_left hσs hB
    have h2 : 0 ≤ B * s := by nlinarith
    nlinarith
  have a : m ≤ (0.7454 + 0.2549 * B) * σ := by
    have h : 2 * (1 + q) * m ≤ 2 * (1 + q) * ((0.7454 + 0.2549 * B) * σ) := by rw [e]; nlinarith
    exact le_of_mul_le_mul_left h (by linarith)
  have a' : m' ≤ (0.7454 + 0.2549 * B) * σ := by
    have h : 2 * (1 + q) * q * m' ≤ 2 * (1 + q) * q * ((0.7454 + 0.2549 * B) * σ) := by
      rw [e']
      have q2 : 1.079521 ≤ q ^ 2 := by nlinarith
      nlinarith [mul_nonneg (sub_nonneg.mpr q2) hσ.le, mul_nonneg (sub_nonneg.mpr q2) hBσ,
        mul_nonneg (sub_nonneg.mpr hq1) hσ.le, mul_nonneg (sub_nonneg.mpr hq1) hBσ]
    exact le_of_mul_le_mul_left h (by nlinarith)
  exact ⟨a.trans k, a'.trans k⟩

/-- An upper bound of the neighbouring end slopes gives a lower bound of the end slopes at a knot. -/
theorem end_lower (q σ s n m m' B : ℝ) (hq1 : 1.039 ≤ q) (hq2 : q ≤ 1.0394) (hσ : 0 < σ) (hσs : σ ≤ 3.7026 * s) (hs : s ≤ σ)
    (hB : 0 ≤ B) (hn : n ≤ (2.76 + 0.944 * B) * σ) (e : 2 * (1 + q) * m = (2 + q) * σ - q * n)
    (e' : 2 * (1 + q) * q * m' = (2 * q + 1) * σ - n) :
    0.041 * s - 0.9 * (B * s) ≤ m ∧ 0.041 * s - 0.9 * (B * s) ≤ m' := by
  have hBσ : 0 ≤ B * σ := by positivity
  have k : 0.041 * s - 0.9 * (B * s) ≤ 0.041 * σ - 0.241 * (B * σ) := by
    have h1 : B * σ ≤ B * (3.7026 * s) := mul_le_mul_of_nonneg_left hσs hB
    have h2 : 0 ≤ B * s := by nlinarith
    nlinarith
  have a : 0.041 * σ - 0.241 * (B * σ) ≤ m := by
    have h : 2 * (1 + q) * (0.041 * σ - 0.241 * (B * σ)) ≤ 2 * (1 + q) * m := by
      rw [e]
      nlinarith [mul_le_mul_of_nonneg_left hn (by linarith : (0 : ℝ) ≤ q), mul_nonneg (sub_nonneg.mpr hq2) hσ.le,
        mul_nonneg (sub_nonneg.mpr hq2) hBσ]
    exact le_of_mul_le_mul_left h (by linarith)
  have a' : 0.041 * σ - 0.241 * (B * σ) ≤ m' := by
    have h : 2 * (1 + q) * q * (0.041 * σ - 0.241 * (B * σ)) ≤ 2 * (1 + q) * q * m' := by
      rw [e']
      have q2 : q ^ 2 ≤ 1.08036 := by nlinarith
      have q2' : 1.079521 ≤ q ^ 2 := by nlinarith
      nlinarith [mul_nonneg (sub_nonneg.mpr hq2) hσ.le, mul_nonneg (sub_nonneg.mpr hq1) hσ.le,
        mul_nonneg (sub_nonneg.mpr hq1) hBσ, mul_nonneg (sub_nonneg.mpr q2) hσ.le, mul_nonneg (sub_nonneg.mpr q2') hBσ]
    exact le_of_mul_le_mul_left h (by nlinarith)
  exact ⟨k.trans a, k.trans a'⟩

/-- The slope at an end of the grid, where the curvature nearly vanishes. -/
theorem end_close (m l s B : ℝ) (hs : 0 < s) (hB : 0 ≤ B) (e : |2 * m + l - 3 * s| ≤ 0.0102 * |l - m|) :
    (-(B * s) ≤ l → m ≤ (2.76 + 0.944 * B) * s) ∧ (l ≤ (2.76 + 0.944 * B) * s → 0.041 * s - 0.9 * (B * s) ≤ m) := by
  have hBs : 0 ≤ B * s := by positivity
  obtain ⟨e1, e2⟩ := abs_le.mp e
  rcases abs_cases (l - m) with ⟨a, ha⟩ | ⟨a, ha⟩ <;> rw [a] at e1 e2 <;> norm_num at e1 e2 ⊢ <;>
    exact ⟨fun h => by linarith, fun h => by linarith⟩

/-- The slopes at the ends of every piece lie between 4.1 % and 276 % of the mean slope. -/
theorem wide_end_slopes (N : ℕ) (hN : 3 ≤ N) (q : ℝ) (hq1 : 1.039 ≤ q) (hq2 : q ≤ 1.0394) (h s b : ℕ → ℝ)
    (hpos : ∀ i, 0 < h i) (hgeo : ∀ i, h (i + 1) = q * h i) (hs : ∀ i, i + 1 < N → 0 < s i)
    (hk : ∀ i, i + 2 < N → s i ≤ 2.6 * s (i + 1) ∧ s (i + 1) ≤ 2.6 * s i)
    (row : ∀ i, i + 2 < N → h (i + 1) * b i + 2 * (h i + h (i + 1)) * b (i + 1) + h i * b (i + 2) =
      3 * (s (i + 1) - s i)) (b0 : |b 0| ≤ 0.01 * |b 1|) (bN : |b (N - 1)| ≤ 0.01 * |b (N - 2)|) :
    ∀ i, i + 1 < N →
      (0.041 * s i ≤ s i - h i * (2 * b i + b (i + 1)) / 3 ∧ s i - h i * (2 * b i + b (i + 1)) / 3 ≤ 2.76 * s i) ∧
      (0.041 * s i ≤ s i + h i * (b i + 2 * b (i + 1)) / 3 ∧ s i + h i * (b i + 2 * b (i + 1)) / 3 ≤ 2.76 * s i) := by
  have hq0 : 0 < q := by linarith
  set mp : ℕ → ℝ := fun i => s i - h i * (2 * b i + b (i + 1)) / 3 with hmp
  set ml : ℕ → ℝ := fun i => s i + h i * (b i + 2 * b (i + 1)) / 3 with hml
  -- the equations at the knots
  have knot : ∀ i, i + 2 < N →
      2 * (1 + q) * mp (i + 1) = (2 + q) * (s (i + 1) + q * s i) - q * (ml (i + 1) + q * mp i) ∧
      2 * (1 + q) * q * ml i = (2 * q + 1) * (s (i + 1) + q * s i) - (ml (i + 1) + q * mp i) := by
    intro i hi
    have r := row i hi
    have e := end_slopes q (s i) (s (i + 1)) (h i * b i) (h i * b (i + 1)) (h (i + 1) * b (i + 2)) hq0 (by
      rw [hgeo i] at r ⊢
      linear_combination q * r)
    simp only [hmp, hml, hgeo i] at e ⊢
    constructor
    · linear_combination e.1
    · linear_combination e.2
  have end0 : |2 * mp 0 + ml 0 - 3 * s 0| ≤ 0.0102 * |ml 0 - mp 0| := by
    have e1 : 2 * mp 0 + ml 0 - 3 * s 0 = -(h 0 * b 0) := by
      simp only [hmp, hml]; ring
    have e2 : ml 0 - mp 0 = h 0 * (b 0 + b 1) := by
      simp only [hmp, hml]; ring
    rw [e1, e2, abs_neg, abs_mul, abs_mul]
    have t := abs_sub_abs_le_abs_sub (b 1) (-b 0)
    rw [abs_neg, sub_neg_eq_add, add_comm (b 1)] at t
    have : |b 0| ≤ 0.0102 * |b 0 + b 1| := by
      norm_num at b0 ⊢; linarith [abs_nonneg (b 0)]
    nlinarith [abs_nonneg (h 0)]
  have endN : |2 * ml (N - 2) + mp (N - 2) - 3 * s (N - 2)| ≤ 0.0102 * |mp (N - 2) - ml (N - 2)| := by
    rw [abs_sub_comm (mp (N - 2))]
    have e1 : 2 * ml (N - 2) + mp (N - 2) - 3 * s (N - 2) = h (N - 2) * b (N - 1) := by
      simp only [hmp, hml, show N - 2 + 1 = N - 1 by omega]; ring
    have e2 : ml (N - 2) - mp (N - 2) = h (N - 2) * (b (N - 2) + b (N - 1)) := by
      simp only [hmp, hml, show N - 2 + 1 = N - 1 by omega]; ring
    rw [e1, e2, abs_mul, abs_mul]
    have t := abs_sub_abs_le_abs_sub (b (N - 2)) (-b (N - 1))
    rw [abs_neg, sub_neg_eq_add] at t
    have : |b (N - 1)| ≤ 0.0102 * |b (N - 2) + b (N - 1)| := by
      norm_num at bN ⊢; linarith [abs_nonneg (b (N - 1))]
    nlinarith [abs_nonneg (h (N - 2))]
  have sig : ∀ i, i + 2 < N → 0 < s (i + 1) + q * s i ∧ s (i + 1) + q * s i ≤ 3.7026 * s (i + 1) ∧
      s (i + 1) + q * s i ≤ 3.7026 * s i ∧ s (i + 1) ≤ s (i + 1) + q * s i ∧ s i ≤ s (i + 1) + q * s i := by
    intro i hi
    have p0 := hs i (by omega)
    have p1 := hs (i + 1) (by omega)
    have k := hk i hi
    refine ⟨by positivity, by nlinarith, by nlinarith, by nlinarith, by nlinarith⟩
  -- upper bounds from lower bounds
  have upper : ∀ B, 0 ≤ B → (∀ i, i + 1 < N → -(B * s i) ≤ mp i ∧ -(B * s i) ≤ ml i) →
      ∀ i, i + 1 < N → mp i ≤ (2.76 + 0.944 * B) * s i ∧ ml i ≤ (2.76 + 0.944 * B) * s i := by
    intro B hB hlow
    have hn : ∀ i, i + 2 < N → -(B * (s (i + 1) + q * s i)) ≤ ml (i + 1) + q * mp i := by
      intro i hi
      have h1 := (hlow i (by omega)).1
      have h2 := (hlow (i + 1) (by omega)).2
      have := mul_le_mul_of_nonneg_left h1 hq0.le
      linarith
    intro i hi
    have p := hs i hi
    constructor
    · rcases Nat.eq_zero_or_pos i with e | e
      · subst e
        exact (end_close _ _ _ B p hB end0).1 (hlow 0 hi).2
      · obtain ⟨j, rfl⟩ : ∃ j, i = j + 1 := ⟨i - 1, by omega⟩
        obtain ⟨e1, e2⟩ := knot j (by omega)
        obtain ⟨g1, g2, g3, -, -⟩ := sig j (by omega)
        exact (end_upper q _ (s (j + 1)) _ _ _ B hq1 hq2 g1 g2 hB (hn j (by omega)) e1 e2).1
    · rcases Nat.lt_or_ge (i + 2) N with e | e
      · obtain ⟨e1, e2⟩ := knot i e
        obtain ⟨g1, g2, g3, -, -⟩ := sig i e
        exact (end_upper q _ (s i) _ _ _ B hq1 hq2 g1 g3 hB (hn i e) e1 e2).2
      · have e : i = N - 2 := by omega
        rw [← e] at endN
        exact (end_close _ _ _ B p hB endN).1 (hlow i hi).1
  -- better lower bounds from upper bounds
  have better : ∀ B, 0 ≤ B → (∀ i, i + 1 < N → -(B * s i) ≤ mp i ∧ -(B * s i) ≤ ml i) →
      ∀ i, i + 1 < N → 0.041 * s i - 0.9 * (B * s i) ≤ mp i ∧ 0.041 * s i - 0.9 * (B * s i) ≤ ml i := by
    intro B hB hlow
    have up := upper B hB hlow
    have hn : ∀ i, i + 2 < N → ml (i + 1) + q * mp i ≤ (2.76 + 0.944 * B) * (s (i + 1) + q * s i) := by
      intro i hi
      have h1 := (up i (by omega)).1
      have h2 := (up (i + 1) (by omega)).2
      have := mul_le_mul_of_nonneg_left h1 hq0.le
      linarith
    intro i hi
    have p := hs i hi
    constructor
    · rcases Nat.eq_zero_or_pos i with e | e
      · subst e
        exact (end_close _ _ _ B p hB end0).2 (up 0 hi).2
      · obtain ⟨j, rfl⟩ : ∃ j, i = j + 1 := ⟨i - 1, by omega⟩
        obtain ⟨e1, e2⟩ := knot j (by omega)
        obtain ⟨g1, g2, g3, g4, -⟩ := sig j (by omega)
        exact (end_lower q _ (s (j + 1)) _ _ _ B hq1 hq2 g1 g2 g4 hB (hn j (by omega)) e1 e2).1
    · rcases Nat.lt_or_ge (i + 2) N with e | e
      · obtain ⟨e1, e2⟩ := knot i e
        obtain ⟨g1, g2, g3, -, g5⟩ := sig i e
        exact (end_lower q _ (s i) _ _ _ B hq1 hq2 g1 g3 g5 hB (hn i e) e1 e2).2
      · have e : i = N - 2 := by omega
        rw [← e] at endN
        exact (end_close _ _ _ B p hB endN).2 (up i hi).1
  -- some bound
  obtain ⟨B0, hB0, hstart⟩ : ∃ B, 0 ≤ B ∧ ∀ i, i + 1 < N → -(B * s i) ≤ mp i ∧ -(B * s i) ≤ ml i := by
    refine ⟨∑ j ∈ Finset.range (N - 1), (|mp j| + |ml j|) / s j, ?_, ?_⟩
    · refine Finset.sum_nonneg fun j hj => ?_
      rw [Finset.mem_range] at hj
      have := hs j (by omega)
      positivity
    · intro i hi
      have p := hs i hi
      have h1 : (|mp i| + |ml i|) / s i ≤ ∑ j ∈ Finset.range (N - 1), (|mp j| + |ml j|) / s j := by
        refine Finset.single_le_sum (f := fun j => (|mp j| + |ml j|) / s j) (fun j hj => ?_) (by rw [Finset.mem_range]; omega)
        rw [Finset.mem_range] at hj
        have := hs j (by omega)
        positivity
      rw [div_le_iff₀ p] at h1
      have := neg_abs_le (mp i)
      have := neg_abs_le (ml i)
      have := abs_nonneg (mp i)
      have := abs_nonneg (ml i)
      constructor <;> linarith
  have iter : ∀ n : ℕ, ∀ i, i + 1 < N → -(0.9 ^ n * B0 * s i) ≤ mp i ∧ -(0.9 ^ n * B0 * s i) ≤ ml i := by
    intro n
    induction n with
    | zero => intro i hi; simpa using hstart i hi
    | succ n ih =>
      intro i hi
      have := better (0.9 ^ n * B0) (by positivity) ih i hi
      have p := hs i hi
      rw [pow_succ]
      constructor <;> nlinarith [this.1, this.2]
  have zero : ∀ i, i + 1 < N → -(0 * s i) ≤ mp i ∧ -(0 * s i) ≤ ml i := by
    intro i hi
    have lim : Filter.Tendsto (fun n : ℕ => -((0.9 : ℝ) ^ n * B0 * s i)) Filter.atTop (nhds (-(0 * B0 * s i))) :=
      (((tendsto_pow_atTop_nhds_zero_of_lt_one (by norm_num) (by norm_num)).mul_const _).mul_const _).neg
    have e : -(0 * B0 * s i) = -(0 * s i) := by ring
    rw [e] at lim
    exact ⟨le_of_tendsto lim (Filter.Eventually.of_forall fun n => (iter n i hi).1),
      le_of_tendsto lim (Filter.Eventually.of_forall fun n => (iter n i hi).2)⟩
  intro i hi
  have u := upper 0 le_rfl zero i hi
  have l := better 0 le_rfl zero i hi
  simp only [hmp, hml] at u l
  refine ⟨⟨?_, ?_⟩, ?_, ?_⟩ <;> linarith [u.1, u.2, l.1, l.2]

/-- The slope of a cubic piece whose end slopes lie between 4.1 % and 276 % of the mean slope, also slightly left of the piece. -/
theorem wide_piece_slope (s m m' t : ℝ) (hs : 0 < s) (h1 : 0.041 * s ≤ m) (h2 : m ≤ 2.76 * s) (h3 : 0.041 * s ≤ m')
    (h4 : m' ≤ 2.76 * s) (ht0 : -0.001 ≤ t) (ht1 : t ≤ 1) :
    0.03 * s ≤ m * ((1 - t) * (1 - 3 * t)) + m' * (t * (3 * t - 2)) + 6 * s * (t * (1 - t)) ∧
      m * ((1 - t) * (1 - 3 * t)) + m' * (t * (3 * t - 2)) + 6 * s * (t * (1 - t)) ≤ 3 * s := by
  obtain ⟨a, rfl⟩ : ∃ a, m = a * s := ⟨m / s, by field_simp⟩
  obtain ⟨c, rfl⟩ : ∃ c, m' = c * s := ⟨m' / s, by field_simp⟩
  have h1 := le_of_mul_le_mul_right h1 hs
  have h2 := le_of_mul_le_mul_right h2 hs
  have h3 := le_of_mul_le_mul_right h3 hs
  have h4 := le_of_mul_le_mul_right h4 hs
  have e : a * s * ((1 - t) * (1 - 3 * t)) + c * s * (t * (3 * t - 2)) + 6 * s * (t * (1 - t)) =
      (a * ((1 - t) * (1 - 3 * t)) + c * (t * (3 * t - 2)) + 6 * (t * (1 - t))) * s := by ring
  rw [e]
  suffices 0.03 ≤ a * ((1 - t) * (1 - 3 * t)) + c * (t * (3 * t - 2)) + 6 * (t * (1 - t)) ∧
      a * ((1 - t) * (1 - 3 * t)) + c * (t * (3 * t - 2)) + 6 * (t * (1 - t)) ≤ 3 from
    ⟨mul_le_mul_of_nonneg_right this.1 hs.le, mul_le_mul_of_nonneg_right this.2 hs.le⟩
  -- bounds of the two products
  have A : ∀ u : ℝ, min (0.041 * u) (2.76 * u) ≤ a * u ∧ a * u ≤ max (0.041 * u) (2.76 * u) := by
    intro u
    rcases le_total 0 u with h | h
    · exact ⟨(min_le_left _ _).trans (mul_le_mul_of_nonneg_right h1 h), (mul_le_mul_of_nonneg_right h2 h).trans (le_max_right _ _)⟩
    · exact ⟨(min_le_right _ _).trans (mul_le_mul_of_nonpos_right h2 h), (mul_le_mul_of_nonpos_right h1 h).trans (le_max_left _ _)⟩
  have C : ∀ u : ℝ, min (0.041 * u) (2.76 * u) ≤ c * u ∧ c * u ≤ max (0.041 * u) (2.76 * u) := by
    intro u
    rcases le_total 0 u with h | h
    · exact ⟨(min_le_left _ _).trans (mul_le_mul_of_nonneg_right h3 h), (mul_le_mul_of_nonneg_right h4 h).trans (le_max_right _ _)⟩
    · exact ⟨(min_le_right _ _).trans (mul_le_mul_of_nonpos_right h4 h), (mul_le_mul_of_nonpos_right h3 h).trans (le_max_left _ _)⟩
  have a1 := A ((1 - t) * (1 - 3 * t))
  have c1 := C (t * (3 * t - 2))
  constructor
  · rcases min_choice (0.041 * ((1 - t) * (1 - 3 * t))) (2.76 * ((1 - t) * (1 - 3 * t))) with h | h <;>
      rcases min_choice (0.041 * (t * (3 * t - 2))) (2.76 * (t * (3 * t - 2))) with h' | h' <;>
      rw [h] at a1 <;> rw [h'] at c1 <;> nlinarith [a1.1, c1.1, sq_nonneg (1 - 2 * t)]
  · rcases max_choice (0.041 * ((1 - t) * (1 - 3 * t))) (2.76 * ((1 - t) * (1 - 3 * t))) with h | h <;>
      rcases max_choice (0.041 * (t * (3 * t - 2))) (2.76 * (t * (3 * t - 2))) with h' | h' <;>
      rw [h] at a1 <;> rw [h'] at c1 <;> nlinarith [a1.2, c1.2, sq_nonneg (1 - 2 * t), sq_nonneg t]

end Catima
