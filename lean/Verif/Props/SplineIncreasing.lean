import Verif.Lemmas.Increasing
import Verif.Props.Spline
import Mathlib.Analysis.Calculus.MeanValue

/-!
# C107: when the interpolated range increases
-/

namespace Catima
open Spline

/-! ## The grid -/

/-- Ratio of neighbouring points of the energy table. -/
noncomputable def gridRatio : ℝ := Real.exp (LN10 * (10 / 599))

theorem grid_geometric (i : Nat) : (energy_table : EnergyTable ℝ).val (i + 1) = gridRatio * (energy_table : EnergyTable ℝ).val i := by
  have hs : (energy_table : EnergyTable ℝ).step = 10 / 599 := by
    rw [EnergyTable.step_eq]; norm_num [energy_table, logEmin, logEmax, max_datapoints]
  rw [EnergyTable.val_eq, EnergyTable.val_eq, gridRatio, ← Real.exp_add, hs]
  congr 1
  push_cast
  ring

theorem gridRatio_bounds : 1.0391 ≤ gridRatio ∧ gridRatio ≤ 1.0392 := by
  have h0 : (LN10 : ℝ) * (10 / 599) = 23.0258509299404568401799145468 / 599 := by norm_num [LN10]
  have h := Real.exp_bound' (x := 23.0258509299404568401799145468 / 599) (by norm_num) (by norm_num) (n := 4) (by norm_num)
  have h' := Real.sum_le_exp_of_nonneg (x := 23.0258509299404568401799145468 / 599) (by norm_num) 4
  simp only [Finset.sum_range_succ, Finset.sum_range_zero, Nat.factorial] at h h'
  unfold gridRatio
  rw [h0]
  norm_num at h h' ⊢
  constructor <;> linarith

/-- Where the interval given by `index` lies, and when it may be the next one. -/
theorem index_place (ci : Bool) (x : ℝ) (h0 : (energy_table : EnergyTable ℝ).val 0 ≤ x) :
    ∃ k : Nat, k < 600 ∧ (energy_table.grid ci : Grid ℝ).index x = .ok (k : Int) ∧
      (energy_table : EnergyTable ℝ).val k - 10 * 2⁻¹ ^ 52 ≤ x ∧
      (k + 1 < 600 → x < (energy_table : EnergyTable ℝ).val (k + 1)) ∧
      (k + 1 < 599 → x < (energy_table : EnergyTable ℝ).val (k + 1) - 10 * 2⁻¹ ^ 52 ∨ ci = false) ∧
      (k + 1 = 599 → x < (energy_table : EnergyTable ℝ).val (k + 1) - 10 * 2⁻¹ ^ 52) ∧
      ((energy_table : EnergyTable ℝ).val k ≤ x ∨ ci = true ∨ k = 599) := by
  have hb := energy_table_bounds
  rw [← eps_eq]
  have he := eps_pos
  rcases le_or_gt ((energy_table : EnergyTable ℝ).val 599 - numeric_epsilon) x with hv' | hv'
  · refine ⟨599, by norm_num, EnergyTable.index_above _ ci hb.1 hb.2.1 x h0 hv', hv', by norm_num, by norm_num, by norm_num, .inr (.inr rfl)⟩
  · obtain ⟨k, hk, h0', h1, _⟩ := EnergyTable.exists_bracket _ hb.1 hb.2.1 x h0 (by
      show x < (energy_table : EnergyTable ℝ).val 599; linarith)
    have hk' : k + 1 < 600 := hk
    have hi := EnergyTable.index_inside _ ci hb.1 hb.2.1 hb.2.2 x k hk h0' h1 hv'
    by_cases hc : ci = true ∧ (energy_table : EnergyTable ℝ).val (k + 1) - numeric_epsilon ≤ x
    · rw [if_pos hc] at hi
      have hk1 : k + 1 ≠ 599 := fun h => by rw [h] at hc; linarith [hc.2]
      have hlt : (energy_table : EnergyTable ℝ).val (k + 1) < (energy_table : EnergyTable ℝ).val (k + 1 + 1) - numeric_epsilon := by
        have := energy_table_spaced (k + 1) (by show k + 1 + 1 < 600; omega)
        rw [← eps_eq] at this
        linarith
      refine ⟨k + 1, hk', by rw [Nat.cast_add, Nat.cast_one]; exact hi, hc.2, fun _ => by linarith, fun _ => .inl (by linarith), fun _ => by linarith, .inr (.inl hc.1)⟩
    · rw [if_neg hc] at hi
      refine ⟨k, by omega, hi, by linarith, fun _ => h1, fun _ => ?_, fun e => ?_, .inl h0'⟩
      · cases ci
        · exact .inr rfl
        · left
          by_contra hcon
          exact hc ⟨rfl, not_lt.mp hcon⟩
      · rw [e]; exact hv'

/-! ## The pieces -/

/-- Mean slope of the data in interval `i`. -/
noncomputable def meanSlope (y : List ℝ) (i : Nat) : ℝ :=
  (y.getD (i + 1) 0 - y.getD i 0) / ((energy_table : EnergyTable ℝ).val (i + 1) - (energy_table : EnergyTable ℝ).val i)

theorem piece_mvt (P : Cubics) (x : Nat → ℝ) (k : Nat) (u v : ℝ) (h : u < v) :
    ∃ z, u < z ∧ z < v ∧ P.at x k v - P.at x k u = P.slope x k z * (v - u) := by
  obtain ⟨z, hz, e⟩ := exists_hasDerivAt_eq_slope (P.at x k) (P.slope x k) h
    (fun w _ => (hasDerivAt_piece P x k w).continuousAt.continuousWithinAt) fun w _ => hasDerivAt_piece P x k w
  refine ⟨z, hz.1, hz.2, ?_⟩
  rw [e, div_mul_cancel₀ _ (by linarith)]

/-- The slopes of the pieces lie between 6 % and 194 % of the mean slopes. -/
theorem slopes_near (jk : Junk ℝ) (hjk : SmallJunk jk) (ci : Bool) (y : List ℝ) (hl : y.length = 600) (hs : ∀ i < 599, 0 < meanSlope y i)
    (hk : ∀ i < 598, meanSlope y i ≤ 1.37 * meanSlope y (i + 1) ∧ meanSlope y (i + 1) ≤ 1.37 * meanSlope y i) :
    ∃ bs, Spline.new jk (energy_table.grid ci) y = .ok (ofB (energy_table.grid ci) y bs) ∧
      (∀ k < 599, ∀ x, (energy_table : EnergyTable ℝ).val k - 10 * 2⁻¹ ^ 52 ≤ x → x ≤ (energy_table : EnergyTable ℝ).val (k + 1) →
        0.06 * meanSlope y k ≤ (pieces (energy_table.grid ci) y bs).slope (energy_table.grid ci).val k x ∧
        (pieces (energy_table.grid ci) y bs).slope (energy_table.grid ci).val k x ≤ 1.94 * meanSlope y k) := by
  set g : Grid ℝ := energy_table.grid ci with hgdef
  have hg := library_table_ordered ci
  rw [← hgdef] at hg
  have hn : g.n = 600 := rfl
  have hv : g.val = (energy_table : EnergyTable ℝ).val := rfl
  obtain ⟨bs, e1, e2⟩ := solve_data hg jk y (by rw [hn, hl])
  refine ⟨bs, e2, ?_⟩
  obtain ⟨xs, e1', sw, hb0, hbN⟩ := small_ends hg jk hjk fun i => y.getD i 0
  rw [e1] at e1'
  cases e1'
  have hq := gridRatio_bounds
  have hval0 : ∀ i, 0 < (energy_table : EnergyTable ℝ).val i := EnergyTable.val_pos _
  have hstep : ∀ i, (energy_table : EnergyTable ℝ).val (i + 1) - (energy_table : EnergyTable ℝ).val i =
      (gridRatio - 1) * (energy_table : EnergyTable ℝ).val i := fun i => by rw [grid_geometric]; ring
  have hpos : ∀ i, 0 < (energy_table : EnergyTable ℝ).val (i + 1) - (energy_table : EnergyTable ℝ).val i := fun i => by
    rw [hstep]; exact mul_pos (by linarith [hq.1]) (hval0 i)
  rw [hn] at hbN
  have hrow : ∀ i, i + 2 < 600 → ((energy_table : EnergyTable ℝ).val (i + 1 + 1) - (energy_table : EnergyTable ℝ).val (i + 1)) * bs.getD i 0
      + 2 * (((energy_table : EnergyTable ℝ).val (i + 1) - (energy_table : EnergyTable ℝ).val i)
        + ((energy_table : EnergyTable ℝ).val (i + 1 + 1) - (energy_table : EnergyTable ℝ).val (i + 1))) * bs.getD (i + 1) 0
      + ((energy_table : EnergyTable ℝ).val (i + 1) - (energy_table : EnergyTable ℝ).val i) * bs.getD (i + 2) 0
      = 3 * (meanSlope y (i + 1) - meanSlope y i) := by
    intro i hi
    have := sw (i + 1) (by rw [hn]; omega)
    simp only [hn, matrix, rhs, hv] at this
    have n0 : ¬ i + 1 = 0 := by omega
    have n1 : ¬ i + 1 = 600 - 1 := by omega
    have n2 : i + 1 + 1 < 600 := by omega
    simp only [if_neg n0, if_neg n1, if_pos n2] at this
    simp only [Nat.add_sub_cancel] at this
    unfold meanSlope
    rw [← this]
    norm_num
    ring
  have cb := curvature_bound 600 (by norm_num) gridRatio (by linarith [hq.1]) (by linarith [hq.2])
    (fun i => (energy_table : EnergyTable ℝ).val (i + 1) - (energy_table : EnergyTable ℝ).val i) (meanSlope y)
    (fun i => bs.getD i 0) hpos (fun i => by simp only [grid_geometric]; ring) (fun i hi => hs i (by omega))
    (fun i hi => hk i (by omega)) hrow
    (le_of_hundredth hb0) (le_of_hundredth hbN)
  intro k hk' x hx0 hx1
  have hh := hpos k
  have hsk := hs k hk'
  -- bounds of the two curvatures at the ends of the piece
  have c1 : ((energy_table : EnergyTable ℝ).val (k + 1) - (energy_table : EnergyTable ℝ).val k) * |bs.getD k 0| ≤ 0.91 * meanSlope y k := by
    rcases Nat.eq_zero_or_pos k with e | e
    · subst e
      have t1 := cb 0 (by norm_num)
      have t2 := t1.trans (mul_le_mul_of_nonneg_left (min_le_left _ _) (by norm_num))
      refine le_trans ?_ t2
      refine mul_le_mul ?_ (le_of_hundredth hb0) (abs_nonneg _) (hpos 1).le
      rw [hstep, hstep, grid_geometric 0]
      have := hval0 0
      refine mul_le_mul_of_nonneg_left ?_ (by linarith [hq.1])
      nlinarith [hq.1]
    · have := cb (k - 1) (by omega)
      simp only [show k - 1 + 1 = k by omega] at this
      exact this.trans (mul_le_mul_of_nonneg_left (min_le_right _ _) (by norm_num))
  have c2 : ((energy_table : EnergyTable ℝ).val (k + 1) - (energy_table : EnergyTable ℝ).val k) * |bs.getD (k + 1) 0| ≤ 0.91 * meanSlope y k := by
    rcases Nat.lt_or_ge (k + 2) 600 with e | e
    · have := cb k e
      refine le_trans ?_ (this.trans (mul_le_mul_of_nonneg_left (min_le_left _ _) (by norm_num)))
      refine mul_le_mul_of_nonneg_right ?_ (abs_nonneg _)
      simp only [grid_geometric]
      have := hval0 k
      have h1 : 0 < (gridRatio - 1) * (energy_table : EnergyTable ℝ).val k := mul_pos (by linarith [hq.1]) this
      nlinarith [hq.1]
    · obtain rfl : k = 598 := by omega
      have t1 := cb 597 (by norm_num)
      refine le_trans ?_ (t1.trans (mul_le_mul_of_nonneg_left (min_le_right _ _) (by norm_num)))
      exact mul_le_mul_of_nonneg_left (le_of_hundredth hbN) (hpos 598).le
  set h := (energy_table : EnergyTable ℝ).val (k + 1) - (energy_table : EnergyTable ℝ).val k with hhd
  have hform : (pieces g y bs).slope g.val k x = meanSlope y k + h * (bs.getD k 0 * (-2 / 3 + 2 * ((x - (energy_table : EnergyTable ℝ).val k) / h)
      - ((x - (energy_table : EnergyTable ℝ).val k) / h) ^ 2) + bs.getD (k + 1) 0 * (-1 / 3 + ((x - (energy_table : EnergyTable ℝ).val k) / h) ^ 2)) := by
    simp only [Cubics.slope, pieces, hn, hv]
    rw [if_pos (by omega), if_pos (by omega), if_pos (by omega), coefA_real, coefC_real]
    unfold meanSlope
    rw [← hhd]
    field_simp
    ring
  have hlow : (10 * 2⁻¹ ^ 52 : ℝ) ≤ 0.01 * h := by
    rw [hhd, hstep]
    have v0 : (9e-4 : ℝ) ≤ (energy_table : EnergyTable ℝ).val k := by
      have h0 := (abs_le.mp energy_table_range.2.1).1
      have hb := energy_table_bounds
      have := (EnergyTable.val_le_iff (energy_table : EnergyTable ℝ) hb.1 hb.2.1 0 k).mpr (by omega)
      refine le_trans ?_ this
      norm_num at h0 ⊢; linarith
    calc (10 * 2⁻¹ ^ 52 : ℝ) ≤ 0.01 * (0.039 * 9e-4) := by norm_num
      _ ≤ _ := by
        refine mul_le_mul_of_nonneg_left (mul_le_mul (by linarith [hq.1]) v0 (by norm_num) (by linarith [hq.1])) (by norm_num)
  rw [hform]
  refine piece_slope_near (meanSlope y k) h (bs.getD k 0) (bs.getD (k + 1) 0) _ hsk c1 c2 hh ?_ ?_
  · rw [le_div_iff₀ hh]; linarith
  · rw [div_le_one hh]; linarith

/-! ## The interpolant -/

/-- Data on the energy table whose mean slopes are positive and change by at most 37 % from one interval to the next. -/
structure Tame (y : List ℝ) : Prop where
  length : y.length = 600
  pos : ∀ i < 599, 0 < meanSlope y i
  near : ∀ i < 598, meanSlope y i ≤ 1.37 * meanSlope y (i + 1) ∧ meanSlope y (i + 1) ≤ 1.37 * meanSlope y i

/-- Value of the interpolant, with the piece it is taken from. -/
theorem interpolant_value (ci : Bool) (y bs : List ℝ) (hl : y.length = 600) (x : ℝ) :
    (x < (energy_table : EnergyTable ℝ).val 0 ∧
      (ofB (energy_table.grid ci) y bs).evaluate x = .ok ((pieces (energy_table.grid ci) y bs).c 0 * (x - (energy_table : EnergyTable ℝ).val 0) + y.getD 0 0) ∧
      (ofB (energy_table.grid ci) y bs).deriv x = .ok ((pieces (energy_table.grid ci) y bs).c 0)) ∨
    ((energy_table : EnergyTable ℝ).val 0 ≤ x ∧ ∃ k : Nat, k < 600 ∧
      (energy_table : EnergyTable ℝ).val k - 10 * 2⁻¹ ^ 52 ≤ x ∧
      (k + 1 < 600 → x < (energy_table : EnergyTable ℝ).val (k + 1)) ∧
      (k + 1 < 599 → x < (energy_table : EnergyTable ℝ).val (k + 1) - 10 * 2⁻¹ ^ 52 ∨ ci = false) ∧
      (k + 1 = 599 → x < (energy_table : EnergyTable ℝ).val (k + 1) - 10 * 2⁻¹ ^ 52) ∧
      ((energy_table : EnergyTable ℝ).val k ≤ x ∨ ci = true ∨ k = 599) ∧
      (ofB (energy_table.grid ci) y bs).evaluate x = .ok ((pieces (energy_table.grid ci) y bs).at (energy_table : EnergyTable ℝ).val k x) ∧
      (ofB (energy_table.grid ci) y bs).deriv x = .ok ((pieces (energy_table.grid ci) y bs).slope (energy_table : EnergyTable ℝ).val k x)) := by
  have hg := library_table_ordered ci
  have hn : (energy_table.grid ci : Grid ℝ).n = 600 := rfl
  obtain ⟨i, k, hi, hik, hkn, hlo, hhi⟩ := index_data hg x
  have e := evaluate_ofB (energy_table.grid ci) y bs (by rw [hn]; norm_num) (by rw [hn, hl]) x i k hi hik hkn hlo hhi
  have e' := deriv_ofB (energy_table.grid ci) y bs (by rw [hn]; norm_num) x i k hi hik hkn hhi
  rcases lt_or_ge x ((energy_table : EnergyTable ℝ).val 0) with h | h
  · left
    have h' : x < (energy_table.grid ci : Grid ℝ).val 0 := h
    rw [if_pos h'] at e e'
    exact ⟨h, e, e'⟩
  · right
    refine ⟨h, k, hkn, ?_⟩
    obtain ⟨k', -, hk', h1, h2, h3, h4, h5⟩ := index_place ci x h
    rw [hi] at hk'
    cases hk'
    have : k = k' := by omega
    subst this
    have h' : ¬ x < (energy_table.grid ci : Grid ℝ).val 0 := not_lt.mpr h
    rw [if_neg h'] at e e'
    exact ⟨h1, h2, h3, h4, h5, e, e'⟩

/-- The interpolant increases when the slopes of its pieces lie between fixed multiples of the mean slopes and these differ
by a bounded factor from one interval to the next. -/
theorem increasing_core (jk : Junk ℝ) (ci : Bool) (y bs : List ℝ) (lo hi ρ δ : ℝ) (hlo : 0 < lo) (hhi : 0 < hi) (hρ : 1 ≤ ρ)
    (hδ : hi * ρ * (10 * 2⁻¹ ^ 52) < lo * δ) (hδ0 : 0 < δ) (hδ1 : δ ≤ 3e-5) (hl : y.length = 600)
    (hs : ∀ i < 599, 0 < meanSlope y i)
    (hk : ∀ i < 598, meanSlope y i ≤ ρ * meanSlope y (i + 1) ∧ meanSlope y (i + 1) ≤ ρ * meanSlope y i)
    (hnew : Spline.new jk (energy_table.grid ci) y = .ok (ofB (energy_table.grid ci) y bs))
    (hsl : ∀ k < 599, ∀ x, (energy_table : EnergyTable ℝ).val k - 10 * 2⁻¹ ^ 52 ≤ x → x ≤ (energy_table : EnergyTable ℝ).val (k + 1) →
        lo * meanSlope y k ≤ (pieces (energy_table.grid ci) y bs).slope (energy_table.grid ci).val k x ∧
        (pieces (energy_table.grid ci) y bs).slope (energy_table.grid ci).val k x ≤ hi * meanSlope y k) :
    ∃ s, Spline.new jk (energy_table.grid ci) y = .ok s ∧
      (∀ x, ∃ d, s.deriv x = .ok d ∧ 0 < d) ∧
      ∀ a b u v, s.evaluate a = .ok u → s.evaluate b = .ok v → (a + δ ≤ b ∨ ci = false ∧ a < b ∧ b ≤ 9.9e6) → u < v := by
  refine ⟨_, hnew, ?_⟩
  set g : Grid ℝ := energy_table.grid ci with hgdef
  have hg : g.Ordered (10 * 2⁻¹ ^ 52) := library_table_ordered ci
  have hv : g.val = (energy_table : EnergyTable ℝ).val := rfl
  have hn : g.n = 600 := rfl
  rw [hv] at hsl
  set P := pieces g y bs with hP
  set X := (energy_table : EnergyTable ℝ).val with hX
  have hmono : ∀ i j, i < j → j < 600 → X i < X j := fun i j h1 h2 => mono hg i j h1 h2
  have hw : (0 : ℝ) < 10 * 2⁻¹ ^ 52 := by norm_num
  -- the last piece is a line
  have hlast : ∀ x, P.slope X 599 x = P.slope X 598 (X 599) := by
    intro x
    have h1 := slope_last hg y bs
    rw [hn, hv] at h1
    rw [hP, ← h1]
    simp only [Cubics.slope, pieces, hn]
    norm_num
  -- slope bounds of every piece where it is used
  have low : ∀ k < 600, ∀ x, X k - 10 * 2⁻¹ ^ 52 ≤ x → (k + 1 < 600 → x ≤ X (k + 1)) →
      lo * meanSlope y (min k 598) ≤ P.slope X k x ∧ P.slope X k x ≤ hi * meanSlope y (min k 598) := by
    intro k hk x hx0 hx1
    rcases Nat.lt_or_ge k 599 with h | h
    · rw [min_eq_left (by omega)]
      exact hsl k h x hx0 (hx1 (by omega))
    · have e : k = 599 := by omega
      subst e
      rw [hlast, min_eq_right (by omega)]
      exact hsl 598 (by norm_num) (X 599) (by have := hmono 598 599 (by norm_num) (by norm_num); linarith) le_rfl
  have mpos : ∀ k < 600, 0 < meanSlope y (min k 598) := fun k hk => hs _ (by omega)
  have c0 : P.c 0 = P.slope X 0 (X 0) := by simp only [Cubics.slope, sub_self]; norm_num
  have c0pos : 0 < P.c 0 := by
    have := (low 0 (by norm_num) (X 0) (by linarith) fun _ => (hmono 0 1 (by norm_num) (by norm_num)).le).1
    have := mul_pos hlo (mpos 0 (by norm_num))
    rw [c0]; linarith
  constructor
  · intro x
    rcases interpolant_value ci y bs hl x with ⟨-, -, h⟩ | ⟨-, k, hk, h1, h2, -, -, -, -, h⟩
    · exact ⟨_, h, c0pos⟩
    · exact ⟨_, h, by have := (low k hk x h1 fun h => (h2 h).le).1; have := mul_pos hlo (mpos k hk); linarith⟩
  -- differences within a piece
  have diff : ∀ k < 600, ∀ a b, a < b → X k - 10 * 2⁻¹ ^ 52 ≤ a → (k + 1 < 600 → b ≤ X (k + 1)) →
      lo * meanSlope y (min k 598) * (b - a) ≤ P.at X k b - P.at X k a ∧
      P.at X k b - P.at X k a ≤ hi * meanSlope y (min k 598) * (b - a) := by
    intro k hk a b hab h0 h1
    obtain ⟨z, hz0, hz1, e⟩ := piece_mvt P X k a b hab
    have := low k hk z (by linarith) fun h => by linarith [h1 h]
    rw [e]
    exact ⟨mul_le_mul_of_nonneg_right this.1 (by linarith), mul_le_mul_of_nonneg_right this.2 (by linarith)⟩
  have inc : ∀ k < 600, ∀ a b, a < b → X k - 10 * 2⁻¹ ^ 52 ≤ a → (k + 1 < 600 → b ≤ X (k + 1)) → P.at X k a < P.at X k b := by
    intro k hk a b hab h0 h1
    have := (diff k hk a b hab h0 h1).1
    have := mul_pos (mul_pos hlo (mpos k hk)) (sub_pos.mpr hab)
    linarith
  have knot : ∀ k, P.at X k (X k) = y.getD k 0 := fun k => pieces_at_knot (g := g) y bs k
  have join : ∀ k, k + 1 < 600 → P.at X k (X (k + 1)) = y.getD (k + 1) 0 := fun k hk => pieces_join hg y bs k hk
  have ystep : ∀ i, i + 1 < 600 → y.getD i 0 < y.getD (i + 1) 0 := fun i hi => by
    rw [← knot i, ← join i hi]
    exact inc i (by omega) _ _ (hmono _ _ (by omega) hi) (by linarith) fun _ => le_rfl
  have ymono : ∀ i j, i ≤ j → j < 600 → y.getD i 0 ≤ y.getD j 0 := by
    intro i j hij
    induction j with
    | zero => intro _; rw [show i = 0 by omega]
    | succ j ih =>
      intro hj
      rcases Nat.lt_or_ge i (j + 1) with h | h
      · exact (ih (by omega) (by omega)).trans (ystep j hj).le
      · rw [show i = j + 1 by omega]
  have mnext : ∀ j, j + 1 < 600 → meanSlope y (min (j + 1) 598) ≤ ρ * meanSlope y j := by
    intro j hj
    rcases Nat.lt_or_ge j 598 with h | h
    · rw [min_eq_left (by omega)]; exact (hk j h).2
    · have e : j = 598 := by omega
      subst e
      have := hs 598 (by norm_num)
      rw [min_eq_right (by norm_num)]; nlinarith
  intro a b u v hu hv' hab
  have hab' : a < b := by
    rcases hab with h | h
    · linarith
    · exact h.2.1
  have top : 9.95e6 ≤ X 599 := by
    have h := (abs_le.mp energy_table_range.2.2).1
    rw [← hX] at h
    norm_num at h ⊢
    linarith
  have gapj : ∀ j, j + 1 < 600 → δ ≤ X (j + 1) - X j := by
    intro j hj
    have v0 : (9e-4 : ℝ) ≤ X j := by
      have h0 := (abs_le.mp energy_table_range.2.1).1
      have hb := energy_table_bounds
      have := (EnergyTable.val_le_iff (energy_table : EnergyTable ℝ) hb.1 hb.2.1 0 j).mpr (by omega)
      refine le_trans ?_ this
      norm_num at h0 ⊢; linarith
    have := grid_geometric j
    have hq := gridRatio_bounds.1
    rw [← hX] at this
    rw [this]
    nlinarith
  -- values at `a` lie below the values at the following points
  have up : ∀ j, j + 1 < 600 → (a < X 0 ∨ ∃ k ≤ j, X k - 10 * 2⁻¹ ^ 52 ≤ a ∧ a < X (k + 1) ∧
      (ofB g y bs).evaluate a = .ok (P.at X k a)) → (a < X 0 → (ofB g y bs).evaluate a = .ok (P.c 0 * (a - X 0) + y.getD 0 0)) →
      u ≤ y.getD (j + 1) 0 - lo * meanSlope y j * min (X (j + 1) - a) (X (j + 1) - X j) := by
    intro j hj h hleft
    have mj := mul_pos hlo (hs j (by omega))
    have base : ∀ i ≤ j, y.getD i 0 ≤ y.getD (j + 1) 0 - lo * meanSlope y j * min (X (j + 1) - a) (X (j + 1) - X j) := by
      intro i hi
      have h1 := ymono i j hi (by omega)
      have h2 := (diff j (by omega) (X j) (X (j + 1)) (hmono j (j + 1) (by omega) hj) (by linarith) fun _ => le_rfl).1
      rw [knot, join j hj, min_eq_left (by omega)] at h2
      have h3 : lo * meanSlope y j * min (X (j + 1) - a) (X (j + 1) - X j) ≤ lo * meanSlope y j * (X (j + 1) - X j) :=
        mul_le_mul_of_nonneg_left (min_le_right _ _) mj.le
      linarith
    rcases h with h | ⟨k, hkj, k1, k2, ek⟩
    · have e := hleft h
      rw [hu] at e
      cases e
      have h1 : P.c 0 * (a - X 0) < 0 := mul_neg_of_pos_of_neg c0pos (by linarith)
      have := base 0 (by omega)
      linarith
    · rw [hu] at ek
      cases ek
      rcases Nat.lt_or_ge k j with h | h
      · have h1 := inc k (by omega) a (X (k + 1)) k2 k1 fun _ => le_rfl
        rw [join k (by omega)] at h1
        have := base (k + 1) h
        linarith
      · have e : k = j := by omega
        subst e
        have h1 := (diff k (by omega) a (X (k + 1)) k2 k1 fun _ => le_rfl).1
        rw [join k hj, min_eq_left (by omega)] at h1
        have h3 : lo * meanSlope y k * min (X (k + 1) - a) (X (k + 1) - X k) ≤ lo * meanSlope y k * (X (k + 1) - a) :=
          mul_le_mul_of_nonneg_left (min_le_left _ _) mj.le
        linarith
  -- values at `b` lie above the values at the points left of it
  have down : ∀ k, k < 600 → X k - 10 * 2⁻¹ ^ 52 ≤ b → (k + 1 < 600 → b < X (k + 1)) →
      (ofB g y bs).evaluate b = .ok (P.at X k b) → y.getD k 0 - hi * meanSlope y (min k 598) * max (X k - b) 0 ≤ v := by
    intro k hk k1 k2 ek
    rw [hv'] at ek
    cases ek
    have mk := mpos k hk
    rcases lt_trichotomy b (X k) with h | h | h
    · have := (diff k hk b (X k) h k1 fun h => (hmono k (k + 1) (by omega) h).le).2
      rw [knot] at this
      rw [max_eq_left (by linarith)]
      linarith
    · rw [h, knot, sub_self, max_self, mul_zero, sub_zero]
    · have := inc k hk (X k) b h (by linarith) fun h => (k2 h).le
      rw [knot] at this
      rw [max_eq_right (by linarith), mul_zero, sub_zero]
      exact this.le
  -- the two combined
  have comb : ∀ j, j + 1 < 600 → (a < X 0 ∨ ∃ k ≤ j, X k - 10 * 2⁻¹ ^ 52 ≤ a ∧ a < X (k + 1) ∧
      (ofB g y bs).evaluate a = .ok (P.at X k a)) → (a < X 0 → (ofB g y bs).evaluate a = .ok (P.c 0 * (a - X 0) + y.getD 0 0)) →
      a < X (j + 1) → X (j + 1) - 10 * 2⁻¹ ^ 52 ≤ b → (j + 2 < 600 → b < X (j + 2)) →
      (X (j + 1) ≤ b ∨ ci = true ∨ j + 1 = 599) → (ofB g y bs).evaluate b = .ok (P.at X (j + 1) b) → u < v := by
    intro j hj h1 h2 haj h3 h4 h5 h6
    have A := up j hj h1 h2
    have B := down (j + 1) hj h3 h4 h6
    have mj := hs j (by omega)
    have hmin : 0 < min (X (j + 1) - a) (X (j + 1) - X j) := lt_min (by linarith) (by linarith [hmono j (j + 1) (by omega) hj])
    rcases le_or_gt (X (j + 1)) b with h | h
    · rw [max_eq_right (by linarith), mul_zero, sub_zero] at B
      have := mul_pos (mul_pos hlo mj) hmin
      linarith
    · have hd : a + δ ≤ b := by
        rcases hab with h' | ⟨h', -, hb⟩
        · exact h'
        · exfalso
          rcases h5 with h5 | h5 | h5
          · linarith
          · rw [h'] at h5; cases h5
          · rw [h5] at h3
            have : (10 * 2⁻¹ ^ 52 : ℝ) ≤ 1 := by norm_num
            linarith
      have hm : δ ≤ min (X (j + 1) - a) (X (j + 1) - X j) := le_min (by linarith) (gapj j hj)
      rw [max_eq_left (by linarith)] at B
      have hmn := mnext j hj
      have mk := mpos (j + 1) hj
      have t1 : hi * meanSlope y (min (j + 1) 598) * (X (j + 1) - b) ≤ hi * (ρ * meanSlope y j) * (10 * 2⁻¹ ^ 52) :=
        mul_le_mul (mul_le_mul_of_nonneg_left hmn hhi.le) (by linarith) (by linarith) (by positivity)
      have t2 : lo * meanSlope y j * δ ≤ lo * meanSlope y j * min (X (j + 1) - a) (X (j + 1) - X j) :=
        mul_le_mul_of_nonneg_left hm (by positivity)
      have t3 : hi * (ρ * meanSlope y j) * (10 * 2⁻¹ ^ 52) < lo * meanSlope y j * δ := by
        have := mul_lt_mul_of_pos_right hδ mj
        linarith
      linarith
  rcases interpolant_value ci y bs hl a with ⟨ha, ea, -⟩ | ⟨ha, k, hk, a1, a2, a3, a4, a5, ea, -⟩
  · rcases interpolant_value ci y bs hl b with ⟨hb, eb, -⟩ | ⟨hb, k, hk, b1, b2, b3, b4, b5, eb, -⟩
    · rw [ea] at hu
      cases hu
      rw [eb] at hv'
      cases hv'
      have := mul_lt_mul_of_pos_left (show a - X 0 < b - X 0 by linarith) c0pos
      linarith
    · rcases Nat.eq_zero_or_pos k with e | e
      · subst e
        have := down 0 hk b1 b2 eb
        rw [ea] at hu
        cases hu
        have h1 : P.c 0 * (a - X 0) < 0 := mul_neg_of_pos_of_neg c0pos (by linarith)
        rw [max_eq_right (by linarith), mul_zero, sub_zero] at this
        linarith
      · obtain ⟨j, rfl⟩ : ∃ j, k = j + 1 := ⟨k - 1, by omega⟩
        exact comb j hk (.inl ha) (fun _ => ea) (ha.trans (hmono 0 (j + 1) (by omega) hk)) b1 b2 b5 eb
  · rcases interpolant_value ci y bs hl b with ⟨hb, eb, -⟩ | ⟨hb, k', hk', b1, b2, b3, b4, b5, eb, -⟩
    · linarith
    · rcases lt_trichotomy k k' with h | h | h
      · obtain ⟨j, rfl⟩ : ∃ j, k' = j + 1 := ⟨k' - 1, by omega⟩
        have hak : a < X (j + 1) := (a2 (by omega)).trans_le (mono_le hg (k + 1) (j + 1) (by omega) hk')
        exact comb j hk' (.inr ⟨k, by omega, a1, a2 (by omega), ea⟩) (fun h => by linarith) hak b1 b2 b5 eb
      · subst h
        rw [ea] at hu
        cases hu
        rw [eb] at hv'
        cases hv'
        exact inc k hk a b hab' a1 fun h => (b2 h).le
      · exfalso
        have h1 := b2 (by omega)
        have h2 : X (k' + 1) ≤ X k := mono_le hg (k' + 1) k (by omega) hk
        have e : k = k' + 1 := by
          by_contra hne
          have h3 := hg.gap (k' + 1) (by rw [hn]; omega)
          have h4 : X (k' + 1 + 1) ≤ X k := mono_le hg (k' + 1 + 1) k (by omega) hk
          rw [hv] at h3
          linarith
        subst e
        rcases Nat.lt_or_ge (k' + 1) 599 with hlt | hge
        · rcases b3 hlt with h3 | h3
          · linarith
          · rcases a5 with h5 | h5 | h5
            · linarith
            · rw [h3] at h5; cases h5
            · omega
        · have := b4 (by omega)
          linarith

/-- C107: with at most 0.02 in the uninitialised cells, the interpolant of tame data has a positive slope everywhere and increases:
strictly for the searched index (up to 9.9e6 MeV/u), and over distances of at least 2e-13 MeV/u for the calculated index, which takes the next
piece already 2.2e-15 MeV/u below a point. -/
theorem interpolant_increasing (jk : Junk ℝ) (hjk : SmallJunk jk) (ci : Bool) (y : List ℝ) (hy : Tame y) :
    ∃ s, Spline.new jk (energy_table.grid ci) y = .ok s ∧
      (∀ x, ∃ d, s.deriv x = .ok d ∧ 0 < d) ∧
      ∀ a b u v, s.evaluate a = .ok u → s.evaluate b = .ok v → (a + 2e-13 ≤ b ∨ ci = false ∧ a < b ∧ b ≤ 9.9e6) → u < v := by
  obtain ⟨bs, hnew, hsl⟩ := slopes_near jk hjk ci y hy.length hy.pos hy.near
  exact increasing_core jk ci y bs 0.06 1.94 1.37 2e-13 (by norm_num) (by norm_num) (by norm_num) (by norm_num) (by norm_num)
    (by norm_num) hy.length hy.pos hy.near hnew hsl

/-- The squares of the energies are such data. -/
example : Tame ((List.range 600).map fun i => (energy_table : EnergyTable ℝ).val i ^ 2) := by
  have hq := gridRatio_bounds
  have h0 := EnergyTable.val_pos (energy_table : EnergyTable ℝ)
  have hm : ∀ i < 599, meanSlope ((List.range 600).map fun i => (energy_table : EnergyTable ℝ).val i ^ 2) i =
      (energy_table : EnergyTable ℝ).val (i + 1) + (energy_table : EnergyTable ℝ).val i := by
    intro i hi
    unfold meanSlope
    simp only [List.getD_eq_getElem?_getD, List.getElem?_map, List.getElem?_range (show i < 600 by omega),
      List.getElem?_range (show i + 1 < 600 by omega), Option.map_some, Option.getD_some]
    have : (energy_table : EnergyTable ℝ).val (i + 1) - (energy_table : EnergyTable ℝ).val i ≠ 0 := by
      rw [grid_geometric]; nlinarith [h0 i]
    field_simp
    ring
  refine ⟨by simp, fun i hi => ?_, fun i hi => ?_⟩
  · rw [hm i hi]; linarith [h0 i, h0 (i + 1)]
  · rw [hm i (by omega), hm (i + 1) (by omega), grid_geometric (i + 1)]
    have h1 := grid_geometric i
    have := h0 (i + 1)
    constructor <;> nlinarith [h0 i]

end Catima
