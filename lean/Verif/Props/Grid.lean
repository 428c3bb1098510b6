import Verif.Lemmas.LogTen

/-!
# C20-C24: energy grids, index lookup, table interpolation

`α = ℝ`.  A table has `N ≥ 2` points and bounds `logmin < logmax`; `N` fits into an `int`.
-/

namespace Catima

/-! ## C20 -/

/-- C20: for every table the points are positive, strictly increasing, have a constant ratio, and
point `i` is `10 ^ (logmin + i (logmax-logmin)/(N-1))` up to the precision of the literal `LN10`. -/
theorem energy_grid (t : EnergyTable ℝ) (h : t.logmin < t.logmax) (hN : 2 ≤ t.N) :
    (∀ i, 0 < t.val i) ∧ (∀ i j, i < j → t.val i < t.val j) ∧
    (∃ q, 1 < q ∧ ∀ i, t.val (i + 1) = q * t.val i) ∧
    (∀ (i : Nat) (x : ℝ), x = t.logmin + i * ((t.logmax - t.logmin) / (t.N - 1)) → |x| ≤ 1000 →
      |t.val i - (10 : ℝ) ^ x| ≤ 2e-15 * |x| * (10 : ℝ) ^ x) := by
  refine ⟨t.val_pos, fun i j => (t.val_lt_iff h hN i j).mpr, ?_, ?_⟩
  · refine ⟨Real.exp (LN10 * t.step), Real.one_lt_exp_iff.mpr
      (mul_pos LN10_pos (t.step_pos h hN)), fun i => ?_⟩
    rw [t.val_eq, t.val_eq, ← Real.exp_add]
    congr 1; push_cast; ring
  · rintro i x hx hb
    rw [← t.step_eq] at hx
    rw [t.val_eq, ← hx]
    have e : Real.exp (LN10 * x) = (10 : ℝ) ^ x * Real.exp ((LN10 - Real.log 10) * x) := by
      rw [Real.rpow_def_of_pos (by norm_num), ← Real.exp_add]; congr 1; ring
    have hd : |(LN10 - Real.log 10) * x| ≤ 1e-15 * |x| := by
      rw [abs_mul]
      exact mul_le_mul_of_nonneg_right LN10_near (abs_nonneg _)
    have h1 := Real.abs_exp_sub_one_le (x := (LN10 - Real.log 10) * x) (by linarith)
    have hp : (0 : ℝ) < (10 : ℝ) ^ x := by positivity
    rw [e, ← mul_sub_one, abs_mul, abs_of_pos hp]
    calc (10 : ℝ) ^ x * |Real.exp ((LN10 - Real.log 10) * x) - 1|
        ≤ (10 : ℝ) ^ x * (2e-15 * |x|) := by
          apply mul_le_mul_of_nonneg_left _ hp.le
          linarith
      _ = _ := by ring

/-- The bounds of the energy table of the library. -/
theorem energy_table_bounds : (energy_table : EnergyTable ℝ).logmin < energy_table.logmax ∧
    2 ≤ (energy_table : EnergyTable ℝ).N ∧ (energy_table : EnergyTable ℝ).N ≤ 2147483647 := by
  refine ⟨?_, by decide, by decide⟩
  norm_num [energy_table, logEmin, logEmax]

/-- The bounds of the energy table of the Lindhard coefficients. -/
theorem ls_energy_table_bounds : (ls_energy_table : EnergyTable ℝ).logmin < ls_energy_table.logmax ∧
    2 ≤ (ls_energy_table : EnergyTable ℝ).N ∧ (ls_energy_table : EnergyTable ℝ).N ≤ 2147483647 := by
  refine ⟨?_, by decide, by decide⟩
  norm_num [ls_energy_table]

/-- C20: the energy table has 600 points from 1e-3 to 1e7 MeV/u. -/
theorem energy_table_range : (energy_table : EnergyTable ℝ).N = 600 ∧
    |(energy_table : EnergyTable ℝ).val 0 - 1e-3| ≤ 1e-17 ∧
    |(energy_table : EnergyTable ℝ).val 599 - 1e7| ≤ 1e-6 := by
  have hb := energy_table_bounds
  obtain ⟨_, _, _, hx⟩ := energy_grid energy_table hb.1 hb.2.1
  refine ⟨rfl, ?_, ?_⟩
  · have := hx 0 (-3) (by norm_num [energy_table, logEmin]) (by norm_num [abs_of_neg])
    have e : (10 : ℝ) ^ (-3 : ℝ) = 1e-3 := by
      rw [Real.rpow_neg (by norm_num)]; norm_num
    rw [e] at this
    refine this.trans ?_
    norm_num [abs_of_neg]
  · have := hx 599 7 (by norm_num [energy_table, logEmin, logEmax, max_datapoints])
      (by norm_num [abs_of_pos])
    have e : (10 : ℝ) ^ (7 : ℝ) = 1e7 := by norm_num
    rw [e] at this
    refine this.trans ?_
    norm_num [abs_of_pos]

/-! ## C21, C22 -/

/-- C21: `index` is defined for every argument and both build options.  It is `-1` exactly below
the first point, `N-1` exactly from the last point (minus the tolerance `10 * 2^-52`) on, and
otherwise an interval containing the argument up to that tolerance. -/
theorem index_correct (ci : Bool) (t : EnergyTable ℝ) (h : t.logmin < t.logmax) (hN : 2 ≤ t.N)
    (hN' : t.N ≤ 2147483647) (v : ℝ) :
    ∃ i : Int, t.index ci v = .ok i ∧ -1 ≤ i ∧ i ≤ t.N - 1 ∧ (i = -1 ↔ v < t.val 0) ∧
      (i = t.N - 1 ↔ t.val 0 ≤ v ∧ t.val (t.N - 1) - 10 * 2⁻¹ ^ 52 ≤ v) ∧
      (0 ≤ i → i < t.N - 1 → t.val i.toNat - 10 * 2⁻¹ ^ 52 ≤ v ∧ v < t.val (i.toNat + 1)) := by
  rw [← eps_eq]
  rcases lt_or_ge v (t.val 0) with hv | hv
  · refine ⟨-1, t.index_below ci v hv, by omega, by omega, by simp [hv], ?_, by omega⟩
    constructor
    · omega
    · rintro ⟨h1, _⟩; linarith
  rcases le_or_gt (t.val (t.N - 1) - numeric_epsilon) v with hv' | hv'
  · refine ⟨t.N - 1, t.index_above ci h hN v hv hv', by omega, by omega, ?_, by simp [hv, hv'],
      by omega⟩
    constructor
    · omega
    · intro h1; linarith
  · have he := eps_pos
    obtain ⟨k, hk, h0, h1, _⟩ := t.exists_bracket h hN v hv (by linarith)
    refine ⟨_, t.index_inside ci h hN hN' v k hk h0 h1 hv', ?_⟩
    split
    · rename_i hb
      have hk' : k + 1 < t.N - 1 := by
        rcases Nat.lt_or_ge (k + 1) (t.N - 1) with h' | h'
        · exact h'
        · have : k + 1 = t.N - 1 := by omega
          rw [this] at hb; linarith [hb.2]
      have e : ((k : Int) + 1).toNat = k + 1 := by omega
      refine ⟨by omega, by omega, ⟨by omega, fun h' => by linarith⟩, ⟨by omega, fun h' => by
        linarith [h'.2]⟩, fun _ _ => ?_⟩
      rw [e]
      exact ⟨hb.2, h1.trans ((t.val_lt_iff h hN _ _).mpr (by omega))⟩
    · refine ⟨by omega, by omega, ⟨by omega, fun h' => by linarith⟩, ⟨by omega, fun h' => by
        linarith [h'.2]⟩, fun _ _ => ?_⟩
      simp only [Int.toNat_natCast]
      exact ⟨by linarith, h1⟩

/-- C21: with the searched index the interval contains the argument exactly. -/
theorem index_searched_exact (t : EnergyTable ℝ) (h : t.logmin < t.logmax) (hN : 2 ≤ t.N)
    (hN' : t.N ≤ 2147483647) (v : ℝ) (h0 : t.val 0 ≤ v)
    (h1 : v < t.val (t.N - 1) - 10 * 2⁻¹ ^ 52) :
    ∃ k : Nat, k + 1 < t.N ∧ t.index false v = .ok k ∧ t.val k ≤ v ∧ v < t.val (k + 1) := by
  rw [← eps_eq] at h1
  have he := eps_pos
  obtain ⟨k, hk, h0', h1', _⟩ := t.exists_bracket h hN v h0 (by linarith)
  have := t.index_inside false h hN hN' v k hk h0' h1' h1
  refine ⟨k, hk, ?_, h0', h1'⟩
  simpa using this

/-- C22: the two build options give the same index for every argument that is not less than
`10 * 2^-52` below an inner grid point. -/
theorem index_options_agree (t : EnergyTable ℝ) (h : t.logmin < t.logmax) (hN : 2 ≤ t.N)
    (hN' : t.N ≤ 2147483647) (v : ℝ)
    (hw : ∀ k, 0 < k → k < t.N - 1 → ¬ (t.val k - 10 * 2⁻¹ ^ 52 ≤ v ∧ v < t.val k)) :
    t.index true v = t.index false v := by
  rw [← eps_eq] at hw
  rcases lt_or_ge v (t.val 0) with hv | hv
  · rw [t.index_below _ _ hv, t.index_below _ _ hv]
  rcases le_or_gt (t.val (t.N - 1) - numeric_epsilon) v with hv' | hv'
  · rw [t.index_above _ h hN v hv hv', t.index_above _ h hN v hv hv']
  · have he := eps_pos
    obtain ⟨k, hk, h0, h1, _⟩ := t.exists_bracket h hN v hv (by linarith)
    rw [t.index_inside _ h hN hN' v k hk h0 h1 hv', t.index_inside _ h hN hN' v k hk h0 h1 hv']
    have : ¬ t.val (k + 1) - numeric_epsilon ≤ v := by
      intro hb
      rcases Nat.lt_or_ge (k + 1) (t.N - 1) with h' | h'
      · exact hw (k + 1) (by omega) h' ⟨hb, h1⟩
      · have : k + 1 = t.N - 1 := by omega
        rw [this] at hb; linarith
    simp [this]

/-- C22: less than `10 * 2^-52` below an inner grid point the calculated index is that of the
interval above the point, the searched index that of the interval below. -/
theorem index_options_differ (t : EnergyTable ℝ) (h : t.logmin < t.logmax) (hN : 2 ≤ t.N)
    (hN' : t.N ≤ 2147483647) (v : ℝ) (k : Nat) (hk : k + 1 < t.N - 1) (h0 : t.val k ≤ v)
    (h1 : t.val (k + 1) - 10 * 2⁻¹ ^ 52 ≤ v) (h2 : v < t.val (k + 1))
    (h3 : v < t.val (t.N - 1) - 10 * 2⁻¹ ^ 52) :
    t.index true v = .ok (k + 1) ∧ t.index false v = .ok k := by
  rw [← eps_eq] at h1 h3
  constructor
  · rw [t.index_inside _ h hN hN' v k (by omega) h0 h2 h3]
    simp [h1]
  · rw [t.index_inside _ h hN hN' v k (by omega) h0 h2 h3]
    simp

/-- The window is not empty in the energy table: the point just below grid point 1. -/
example : ∃ v : ℝ, (energy_table : EnergyTable ℝ).val 1 - 10 * 2⁻¹ ^ 52 ≤ v ∧
    v < (energy_table : EnergyTable ℝ).val 1 :=
  ⟨_, le_refl _, by norm_num⟩

/-! ## C23 -/

/-- Neighbouring points are further apart than the tolerance of `index`. -/
def EnergyTable.Spaced (t : EnergyTable ℝ) : Prop :=
  ∀ i, i + 1 < t.N → t.val i < t.val (i + 1) - 10 * 2⁻¹ ^ 52

theorem spaced_of_first (t : EnergyTable ℝ) (h : t.logmin < t.logmax) (hN : 2 ≤ t.N)
    (h0 : 10 * 2⁻¹ ^ 52 < t.val 0 * (LN10 * t.step)) : t.Spaced := by
  intro i _
  have hs := mul_pos LN10_pos (t.step_pos h hN)
  have e : t.val (i + 1) = Real.exp (LN10 * t.step) * t.val i := by
    rw [t.val_eq, t.val_eq, ← Real.exp_add]; congr 1; push_cast; ring
  have h1 := Real.add_one_le_exp (LN10 * t.step)
  have h2 : t.val 0 ≤ t.val i := (t.val_le_iff h hN 0 i).mpr (by omega)
  have h3 := t.val_pos 0
  rw [e]
  nlinarith [mul_le_mul_of_nonneg_right h2 hs.le]

/-- The points of the energy table of the library are spaced. -/
theorem energy_table_spaced : (energy_table : EnergyTable ℝ).Spaced := by
  have hb := energy_table_bounds
  apply spaced_of_first _ hb.1 hb.2.1
  have h0 := abs_le.mp energy_table_range.2.1
  have hs : (energy_table : EnergyTable ℝ).step = 10 / 599 := by
    rw [EnergyTable.step_eq]; norm_num [energy_table, logEmin, logEmax, max_datapoints]
  rw [hs]
  have h1 : (9e-4 : ℝ) ≤ (energy_table : EnergyTable ℝ).val 0 := by
    have := h0.1
    norm_num at this ⊢; linarith
  calc (10 * 2⁻¹ ^ 52 : ℝ) < 9e-4 * (LN10 * (10 / 599)) := by norm_num [LN10]
    _ ≤ _ := mul_le_mul_of_nonneg_right h1 (by norm_num [LN10])

/-- The points of the energy table of the Lindhard coefficients are spaced. -/
theorem ls_energy_table_spaced : (ls_energy_table : EnergyTable ℝ).Spaced := by
  have hb := ls_energy_table_bounds
  apply spaced_of_first _ hb.1 hb.2.1
  have hs : (ls_energy_table : EnergyTable ℝ).step = 7 / 199 := by
    rw [EnergyTable.step_eq]; norm_num [ls_energy_table]
  have h1 : (ls_energy_table : EnergyTable ℝ).val 0 = 1 := by
    rw [EnergyTable.val_eq]; norm_num [ls_energy_table]
  rw [hs, h1]
  norm_num [LN10]

/-- C23: interpolation reproduces every tabulated value. -/
theorem interpolate_knot (ci : Bool) (t : EnergyTable ℝ) (h : t.logmin < t.logmax) (hN : 2 ≤ t.N)
    (hN' : t.N ≤ 2147483647) (hs : t.Spaced) (y : List ℝ) (hy : y.length = t.N) (i : Nat)
    (hi : i < t.N) : t.interpolate ci (t.val i) y = .ok (y[i]'(by omega)) := by
  unfold EnergyTable.Spaced at hs
  rw [← eps_eq] at hs
  have he := eps_pos
  unfold EnergyTable.interpolate
  rw [if_neg]
  · rcases Nat.lt_or_ge i (t.N - 1) with h1 | h1
    · have hl := (t.val_lt_iff h hN i (t.N - 1)).mpr h1
      rw [if_neg (by rw [beq_real]; exact hl.ne)]
      have hi1 := hs i (by omega)
      have hi2 : t.val i < t.val (t.N - 1) - numeric_epsilon := by
        have := (t.val_le_iff h hN (i + 1) (t.N - 1)).mpr (by omega)
        linarith
      have hidx := t.index_inside ci h hN hN' (t.val i) i (by omega) le_rfl (by linarith) hi2
      rw [if_neg (by rintro ⟨_, h'⟩; linarith)] at hidx
      simp only [hidx, bind, Except.bind, EnergyTable.get]
      rw [if_pos (by omega), if_pos (by omega)]
      have e1 : ((i : Int) + 1).toNat = i + 1 := by omega
      have e2 : ((i : Int) + 1) = ((i + 1 : Nat) : Int) := by push_cast; rfl
      simp only [e1, Int.toNat_natCast]
      rw [if_neg (by rw [beq_real]; norm_num; linarith), e2, rd_nat y i (by omega),
        rd_nat y (i + 1) (by omega)]
      simp only [pure, Except.pure, sub_self, zero_div]
      congr 1
      norm_num
    · have : i = t.N - 1 := by omega
      subst this
      rw [if_pos (by rw [beq_real])]
      have : ((t.N : Int) - 1) = ((t.N - 1 : Nat) : Int) := by omega
      rw [this, rd_nat]
  · have := (t.val_le_iff h hN 0 i).mpr (by omega)
    have := (t.val_le_iff h hN i (t.N - 1)).mpr (by omega)
    simp only [Bool.or_eq_true, lt_real, not_or, not_lt]
    constructor <;> assumption

/-- C23, the part that holds inside an interval: away from the tolerance window at its upper end
the result is the linear interpolation of the two neighbouring entries, hence between them.
Missing: in the window itself the calculated index extrapolates from the next interval, and at the
last point it reads past the table (`interpolate_last_window`); outside the table see
`interpolate_outside`. -/
theorem interpolate_between_partial (ci : Bool) (t : EnergyTable ℝ) (h : t.logmin < t.logmax)
    (hN : 2 ≤ t.N) (hN' : t.N ≤ 2147483647) (y : List ℝ) (hy : y.length = t.N) (v : ℝ) (k : Nat)
    (hk : k + 1 < t.N) (h0 : t.val k ≤ v) (h1 : v < t.val (k + 1) - 10 * 2⁻¹ ^ 52) :
    ∃ r, t.interpolate ci v y = .ok r ∧
      r = y[k] + (v - t.val k) / (t.val (k + 1) - t.val k) * (y[k + 1] - y[k]) ∧
      min y[k] y[k + 1] ≤ r ∧ r ≤ max y[k] y[k + 1] := by
  rw [← eps_eq] at h1
  have he := eps_pos
  have hlast := (t.val_le_iff h hN (k + 1) (t.N - 1)).mpr (by omega)
  have hfirst := (t.val_le_iff h hN 0 k).mpr (by omega)
  have hstep : 0 < t.val (k + 1) - t.val k := by linarith
  refine ⟨_, ?_, rfl, ?_⟩
  · unfold EnergyTable.interpolate
    rw [if_neg, if_neg (by rw [beq_real]; linarith)]
    · have hidx := t.index_inside ci h hN hN' v k hk h0 (by linarith) (by linarith)
      rw [if_neg (by rintro ⟨_, h'⟩; linarith)] at hidx
      simp only [hidx, bind, Except.bind, EnergyTable.get]
      rw [if_pos (by omega), if_pos (by omega)]
      have e1 : ((k : Int) + 1).toNat = k + 1 := by omega
      have e2 : ((k : Int) + 1) = ((k + 1 : Nat) : Int) := by push_cast; rfl
      simp only [e1, Int.toNat_natCast]
      rw [if_neg (by rw [beq_real]; norm_num; linarith), e2, rd_nat y k (by omega),
        rd_nat y (k + 1) (by omega)]
      simp only [pure, Except.pure]
      congr 1
      norm_num
      ring
    · simp only [Bool.or_eq_true, lt_real, not_or, not_lt]
      constructor <;> linarith
  · have hx0 : 0 ≤ (v - t.val k) / (t.val (k + 1) - t.val k) := div_nonneg (by linarith) hstep.le
    have hx1 : (v - t.val k) / (t.val (k + 1) - t.val k) ≤ 1 := by
      rw [div_le_one hstep]; linarith
    generalize (v - t.val k) / (t.val (k + 1) - t.val k) = x at *
    have a := min_le_left y[k] y[k + 1]
    have b := min_le_right y[k] y[k + 1]
    have c := le_max_left y[k] y[k + 1]
    have d := le_max_right y[k] y[k + 1]
    constructor <;> nlinarith

/-- C23: just below the last point, where `index` already gives `N-1`, the interpolation reads
`values[N]`, which does not exist. -/
theorem interpolate_last_window (ci : Bool) (t : EnergyTable ℝ) (h : t.logmin < t.logmax)
    (hN : 2 ≤ t.N) (y : List ℝ) (v : ℝ) (h0 : t.val 0 ≤ v)
    (h1 : t.val (t.N - 1) - 10 * 2⁻¹ ^ 52 ≤ v) (h2 : v < t.val (t.N - 1)) :
    t.interpolate ci v y = .error .outOfBounds := by
  rw [← eps_eq] at h1
  unfold EnergyTable.interpolate
  rw [if_neg, if_neg (by rw [beq_real]; exact h2.ne), t.index_above ci h hN v h0 h1]
  · simp only [bind, Except.bind, EnergyTable.get]
    rw [if_neg (by omega)]
  · simp only [Bool.or_eq_true, lt_real, not_or, not_lt]
    exact ⟨h0, h2.le⟩

/-- C23, refuted outside the table: the result is 0, not the first or last value. -/
theorem interpolate_outside (ci : Bool) (t : EnergyTable ℝ) (y : List ℝ) (v : ℝ)
    (hv : v < t.val 0 ∨ t.val (t.N - 1) < v) : t.interpolate ci v y = .ok 0 := by
  unfold EnergyTable.interpolate
  rw [if_pos]
  · norm_num
  · simpa using hv

/-- Above the energy table, data with last value 1 are not continued with that value. -/
example : (energy_table : EnergyTable ℝ).interpolate true 1e8 (List.replicate 600 1) ≠ .ok 1 := by
  rw [interpolate_outside]
  · norm_num
  · right
    have := abs_le.mp energy_table_range.2.2
    show (energy_table : EnergyTable ℝ).val 599 < 1e8
    norm_num at this ⊢
    linarith [this.2]

/-! ## C24 -/

/-- C24: `LogVArray<N>(a,b)` and `EnergyTable<N>(a,b)` (with the calculated index) have the same
points and the same index for every argument, so every interpolator built on one equals the one
built on the other. -/
theorem log_array_same (N : Nat) (a b : ℝ) (h : a < b) (hN : 3 ≤ N) (hN' : N ≤ 2147483647) :
    (LogVArray.grid ⟨N, a, b⟩ : Grid ℝ) = EnergyTable.grid true ⟨N, a, b⟩ := by
  have hv : ∀ i : Nat, (LogVArray.value ⟨N, a, b⟩ (i : Int) : ℝ) = EnergyTable.val ⟨N, a, b⟩ i :=
    fun _ => rfl
  unfold LogVArray.grid EnergyTable.grid
  congr 1
  funext v
  set t : EnergyTable ℝ := ⟨N, a, b⟩ with ht
  unfold LogVArray.index EnergyTable.index
  have hl : ((N : Int) - 1) = ((N - 1 : Nat) : Int) := by omega
  have h00 := hv 0
  have hll := hv (N - 1)
  simp only [Nat.cast_zero] at h00
  simp only [hl, h00, hll]
  by_cases h0 : ((v <? t.val 0) || (t.step =? 0.0)) = true
  · rw [if_pos h0]
    have : ((v <? t.val 0) || (LogVArray.step (⟨N, a, b⟩ : LogVArray ℝ) =? 0.0)) = true := h0
    rw [if_pos this]
  · have h0' : ¬ ((v <? t.val 0) || (LogVArray.step (⟨N, a, b⟩ : LogVArray ℝ) =? 0.0)) = true := h0
    rw [if_neg h0, if_neg h0']
    by_cases h1 : (v ≥? t.val (N - 1) - numeric_epsilon) = true
    · have h1' : (v ≥? t.val (t.N - 1) - numeric_epsilon) = true := h1
      rw [if_pos h1, if_pos h1']
      exact congrArg _ hl.symm
    · have h1' : ¬ (v ≥? t.val (t.N - 1) - numeric_epsilon) = true := h1
      rw [if_neg h1, if_neg h1']
      simp only [if_true]
      have hv0 : t.val 0 ≤ v := by
        simp only [Bool.or_eq_true, not_or, lt_real, not_lt] at h0; exact h0.1
      have hv1 : v < t.val (N - 1) - numeric_epsilon := by
        simp only [le_real, not_le] at h1; exact h1
      obtain ⟨k, hk, hk0, hk1, hf⟩ := t.exists_bracket h (by show 2 ≤ N; omega) v hv0
        (by have := eps_pos; show v < t.val (N - 1); linarith)
      have hc : (Scalar.floor (Scalar.log (v / t.val 0) / LN10 / t.step) : ℝ) = ((k : Int) : ℝ) := by
        rw [floor_real, log_real]; exact congrArg _ hf
      have hc' : (Scalar.floor (Scalar.log (v / t.val 0) / LN10 /
          LogVArray.step (⟨N, a, b⟩ : LogVArray ℝ)) : ℝ) = ((k : Int) : ℝ) := hc
      have hk' : k + 1 < N := hk
      simp only [hc, hc']
      rw [castInt_real _ (by omega) (by omega)]
      simp only [bind, Except.bind, EnergyTable.get]
      have e2 : ((k : Int) + 1) = ((k + 1 : Nat) : Int) := by push_cast; rfl
      simp only [e2, hv (k + 1)]
      have hget : (0 ≤ ((k + 1 : Nat) : Int) ∧ ((k + 1 : Nat) : Int) < (t.N : Int)) := by omega
      simp only [if_pos hget]
      rfl

/-- C24: `LinearVArray::index` gives the interval that contains the argument, never leaves the
array, and maps every grid point to its own index. -/
theorem linear_array (debug : Bool) (N : Nat) (a b : ℝ) (h : a < b) (hN : 3 ≤ N)
    (hN' : N ≤ 2147483647) (t : LinearVArray ℝ) (ht : t = ⟨N, a, b⟩) :
    t.value 0 = a ∧ t.value (N - 1) = b ∧ (∀ i j : Int, i < j → t.value i < t.value j) ∧
    (∀ v, ∃ i : Int, t.index debug v = .ok i ∧ -1 ≤ i ∧ i ≤ N - 1 ∧ (i = -1 ↔ v < a) ∧
      (i = N - 1 ↔ b ≤ v) ∧
      (0 ≤ i → i < N - 1 → t.value i ≤ v ∧ v < t.value (i + 1))) ∧
    (∀ i : Nat, i < N → t.index debug (t.value i) = .ok i) := by
  subst ht
  have hNr : (3 : ℝ) ≤ N := by exact_mod_cast hN
  set t : LinearVArray ℝ := ⟨N, a, b⟩ with ht
  have hstep : t.step = (b - a) / (N - 1) := by
    unfold LinearVArray.step
    rw [if_neg (by rw [le_real]; exact not_le.mpr h), ofInt_real]
    push_cast; rfl
  have hpos : 0 < t.step := by rw [hstep]; apply div_pos <;> linarith
  have hval : ∀ i : Int, t.value i = i * t.step + a := fun i => by
    simp only [LinearVArray.value, ofInt_real]; rfl
  have hval0 : t.value 0 = a := by rw [hval]; simp
  have hvalN : t.value (N - 1) = b := by
    rw [hval, hstep]; push_cast
    have : (N : ℝ) - 1 ≠ 0 := by linarith
    field_simp; ring
  have hmono : ∀ i j : Int, i < j → t.value i < t.value j := fun i j hij => by
    rw [hval, hval]
    have : (i : ℝ) < j := by exact_mod_cast hij
    nlinarith
  have hmono' : ∀ i j : Int, t.value i < t.value j → i < j := fun i j hij => by
    by_contra hc
    rcases lt_or_eq_of_le (not_lt.mp hc) with h' | h'
    · exact absurd (hmono _ _ h') (by linarith)
    · rw [h'] at hij; exact lt_irrefl _ hij
  have hne : ¬ ((t.step =? 0.0) = true) := by rw [beq_real]; norm_num; exact hpos.ne'
  have hmid : ∀ v, a ≤ v → v < b → ∃ k : Int, 0 ≤ k ∧ k < N - 1 ∧ t.index debug v = .ok k ∧
      t.value k ≤ v ∧ v < t.value (k + 1) := by
    intro v hv0 hv1
    have h1 : t.value ⌊(v - a) / t.step⌋ ≤ v := by
      have := Int.floor_le ((v - a) / t.step)
      rw [le_div_iff₀ hpos] at this
      rw [hval]; linarith
    have h2 : v < t.value (⌊(v - a) / t.step⌋ + 1) := by
      have := Int.lt_floor_add_one ((v - a) / t.step)
      rw [div_lt_iff₀ hpos] at this
      rw [hval]; push_cast; linarith
    have h3 : 0 ≤ ⌊(v - a) / t.step⌋ := Int.floor_nonneg.mpr (div_nonneg (by linarith) hpos.le)
    have h4 : ⌊(v - a) / t.step⌋ < (N : Int) - 1 := by
      apply hmono'; rw [hvalN]; linarith
    refine ⟨_, h3, h4, ?_, h1, h2⟩
    unfold LinearVArray.index
    rw [if_neg, if_neg (by rw [le_real]; exact not_le.mpr hv1)]
    · have : cassert debug (t.step >? 0.0) = .ok () := by
        unfold cassert
        rw [if_neg]
        have : (t.step >? 0.0) = true := by rw [lt_real]; norm_num; exact hpos
        simp [this]
      rw [this]
      simp only [bind, Except.bind, floor_real]
      exact castInt_real ⌊(v - a) / t.step⌋ (by omega) (by omega)
    · simp only [Bool.or_eq_true, lt_real, not_or, not_lt]
      exact ⟨hv0, hne⟩
  have hlo : ∀ v, v < a → t.index debug v = .ok (-1) := fun v hv => by
    unfold LinearVArray.index
    rw [if_pos]
    have : (v <? t.min) = true := by rw [lt_real]; exact hv
    simp [this]
  have hhi : ∀ v, b ≤ v → t.index debug v = .ok ((N : Int) - 1) := fun v hv => by
    unfold LinearVArray.index
    rw [if_neg, if_pos (by rw [le_real]; exact hv)]
    simp only [Bool.or_eq_true, lt_real, not_or, not_lt]
    exact ⟨by show a ≤ v; linarith, hne⟩
  refine ⟨hval0, hvalN, hmono, fun v => ?_, fun i hi => ?_⟩
  · rcases lt_or_ge v a with hv | hv
    · exact ⟨-1, hlo v hv, by omega, by omega, by simp [hv], ⟨by omega, fun h' => by linarith⟩,
        by omega⟩
    · rcases lt_or_ge v b with hv' | hv'
      · obtain ⟨k, h0, h1, h2, h3, h4⟩ := hmid v hv hv'
        exact ⟨k, h2, by omega, by omega, ⟨by omega, fun h' => by linarith⟩,
          ⟨by omega, fun h' => by linarith⟩, fun _ _ => ⟨h3, h4⟩⟩
      · exact ⟨_, hhi v hv', by omega, by omega, ⟨by omega, fun h' => by linarith⟩, by simp [hv'],
          by omega⟩
  · rcases Nat.lt_or_ge i (N - 1) with h1 | h1
    · have h2 : a ≤ t.value i := by
        rcases Nat.eq_zero_or_pos i with h0 | h0
        · subst h0; exact hval0.ge
        · rw [← hval0]; exact (hmono _ _ (by omega)).le
      have h3 : t.value i < b := by rw [← hvalN]; exact hmono _ _ (by omega)
      obtain ⟨k, _, _, h6, h7, h8⟩ := hmid _ h2 h3
      rw [h6]
      have := hmono' _ _ h8
      have : ¬ (i : Int) < k := fun hc => absurd (hmono _ _ hc) (not_lt.mpr h7)
      congr 1; omega
    · have : (i : Int) = N - 1 := by omega
      rw [this]
      exact hhi _ hvalN.ge

/-- The hypotheses of the theorems of this file are met by the table of the library. -/
example : (energy_table : EnergyTable ℝ).logmin < energy_table.logmax ∧
    2 ≤ (energy_table : EnergyTable ℝ).N ∧ (energy_table : EnergyTable ℝ).N ≤ 2147483647 ∧
    (energy_table : EnergyTable ℝ).Spaced ∧
    (energy_table : EnergyTable ℝ).val 5 < (energy_table : EnergyTable ℝ).val 6 - 10 * 2⁻¹ ^ 52 :=
  ⟨energy_table_bounds.1, energy_table_bounds.2.1, energy_table_bounds.2.2, energy_table_spaced,
    energy_table_spaced 5 (by decide)⟩

end Catima
