import Verif.Lemmas.Basic
import Verif.Model.EnergyTable

/-!
# Helper lemmas: the grids over `ℝ`
-/

namespace Catima

theorem LN10_pos : (0 : ℝ) < LN10 := by norm_num [LN10]

theorem eps_pos : (0 : ℝ) < numeric_epsilon := by norm_num [numeric_epsilon, dblEps]

theorem eps_eq : (numeric_epsilon : ℝ) = 10 * 2⁻¹ ^ 52 := by norm_num [numeric_epsilon, dblEps]

theorem castInt_real (i : Int) (h : -2147483648 ≤ i) (h' : i ≤ 2147483647) :
    castInt ((i : ℝ)) = .ok i := by
  unfold castInt
  rw [toInt_real, if_pos]
  · simp
  · constructor
    · have : ((-2147483648 : Int) : ℝ) ≤ (i : ℝ) := by exact_mod_cast h
      push_cast at this; linarith
    · have : (i : ℝ) ≤ ((2147483647 : Int) : ℝ) := by exact_mod_cast h'
      push_cast at this; linarith

/-- First position at which a predicate holds, for a list of consecutive numbers. -/
theorem findIdx_range_eq (p : Nat → Bool) (n k : Nat) (hk : k ≤ n) (h1 : ∀ j < k, p j = false)
    (h2 : k < n → p k = true) : (List.range n).findIdx p = k := by
  rcases Nat.lt_or_ge k n with h | h
  · rw [List.findIdx_eq (by simpa using h)]
    simp only [List.getElem_range]
    exact ⟨h2 h, fun j hj => h1 j hj⟩
  · have : k = n := by omega
    subst this
    have := List.findIdx_eq_length (p := p) (xs := List.range k)
    rw [List.length_range] at this
    rw [this]
    intro x hx
    exact h1 x (by simpa using hx)

namespace EnergyTable
variable (t : EnergyTable ℝ)

theorem step_eq : t.step = (t.logmax - t.logmin) / ((t.N : ℝ) - 1) := by
  simp only [step, ofInt_real]; norm_num

theorem step_pos (h : t.logmin < t.logmax) (hN : 2 ≤ t.N) : 0 < t.step := by
  rw [step_eq]
  have : (2 : ℝ) ≤ t.N := by exact_mod_cast hN
  apply div_pos <;> linarith

theorem val_eq (i : Nat) : t.val i = Real.exp (LN10 * (t.logmin + (i : ℝ) * t.step)) := by
  simp only [val, exp_real, ofInt_real]; norm_num

theorem val_pos (i : Nat) : 0 < t.val i := by rw [val_eq]; exact Real.exp_pos _

theorem val_lt_iff (h : t.logmin < t.logmax) (hN : 2 ≤ t.N) (i j : Nat) :
    t.val i < t.val j ↔ i < j := by
  rw [val_eq, val_eq, Real.exp_lt_exp, mul_lt_mul_iff_right₀ LN10_pos, add_lt_add_iff_left,
    mul_lt_mul_iff_left₀ (step_pos t h hN), Nat.cast_lt]

theorem val_le_iff (h : t.logmin < t.logmax) (hN : 2 ≤ t.N) (i j : Nat) :
    t.val i ≤ t.val j ↔ i ≤ j := by
  rw [← not_lt, val_lt_iff t h hN, not_lt]

/-- The log coordinate computed by `index`. -/
noncomputable def coord (v : ℝ) : ℝ := Real.log (v / t.val 0) / LN10 / t.step

theorem coord_val_le (h : t.logmin < t.logmax) (hN : 2 ≤ t.N) (v : ℝ) (hv : 0 < v) (i : Nat) :
    (i : ℝ) ≤ t.coord v ↔ t.val i ≤ v := by
  have hs := step_pos t h hN
  unfold coord
  rw [le_div_iff₀ hs, le_div_iff₀ LN10_pos, Real.log_div hv.ne' (val_pos t 0).ne', val_eq t 0,
    Real.log_exp, val_eq t i, ← Real.le_log_iff_exp_le hv]
  push_cast
  constructor <;> intro h <;> nlinarith

theorem coord_lt_val (h : t.logmin < t.logmax) (hN : 2 ≤ t.N) (v : ℝ) (hv : 0 < v) (i : Nat) :
    t.coord v < (i : ℝ) ↔ v < t.val i := by
  rw [← not_le, coord_val_le t h hN v hv, not_le]

/-- Every point between the first and the last grid point has an interval. -/
theorem exists_bracket (h : t.logmin < t.logmax) (hN : 2 ≤ t.N) (v : ℝ) (h0 : t.val 0 ≤ v)
    (h1 : v < t.val (t.N - 1)) : ∃ k : Nat, k + 1 < t.N ∧ t.val k ≤ v ∧ v < t.val (k + 1) ∧
      ⌊t.coord v⌋ = (k : Int) := by
  have hv : 0 < v := (val_pos t 0).trans_le h0
  have hc : 0 ≤ t.coord v := by
    have := (coord_val_le t h hN v hv 0).mpr h0
    simpa using this
  refine ⟨⌊t.coord v⌋₊, ?_, ?_, ?_, ?_⟩
  · have : t.coord v < ((t.N - 1 : Nat) : ℝ) := (coord_lt_val t h hN v hv _).mpr h1
    have := (Nat.floor_lt hc).mpr this
    omega
  · rw [← coord_val_le t h hN v hv]
    exact Nat.floor_le hc
  · rw [← coord_lt_val t h hN v hv]
    push_cast
    exact Nat.lt_floor_add_one _
  · exact (Int.natCast_floor_eq_floor hc).symm

theorem upperBound_eq (h : t.logmin < t.logmax) (hN : 2 ≤ t.N) (v : ℝ) (k : Nat)
    (hk : k + 1 < t.N) (h0 : t.val k ≤ v) (h1 : v < t.val (k + 1)) : t.upperBound v = k + 1 := by
  unfold upperBound
  apply findIdx_range_eq _ _ _ hk.le
  · intro j hj
    rw [lt_real_false]
    exact ((val_le_iff t h hN j k).mpr (by omega)).trans h0
  · intro _
    rw [lt_real]; exact h1

/-- `index` below the table. -/
theorem index_below (ci : Bool) (v : ℝ) (hv : v < t.val 0) : t.index ci v = .ok (-1) := by
  unfold index
  rw [if_pos]
  simp [hv]

/-- `index` at and above the last point. -/
theorem index_above (ci : Bool) (h : t.logmin < t.logmax) (hN : 2 ≤ t.N) (v : ℝ) (h0 : t.val 0 ≤ v)
    (hv : t.val (t.N - 1) - numeric_epsilon ≤ v) : t.index ci v = .ok ((t.N : Int) - 1) := by
  unfold index
  rw [if_neg, if_pos]
  · simpa using hv
  · have := (step_pos t h hN).ne'
    simp only [Bool.or_eq_true, lt_real, beq_real, not_or, not_lt]
    refine ⟨h0, ?_⟩
    norm_num
    exact this

/-- `index` inside the table. -/
theorem index_inside (ci : Bool) (h : t.logmin < t.logmax) (hN : 2 ≤ t.N)
    (hN' : t.N ≤ 2147483647) (v : ℝ) (k : Nat)
    (hk : k + 1 < t.N) (h0 : t.val k ≤ v) (h1 : v < t.val (k + 1))
    (h2 : v < t.val (t.N - 1) - numeric_epsilon) :
    t.index ci v = .ok (if ci = true ∧ t.val (k + 1) - numeric_epsilon ≤ v then (k : Int) + 1
      else k) := by
  have h00 : t.val 0 ≤ v := ((val_le_iff t h hN 0 k).mpr (by omega)).trans h0
  unfold index
  rw [if_neg, if_neg]
  · have hl : v < t.val (t.N - 1) := by have := eps_pos; linarith
    obtain ⟨k', hk', h0', h1', hf⟩ := exists_bracket t h hN v h00 hl
    have e : k' = k := by
      have a := (val_lt_iff t h hN k (k' + 1)).mp (h0.trans_lt h1')
      have b := (val_lt_iff t h hN k' (k + 1)).mp (h0'.trans_lt h1)
      omega
    subst e
    cases ci
    · simp only [Bool.false_eq_true, if_false, false_and]
      rw [upperBound_eq t h hN v k' hk h0 h1]
      simp
    · have hc : (Scalar.floor (Scalar.log (v / t.val 0) / LN10 / t.step) : ℝ) = ((k' : Int) : ℝ) := by
        rw [floor_real, log_real]
        exact congrArg _ hf
      simp only [if_true, hc]
      rw [castInt_real _ (by omega) (by omega)]
      simp only [bind, Except.bind, EnergyTable.get]
      rw [if_pos (by omega)]
      have : ((k' : Int) + 1).toNat = k' + 1 := by omega
      simp only [this, pure, Except.pure, le_real, true_and]
  · rw [le_real]; exact not_le.mpr h2
  · have := (step_pos t h hN).ne'
    simp only [Bool.or_eq_true, lt_real, beq_real, not_or, not_lt]
    refine ⟨h00, ?_⟩
    norm_num
    exact this

end EnergyTable

end Catima
