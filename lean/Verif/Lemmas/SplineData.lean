import Verif.Lemmas.Spline
import Mathlib.Analysis.Calculus.Deriv.Polynomial
import Mathlib.Analysis.Calculus.Deriv.Pow
import Mathlib.Analysis.Calculus.Deriv.Add
import Mathlib.Analysis.Calculus.Deriv.Mul

/-!
# Helper lemmas: spline matrix, data with given second differences
-/

namespace Catima
namespace Spline
variable {g : Grid ℝ} {w : ℝ}

open Tridiag

/-- With `c[0]` of at most 2 and `a[N-1]` below 2 no pivot vanishes. -/
theorem pivot_ne (hg : g.Ordered w) (c0 aN : ℝ) (hc : c0 ≤ 2) (ha : aN < 2) :
    ∀ j < g.n, (matrix g.n g.val ⟨c0, aN⟩).pivot j ≠ 0 := by
  have hs := hg.size
  have key : ∀ j, 0 < j → j + 1 < g.n →
      (matrix g.n g.val ⟨c0, aN⟩).c j ≤ (matrix g.n g.val ⟨c0, aN⟩).pivot j ∧
      0 < (matrix g.n g.val ⟨c0, aN⟩).c j := by
    intro j
    induction j with
    | zero => intro h; omega
    | succ j ih =>
      intro _ hj
      have hm := mono hg j (j + 1) (by omega) (by omega)
      have hm' := mono hg (j + 1) (j + 2) (by omega) hj
      have hcj : (matrix g.n g.val ⟨c0, aN⟩).c (j + 1) = 1 / 3 * (g.val (j + 1) - g.val j) := by
        simp only [matrix]
        rw [if_neg (by omega), if_neg (by omega)]
        norm_num
      have hdj : (matrix g.n g.val ⟨c0, aN⟩).d (j + 1) = 2 / 3 * (g.val (j + 2) - g.val j) := by
        simp only [matrix]
        rw [if_neg (by omega), if_neg (by omega)]
        norm_num
      have haj : (matrix g.n g.val ⟨c0, aN⟩).a (j + 1) = 1 / 3 * (g.val (j + 2) - g.val (j + 1)) := by
        simp only [matrix]
        rw [if_neg (by omega), if_neg (by omega)]
        norm_num
      refine ⟨?_, by rw [hcj]; linarith⟩
      have hq : (matrix g.n g.val ⟨c0, aN⟩).c j / (matrix g.n g.val ⟨c0, aN⟩).pivot j ≤ 1 := by
        rcases Nat.eq_zero_or_pos j with h0 | h0
        · subst h0
          simp only [pivot, matrix, if_true]
          apply div_le_one_of_le₀ <;> norm_num
          linarith
        · have ih' := ih h0 (by omega)
          rw [div_le_one (lt_of_lt_of_le ih'.2 ih'.1)]
          exact ih'.1
      simp only [pivot]
      rw [hcj, hdj, haj]
      nlinarith
  intro j hj
  rcases Nat.eq_zero_or_pos j with h0 | h0
  · subst h0
    simp only [pivot]
    exact matrix_d0 _ _ _
  · rcases Nat.lt_or_ge (j + 1) g.n with h1 | h1
    · have := key j h0 h1
      exact (lt_of_lt_of_le this.2 this.1).ne'
    · have : j = (j - 1) + 1 := by omega
      rw [this]
      simp only [pivot]
      rw [← this]
      have hd : (matrix g.n g.val ⟨c0, aN⟩).d j = 2 := by
        simp only [matrix]
        rw [if_neg (by omega), if_pos (by omega)]
        norm_num
      have ha' : (matrix g.n g.val ⟨c0, aN⟩).a j = aN := by
        simp only [matrix]
        rw [if_pos (by omega)]
      have k := key (j - 1) (by omega) (by omega)
      have kp := lt_of_lt_of_le k.2 k.1
      have r0 : 0 < (matrix g.n g.val ⟨c0, aN⟩).c (j - 1) / (matrix g.n g.val ⟨c0, aN⟩).pivot (j - 1) := div_pos k.2 kp
      have r1 : (matrix g.n g.val ⟨c0, aN⟩).c (j - 1) / (matrix g.n g.val ⟨c0, aN⟩).pivot (j - 1) ≤ 1 := (div_le_one kp).mpr k.1
      rw [hd, ha']
      refine ne_of_gt ?_
      nlinarith

/-- With a non-positive `c[0]` and `a[N-1] = 0` no pivot vanishes. -/
theorem pivot_pos (hg : g.Ordered w) (c0 : ℝ) (hc : c0 ≤ 0) :
    ∀ j < g.n, (matrix g.n g.val ⟨c0, 0⟩).pivot j ≠ 0 :=
  pivot_ne hg c0 0 (by linarith) (by norm_num)

theorem le_of_hundredth {a b : ℝ} (h : a ≤ 0.01 * |b|) : a ≤ |b| := by
  norm_num at h; linarith [abs_nonneg b]

/-- With small numbers in the unassigned cells the solution is small at the two ends. -/
theorem small_ends (hg : g.Ordered w) (jk : Junk ℝ) (hjk : SmallJunk jk) (y : Nat → ℝ) :
    ∃ xs, (matrix g.n g.val jk).trig_solve g.n (rhs g.n g.val y) = .ok xs ∧
      Swapped (matrix g.n g.val jk) g.n (rhs g.n g.val y) (fun i => xs.getD i 0) ∧
      |xs.getD 0 0| ≤ 0.01 * |xs.getD 1 0| ∧ |xs.getD (g.n - 1) 0| ≤ 0.01 * |xs.getD (g.n - 2) 0| := by
  have hs := hg.size
  have h1 := abs_le.mp hjk.first
  have h2 := abs_le.mp hjk.last
  obtain ⟨xs, e1, -, sw⟩ := trig_solve_swapped (matrix g.n g.val jk) g.n (by omega) (rhs g.n g.val y)
    (pivot_ne hg jk.c0 jk.aN (by norm_num at h1 ⊢; linarith [h1.2]) (by norm_num at h2 ⊢; linarith [h2.2]))
  refine ⟨xs, e1, sw, ?_, ?_⟩
  · have := sw 0 (by omega)
    simp only [matrix, rhs, if_true, show 0 + 1 < g.n by omega, zero_add] at this
    norm_num at this
    have e : xs.getD 0 0 = -(jk.c0 / 2 * xs.getD 1 0) := by
      simp only [List.getD_eq_getElem?_getD] at this ⊢
      linarith
    rw [e, abs_neg, abs_mul, abs_div]
    refine mul_le_mul_of_nonneg_right ?_ (abs_nonneg _)
    have := hjk.first
    norm_num at this ⊢
    linarith
  · have := sw (g.n - 1) (by omega)
    simp only [matrix, rhs, if_true, show ¬ g.n - 1 + 1 < g.n by omega, show ¬ g.n - 1 = 0 by omega, if_false,
      show g.n - 1 - 1 = g.n - 2 by omega] at this
    norm_num at this
    have e : xs.getD (g.n - 1) 0 = -(jk.aN / 2 * xs.getD (g.n - 2) 0) := by
      simp only [List.getD_eq_getElem?_getD] at this ⊢
      linarith
    rw [e, abs_neg, abs_mul, abs_div]
    refine mul_le_mul_of_nonneg_right ?_ (abs_nonneg _)
    have := hjk.last
    norm_num at this ⊢
    linarith

/-- Partial sums, the slopes of the data. -/
noncomputable def slopes (r : Nat → ℝ) : Nat → ℝ
  | 0 => 0
  | i + 1 => slopes r i + r (i + 1)

/-- Data with slopes `slopes r`. -/
noncomputable def heights (x r : Nat → ℝ) : Nat → ℝ
  | 0 => 0
  | i + 1 => heights x r i + slopes r i * (x (i + 1) - x i)

theorem exists_data (hg : g.Ordered w) (r : Nat → ℝ) (h0 : r 0 = 0) (hl : r (g.n - 1) = 0) :
    ∃ ys : List ℝ, ys.length = g.n ∧ ∀ i < g.n, rhs g.n g.val (fun i => ys.getD i 0) i = r i := by
  have hs := hg.size
  refine ⟨(List.range g.n).map (heights g.val r), by simp, fun i hi => ?_⟩
  have hget : ∀ j < g.n, ((List.range g.n).map (heights g.val r)).getD j 0 = heights g.val r j := by
    intro j hj
    simp [List.getD_eq_getElem?_getD, hj]
  unfold rhs
  by_cases hi0 : i = 0
  · rw [if_pos hi0, hi0, h0]; norm_num
  rw [if_neg hi0]
  by_cases hil : i = g.n - 1
  · rw [if_pos hil, hil, hl]; norm_num
  rw [if_neg hil]
  simp only [hget i hi, hget (i + 1) (by omega), hget (i - 1) (by omega)]
  obtain ⟨j, rfl⟩ : ∃ j, i = j + 1 := ⟨i - 1, by omega⟩
  have m1 := mono hg j (j + 1) (by omega) hi
  have m2 := mono hg (j + 1) (j + 2) (by omega) (by omega)
  simp only [Nat.add_sub_cancel, heights, slopes]
  have e1 : g.val (j + 1 + 1) - g.val (j + 1) ≠ 0 := by
    have : g.val (j + 1 + 1) = g.val (j + 2) := rfl
    linarith
  have e2 : g.val (j + 1) - g.val j ≠ 0 := by linarith
  field_simp
  ring

/-- The right-hand side for which `b` solves the system the solver works with. -/
noncomputable def image (A : Tridiag ℝ) (N : Nat) (b : Nat → ℝ) (i : Nat) : ℝ :=
  (if i = 0 then 0 else A.a i * b (i - 1)) + A.d i * b i + (if i + 1 < N then A.c i * b (i + 1) else 0)

theorem swapped_image (A : Tridiag ℝ) (N : Nat) (b : Nat → ℝ) : Swapped A N (image A N b) b :=
  fun _ _ => rfl

theorem swapped_congr {A : Tridiag ℝ} {N : Nat} {r r' b : Nat → ℝ} (h : ∀ i < N, r i = r' i)
    (hb : Swapped A N r b) : Swapped A N r' b := fun i hi => (hb i hi).trans (h i hi)

theorem hasDerivAt_piece (P : Cubics) (x : Nat → ℝ) (k : Nat) (v : ℝ) :
    HasDerivAt (P.at x k) (P.slope x k v) v := by
  have h1 : HasDerivAt (fun u => u - x k) 1 v := (hasDerivAt_id v).sub_const _
  have h := (((h1.pow 3).const_mul (P.a k)).add ((h1.pow 2).const_mul (P.b k))).add
    (h1.const_mul (P.c k)) |>.add_const (P.y k)
  refine h.congr_deriv ?_
  simp only [Cubics.slope]
  norm_num
  ring

end Spline
end Catima
