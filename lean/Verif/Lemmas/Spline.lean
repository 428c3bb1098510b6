import Verif.Lemmas.Tridiag
import Verif.Spec.Spline

/-!
# Helper lemmas: spline evaluation over `ℝ`
-/

namespace Catima
namespace Spline

theorem getD_zero_eq (l : List ℝ) (i : Nat) : l.getD i 0.0 = l.getD i 0 := by
  have : (0.0 : ℝ) = 0 := by norm_num
  rw [this]

/-- The cubic pieces of `ofB`, including the constant piece at the last point. -/
noncomputable def pieces (g : Grid ℝ) (ys bs : List ℝ) : Cubics where
  a k := if k + 1 < g.n then coefA g.val (fun i => bs.getD i 0) k else 0
  b k := if k + 1 < g.n then bs.getD k 0 else 0
  c k := if k + 1 < g.n then coefC g.val (fun i => ys.getD i 0) (fun i => bs.getD i 0) k
    else 3 * coefA g.val (fun i => bs.getD i 0) (g.n - 2) * (g.val (g.n - 1) - g.val (g.n - 2)) ^ 2
      + 2 * bs.getD (g.n - 2) 0 * (g.val (g.n - 1) - g.val (g.n - 2))
      + coefC g.val (fun i => ys.getD i 0) (fun i => bs.getD i 0) (g.n - 2)
  y k := ys.getD k 0

theorem coefA_real (x b : Nat → ℝ) (i : Nat) :
    coefA x b i = 1 / 3 * (b (i + 1) - b i) / (x (i + 1) - x i) := by
  simp only [coefA]; norm_num

theorem coefC_real (x y b : Nat → ℝ) (i : Nat) :
    coefC x y b i = (y (i + 1) - y i) / (x (i + 1) - x i) -
      1 / 3 * (2 * b i + b (i + 1)) * (x (i + 1) - x i) := by
  simp only [coefC]; norm_num

theorem rd_coef (n : Nat) (f : Nat → ℝ) (e : ℝ) (k : Nat) (hk : k < n) :
    rd ((List.range (n - 1)).map f ++ [e]) (k : Int) = .ok (if k + 1 < n then f k else e) := by
  rw [rd_nat _ _ (by simp; omega)]
  by_cases h : k + 1 < n
  · rw [if_pos h, List.getElem_append_left (by simp; omega)]
    simp
  · rw [if_neg h, List.getElem_append_right (by simp; omega)]
    simp

theorem rd_y (ys : List ℝ) (k : Nat) (h : k < ys.length) : rd ys (k : Int) = .ok (ys.getD k 0) := by
  rw [rd_nat _ _ h]
  simp [List.getD_eq_getElem?_getD, h]

theorem evaluate_ofB (g : Grid ℝ) (ys bs : List ℝ) (hn : 3 ≤ g.n) (hy : g.n ≤ ys.length) (x : ℝ)
    (i : Int) (k : Nat) (hi : g.index x = .ok i) (hk : max i 0 = (k : Int)) (hkn : k < g.n)
    (hlo : x < g.val 0 → k = 0) (hhi : g.val (g.n - 1) < x → ¬ x < g.val 0 → k = g.n - 1) :
    (ofB g ys bs).evaluate x = .ok (if x < g.val 0 then
      (pieces g ys bs).c 0 * (x - g.val 0) + ys.getD 0 0 else (pieces g ys bs).at g.val k x) := by
  unfold evaluate
  have e : (ofB g ys bs).grid = g := rfl
  have ey : (ofB g ys bs).y = ys := rfl
  simp only [e, ey, hi, bind, Except.bind, hk, Int.toNat_natCast]
  have y0 := rd_y ys 0 (by omega)
  simp only [Nat.cast_zero] at y0
  by_cases h0 : x < g.val 0
  · rw [if_pos (by rw [lt_real]; exact h0), if_pos h0, hlo h0, y0]
    simp only [pure, Except.pure]
    congr 1
    have : (ofB g ys bs).b0 = 0 := by simp only [ofB]; norm_num
    rw [this]
    have : (ofB g ys bs).c0 = (pieces g ys bs).c 0 := by
      simp only [ofB, pieces, getD_zero_eq]
      rw [if_pos (by omega)]
    rw [this]; ring
  · rw [if_neg (by rw [lt_real]; exact h0), if_neg h0]
    have ra : rd (ofB g ys bs).a (k : Int) = .ok ((pieces g ys bs).a k) := by
      simp only [ofB, pieces, getD_zero_eq]
      rw [rd_coef _ _ _ _ hkn]
      norm_num
    have rb : rd (ofB g ys bs).b (k : Int) = .ok ((pieces g ys bs).b k) := by
      simp only [ofB, pieces, getD_zero_eq]
      rw [rd_coef _ _ _ _ hkn]
      norm_num
    have rc : rd (ofB g ys bs).c (k : Int) = .ok ((pieces g ys bs).c k) := by
      simp only [ofB, pieces, getD_zero_eq]
      rw [rd_coef _ _ _ _ hkn]
      congr 1
      split
      · rfl
      · norm_num; ring
    have ry : rd ys (k : Int) = .ok ((pieces g ys bs).y k) := rd_y ys k (by omega)
    by_cases h1 : g.val (g.n - 1) < x
    · rw [if_pos (by rw [lt_real]; exact h1)]
      have hk' := hhi h1 h0
      have hc : ((g.n : Int) - 1) = (k : Int) := by omega
      rw [hc, rb, rc, ry]
      simp only [pure, Except.pure]
      congr 1
      have ha : (pieces g ys bs).a k = 0 := by simp only [pieces]; rw [if_neg (by omega)]
      have hb : (pieces g ys bs).b k = 0 := by simp only [pieces]; rw [if_neg (by omega)]
      simp only [Cubics.at, ha, hb]
      ring
    · rw [if_neg (by rw [lt_real]; exact h1)]
      rw [ra, rb, rc, ry]
      simp only [pure, Except.pure]
      congr 1
      simp only [Cubics.at]
      ring

theorem deriv_ofB (g : Grid ℝ) (ys bs : List ℝ) (hn : 3 ≤ g.n) (x : ℝ)
    (i : Int) (k : Nat) (hi : g.index x = .ok i) (hk : max i 0 = (k : Int)) (hkn : k < g.n)
    (hhi : g.val (g.n - 1) < x → ¬ x < g.val 0 → k = g.n - 1) :
    (ofB g ys bs).deriv x = .ok (if x < g.val 0 then
      (pieces g ys bs).c 0 else (pieces g ys bs).slope g.val k x) := by
  unfold deriv
  have e : (ofB g ys bs).grid = g := rfl
  simp only [e, hi, bind, Except.bind, hk, Int.toNat_natCast]
  by_cases h0 : x < g.val 0
  · rw [if_pos (by rw [lt_real]; exact h0), if_pos h0]
    simp only [pure, Except.pure]
    congr 1
    have : (ofB g ys bs).b0 = 0 := by simp only [ofB]; norm_num
    rw [this]
    have : (ofB g ys bs).c0 = (pieces g ys bs).c 0 := by
      simp only [ofB, pieces, getD_zero_eq]
      rw [if_pos (by omega)]
    rw [this]; ring
  · rw [if_neg (by rw [lt_real]; exact h0), if_neg h0]
    have ra : rd (ofB g ys bs).a (k : Int) = .ok ((pieces g ys bs).a k) := by
      simp only [ofB, pieces, getD_zero_eq]
      rw [rd_coef _ _ _ _ hkn]
      norm_num
    have rb : rd (ofB g ys bs).b (k : Int) = .ok ((pieces g ys bs).b k) := by
      simp only [ofB, pieces, getD_zero_eq]
      rw [rd_coef _ _ _ _ hkn]
      norm_num
    have rc : rd (ofB g ys bs).c (k : Int) = .ok ((pieces g ys bs).c k) := by
      simp only [ofB, pieces, getD_zero_eq]
      rw [rd_coef _ _ _ _ hkn]
      congr 1
      split
      · rfl
      · norm_num; ring
    by_cases h1 : g.val (g.n - 1) < x
    · rw [if_pos (by rw [lt_real]; exact h1)]
      have hk' := hhi h1 h0
      have hc : ((g.n : Int) - 1) = (k : Int) := by omega
      rw [hc, rb, rc]
      simp only [pure, Except.pure]
      congr 1
      have ha : (pieces g ys bs).a k = 0 := by simp only [pieces]; rw [if_neg (by omega)]
      have hb : (pieces g ys bs).b k = 0 := by simp only [pieces]; rw [if_neg (by omega)]
      simp only [Cubics.slope, ha, hb]
      ring
    · rw [if_neg (by rw [lt_real]; exact h1)]
      rw [ra, rb, rc]
      simp only [pure, Except.pure]
      congr 1
      simp only [Cubics.slope]
      norm_num
      ring

variable {g : Grid ℝ} {w : ℝ}

theorem mono (hg : g.Ordered w) : ∀ i j, i < j → j < g.n → g.val i < g.val j := by
  intro i j hij
  induction j with
  | zero => omega
  | succ j ih =>
    intro hj
    have h1 := hg.gap j hj
    have := hg.width
    rcases Nat.lt_or_ge i j with h | h
    · have := ih h (by omega); linarith
    · have : i = j := by omega
      rw [this]; linarith

theorem mono_le (hg : g.Ordered w) (i j : Nat) (h : i ≤ j) (hj : j < g.n) : g.val i ≤ g.val j := by
  rcases Nat.lt_or_ge i j with h' | h'
  · exact (mono hg i j h' hj).le
  · have : i = j := by omega
    rw [this]

theorem index_data (hg : g.Ordered w) (x : ℝ) : ∃ (i : Int) (k : Nat), g.index x = .ok i ∧
    max i 0 = (k : Int) ∧ k < g.n ∧ (x < g.val 0 → k = 0) ∧
    (g.val (g.n - 1) < x → ¬ x < g.val 0 → k = g.n - 1) := by
  have hs := hg.size
  obtain ⟨i, hi, hin⟩ := hg.total x
  refine ⟨i, (max i 0).toNat, hi, by omega, by omega, ?_, ?_⟩
  · intro hx
    obtain ⟨i', hi', h'⟩ := hg.below x hx
    rw [hi] at hi'; cases hi'
    omega
  · intro hx _
    have := hg.above x hx.le
    rw [hi] at this; cases this
    omega

/-- The two polynomials at a grid point meet in the tabulated value. -/
theorem pieces_join (hg : g.Ordered w) (ys bs : List ℝ) (k : Nat) (hk : k + 1 < g.n) :
    (pieces g ys bs).at g.val k (g.val (k + 1)) = ys.getD (k + 1) 0 := by
  have hh := mono hg k (k + 1) (by omega) hk
  have hne : g.val (k + 1) - g.val k ≠ 0 := by linarith
  simp only [Cubics.at, pieces, if_pos hk, coefA, coefC]
  norm_num
  field_simp
  ring

theorem pieces_at_knot (ys bs : List ℝ) (k : Nat) :
    (pieces g ys bs).at g.val k (g.val k) = ys.getD k 0 := by
  simp only [Cubics.at, pieces, sub_self]
  norm_num

/-- Slope at the right end of an inner piece. -/
theorem slope_right (hg : g.Ordered w) (ys bs : List ℝ) (k : Nat) (hk : k + 1 < g.n) :
    (pieces g ys bs).slope g.val k (g.val (k + 1)) =
      (ys.getD (k + 1) 0 - ys.getD k 0) / (g.val (k + 1) - g.val k) +
        1 / 3 * (bs.getD k 0 + 2 * bs.getD (k + 1) 0) * (g.val (k + 1) - g.val k) := by
  have hh := mono hg k (k + 1) (by omega) hk
  have hne : g.val (k + 1) - g.val k ≠ 0 := by linarith
  simp only [Cubics.slope, pieces, if_pos hk, coefA, coefC]
  norm_num
  field_simp
  ring

/-- Slope at the left end of an inner piece. -/
theorem slope_left (ys bs : List ℝ) (k : Nat) (hk : k + 1 < g.n) :
    (pieces g ys bs).slope g.val k (g.val k) =
      (ys.getD (k + 1) 0 - ys.getD k 0) / (g.val (k + 1) - g.val k) -
        1 / 3 * (2 * bs.getD k 0 + bs.getD (k + 1) 0) * (g.val (k + 1) - g.val k) := by
  simp only [Cubics.slope, pieces, if_pos hk, coefC, sub_self]
  norm_num

theorem slope_last (hg : g.Ordered w) (ys bs : List ℝ) :
    (pieces g ys bs).c (g.n - 1) =
      (pieces g ys bs).slope g.val (g.n - 2) (g.val (g.n - 1)) := by
  have hs := hg.size
  simp only [Cubics.slope, pieces]
  rw [if_neg (by omega), if_pos (by omega), if_pos (by omega), if_pos (by omega)]

theorem matrix_d0 (N : Nat) (x : Nat → ℝ) (jk : Junk ℝ) : (matrix N x jk).d 0 ≠ 0 := by
  simp only [matrix]; norm_num

/-- The solved coefficients. -/
theorem solve_data (hg : g.Ordered w) (jk : Junk ℝ) (ys : List ℝ) (hy : g.n ≤ ys.length) :
    ∃ bs, (matrix g.n g.val jk).trig_solve g.n (rhs g.n g.val fun i => ys.getD i 0) = .ok bs ∧
      new jk g ys = .ok (ofB g ys bs) := by
  have hs := hg.size
  have hr : (fun i => ys.getD i (0.0 : ℝ)) = fun i => ys.getD i 0 :=
    funext fun i => getD_zero_eq ys i
  by_cases hp : ∀ j < g.n, (matrix g.n g.val jk).pivot j ≠ 0
  · obtain ⟨xs, h1, _⟩ := Tridiag.trig_solve_good _ g.n (by omega)
      (rhs g.n g.val fun i => ys.getD i 0) hp
    refine ⟨xs, h1, ?_⟩
    unfold new
    rw [if_neg (by omega), hr, h1]
    rfl
  · push Not at hp
    have h1 := Tridiag.trig_solve_zero _ g.n (rhs g.n g.val fun i => ys.getD i 0)
      (matrix_d0 g.n g.val jk) hp
    refine ⟨_, h1, ?_⟩
    unfold new
    rw [if_neg (by omega), hr, h1]
    rfl

theorem new_eq (hg : g.Ordered w) (jk : Junk ℝ) (ys : List ℝ) (hy : g.n ≤ ys.length) :
    ∃ bs, new jk g ys = .ok (ofB g ys bs) := by
  obtain ⟨bs, _, h⟩ := solve_data hg jk ys hy
  exact ⟨bs, h⟩

end Spline
end Catima
