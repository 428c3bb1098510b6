import Verif.Props.SplineIncreasing

/-!
# C82: what other contents of the unassigned cells can do
-/

namespace Catima
open Spline Tridiag

/-- Increasing data with a small kink: slope 1 in the first interval, a little more in the second, 17 % less above. -/
noncomputable def kinked (X : Nat → ℝ) (s1 s2 : ℝ) (i : Nat) : ℝ :=
  if i = 0 then 0 else if i = 1 then X 1 - X 0 else (X 1 - X 0) + s1 * (X 2 - X 1) + s2 * (X i - X 2)

/-- With 8 in the first unassigned cell no pivot vanishes on a grid whose first spacings grow. -/
theorem pivot_eight {g : Grid ℝ} {w : ℝ} (hg : g.Ordered w) (hn : 5 ≤ g.n) (hgrow : g.val 1 - g.val 0 < g.val 2 - g.val 1) :
    ∀ j < g.n, (matrix g.n g.val ⟨8, 0⟩).pivot j ≠ 0 := by
  have p1 : (matrix g.n g.val ⟨8, 0⟩).pivot 1 = 2 / 3 * ((g.val 1 - g.val 0) - (g.val 2 - g.val 1)) := by
    simp only [pivot, matrix, if_true]
    rw [if_neg (by omega), if_neg (by omega), if_neg (by omega), if_neg (by omega)]
    norm_num
    ring
  have c1 : (matrix g.n g.val ⟨8, 0⟩).c 1 = 1 / 3 * (g.val 1 - g.val 0) := by
    simp only [matrix]
    rw [if_neg (by omega), if_neg (by omega)]
    norm_num
  have key : ∀ j, 2 ≤ j → j + 1 < g.n →
      (matrix g.n g.val ⟨8, 0⟩).c j ≤ (matrix g.n g.val ⟨8, 0⟩).pivot j ∧ 0 < (matrix g.n g.val ⟨8, 0⟩).c j := by
    intro j
    induction j with
    | zero => intro h; omega
    | succ j ih =>
      intro h2 hj
      have hm := mono hg j (j + 1) (by omega) (by omega)
      have hm' := mono hg (j + 1) (j + 2) (by omega) hj
      have hcj : (matrix g.n g.val ⟨8, 0⟩).c (j + 1) = 1 / 3 * (g.val (j + 1) - g.val j) := by
        simp only [matrix]
        rw [if_neg (by omega), if_neg (by omega)]
        norm_num
      have hdj : (matrix g.n g.val ⟨8, 0⟩).d (j + 1) = 2 / 3 * (g.val (j + 2) - g.val j) := by
        simp only [matrix]
        rw [if_neg (by omega), if_neg (by omega)]
        norm_num
      have haj : (matrix g.n g.val ⟨8, 0⟩).a (j + 1) = 1 / 3 * (g.val (j + 2) - g.val (j + 1)) := by
        simp only [matrix]
        rw [if_neg (by omega), if_neg (by omega)]
        norm_num
      refine ⟨?_, by rw [hcj]; linarith⟩
      have hq : (matrix g.n g.val ⟨8, 0⟩).c j / (matrix g.n g.val ⟨8, 0⟩).pivot j ≤ 1 := by
        rcases Nat.lt_or_ge j 2 with h0 | h0
        · obtain rfl : j = 1 := by omega
          rw [p1, c1]
          refine le_trans (div_nonpos_of_nonneg_of_nonpos ?_ ?_) zero_le_one
          · have := mono hg 0 1 (by omega) (by omega); linarith
          · linarith
        · have ih' := ih h0 (by omega)
          rw [div_le_one (lt_of_lt_of_le ih'.2 ih'.1)]
          exact ih'.1
      simp only [pivot]
      rw [hcj, hdj, haj]
      nlinarith
  intro j hj
  rcases Nat.lt_or_ge j 2 with h0 | h0
  · rcases Nat.lt_or_ge j 1 with h1 | h1
    · obtain rfl : j = 0 := by omega
      simp only [pivot]
      exact matrix_d0 _ _ _
    · obtain rfl : j = 1 := by omega
      rw [p1]
      refine ne_of_lt ?_
      linarith
  · rcases Nat.lt_or_ge (j + 1) g.n with h1 | h1
    · have := key j h0 h1
      exact (lt_of_lt_of_le this.2 this.1).ne'
    · have : j = (j - 1) + 1 := by omega
      rw [this]
      simp only [pivot]
      rw [← this]
      have hd : (matrix g.n g.val ⟨8, 0⟩).d j = 2 := by
        simp only [matrix]
        rw [if_neg (by omega), if_pos (by omega)]
        norm_num
      have ha : (matrix g.n g.val ⟨8, 0⟩).a j = 0 := by
        simp only [matrix]
        rw [if_pos (by omega)]
      rw [hd, ha]
      norm_num

/-- C82, refuted further: the increasing interpolants of C107 need what is in the unassigned cells to be small.  With 8 in
`c[0]` there are data whose slopes differ by less than 37 % from one interval to the next, and whose interpolant decreases
behind the first point. -/
theorem junk_decreases_wrong (ci : Bool) : ∃ y : List ℝ, Tame y ∧ ∃ s, Spline.new ⟨8, 0⟩ (energy_table.grid ci) y = .ok s ∧
    (∃ d, s.deriv 0 = .ok d ∧ d < 0) ∧
    ∃ a b u v, (energy_table : EnergyTable ℝ).val 0 ≤ a ∧ a < b ∧ b ≤ (energy_table : EnergyTable ℝ).val 1 ∧
      s.evaluate a = .ok u ∧ s.evaluate b = .ok v ∧ v < u := by
  set g : Grid ℝ := energy_table.grid ci with hgdef
  have hg := library_table_ordered ci
  rw [← hgdef] at hg
  have hn : g.n = 600 := rfl
  set X := (energy_table : EnergyTable ℝ).val with hX
  have hv : g.val = X := rfl
  have hq := gridRatio_bounds
  obtain ⟨q1, q2⟩ := hq
  norm_num at q1 q2
  have X0 : 0 < X 0 := EnergyTable.val_pos _ 0
  have hgeo : ∀ i, X (i + 1) = gridRatio * X i := grid_geometric
  have hstep : ∀ i, X (i + 1) - X i = (gridRatio - 1) * X i := fun i => by rw [hgeo]; ring
  set q := gridRatio with hqd
  have hXi : ∀ i, 0 < X i := EnergyTable.val_pos _
  have hpos : ∀ i, 0 < X (i + 1) - X i := fun i => by rw [hstep]; exact mul_pos (by linarith) (hXi i)
  set s1 : ℝ := 1 + (q - 1) / 3 with hs1
  set s2 : ℝ := s1 - q ^ 2 / 6 with hs2
  obtain ⟨y, hl, hget⟩ : ∃ y : List ℝ, y.length = 600 ∧ ∀ i < 600, y.getD i 0 = kinked X s1 s2 i := by
    refine ⟨(List.range 600).map (kinked X s1 s2), by rw [List.length_map, List.length_range], fun i hi => ?_⟩
    rw [List.getD_eq_getElem?_getD, List.getElem?_map, List.getElem?_range hi]
    rfl
  have m0 : meanSlope y 0 = 1 := by
    unfold meanSlope
    rw [hget 0 (by norm_num), hget 1 (by norm_num)]
    simp only [kinked, if_true, if_neg (show ¬ 1 = 0 by omega)]
    rw [sub_zero]
    exact div_self (hpos 0).ne'
  have m1 : meanSlope y 1 = s1 := by
    unfold meanSlope
    rw [hget 1 (by norm_num), hget (1 + 1) (by norm_num)]
    simp only [kinked, if_true, if_neg (show ¬ 1 = 0 by omega), if_neg (show ¬ 1 + 1 = 0 by omega), if_neg (show ¬ 1 + 1 = 1 by omega)]
    rw [div_eq_iff (hpos 1).ne']
    show _ = s1 * (X 2 - X 1)
    have e : (1 + 1 : Nat) = 2 := rfl
    rw [e]
    ring
  have m2 : ∀ i < 599, 2 ≤ i → meanSlope y i = s2 := by
    intro i hi h2
    unfold meanSlope
    rw [hget i (by omega), hget (i + 1) (by omega)]
    simp only [kinked, if_neg (show ¬ i = 0 by omega), if_neg (show ¬ i = 1 by omega), if_neg (show ¬ i + 1 = 0 by omega),
      if_neg (show ¬ i + 1 = 1 by omega)]
    rw [div_eq_iff (hpos i).ne']
    ring
  have b1 : 1.013 ≤ s1 ∧ s1 ≤ 1.0132 := by rw [hs1]; constructor <;> norm_num <;> linarith
  have b2 : 0.83 ≤ s2 ∧ s2 ≤ 0.84 := by rw [hs2, hs1]; constructor <;> norm_num <;> nlinarith
  norm_num at b1 b2
  have tame : Tame y := by
    refine ⟨hl, fun i hi => ?_, fun i hi => ?_⟩
    · rcases Nat.lt_or_ge i 2 with h | h
      · rcases Nat.lt_or_ge i 1 with h' | h'
        · obtain rfl : i = 0 := by omega
          rw [m0]; norm_num
        · obtain rfl : i = 1 := by omega
          rw [m1]; linarith
      · rw [m2 i hi h]; linarith
    · rcases Nat.lt_or_ge i 2 with h | h
      · rcases Nat.lt_or_ge i 1 with h' | h'
        · obtain rfl : i = 0 := by omega
          rw [m0, zero_add, m1]; constructor <;> norm_num <;> linarith
        · obtain rfl : i = 1 := by omega
          rw [m1, m2 (1 + 1) (by norm_num) (by norm_num)]; constructor <;> norm_num <;> linarith
      · rw [m2 i (by omega) h, m2 (i + 1) (by omega) (by omega)]; constructor <;> norm_num <;> linarith
  set h := X 1 - X 0 with hh
  have h0 : 0 < h := hpos 0
  have g1 : X 2 - X 1 = q * h := by
    rw [hh, hstep 1, hgeo 0]; ring
  have g2 : X 3 - X 2 = q ^ 2 * h := by
    rw [hh, hstep 2, hgeo 1, hgeo 0]; ring
  -- the solution
  let b : Nat → ℝ := fun i => if i = 0 then 2 / h else if i = 1 then -(1 / (2 * h)) else 0
  obtain ⟨bs, hbs, hnew⟩ := solve_data hg ⟨8, 0⟩ y (by rw [hn, hl])
  have hrhs : ∀ i, 0 < i → i < 599 → rhs g.n g.val (fun i => y.getD i 0) i = meanSlope y i - meanSlope y (i - 1) := by
    intro i hi hi'
    unfold rhs meanSlope
    rw [if_neg (by omega), hn, if_neg (by omega), hv, show i - 1 + 1 = i by omega]
  have sw : Swapped (matrix g.n g.val ⟨8, 0⟩) g.n (rhs g.n g.val fun i => y.getD i 0) b := by
    intro i hi
    rw [hn] at hi
    rcases Nat.eq_zero_or_pos i with e | e
    · subst e
      simp only [matrix, rhs, if_true, hn, b, zero_add]
      rw [if_pos (by norm_num), if_neg (by norm_num)]
      norm_num
      field_simp
      norm_num
    rcases Nat.lt_or_ge i 599 with e9 | e9
    · rw [hrhs i e e9]
      have ha : (matrix g.n g.val ⟨8, 0⟩).a i = 1 / 3 * (X (i + 1) - X i) := by
        simp only [matrix, hn, hv]
        rw [if_neg (by omega), if_neg (by omega)]; norm_num
      have hd : (matrix g.n g.val ⟨8, 0⟩).d i = 2 / 3 * (X (i + 1) - X (i - 1)) := by
        simp only [matrix, hn, hv]
        rw [if_neg (by omega), if_neg (by omega)]; norm_num
      have hc : (matrix g.n g.val ⟨8, 0⟩).c i = 1 / 3 * (X i - X (i - 1)) := by
        simp only [matrix, hn, hv]
        rw [if_neg (by omega), if_neg (by omega)]; norm_num
      rw [if_neg (by omega), if_pos (by rw [hn]; omega), ha, hd, hc]
      rcases Nat.lt_or_ge i 2 with h2 | h2
      · obtain rfl : i = 1 := by omega
        show 1 / 3 * (X 2 - X 1) * b 0 + 2 / 3 * (X 2 - X 0) * b 1 + 1 / 3 * (X 1 - X 0) * b 2 = meanSlope y 1 - meanSlope y 0
        have e : X 2 - X 0 = q * h + h := by rw [← g1, hh]; ring
        rw [m1, m0, g1, e]
        simp only [b, if_true, if_neg (show ¬ 1 = 0 by omega), if_neg (show ¬ 2 = 0 by omega), if_neg (show ¬ 2 = 1 by omega)]
        rw [hs1]
        field_simp
        ring
      · rcases Nat.lt_or_ge i 3 with h3 | h3
        · obtain rfl : i = 2 := by omega
          show 1 / 3 * (X 3 - X 2) * b 1 + 2 / 3 * (X 3 - X 1) * b 2 + 1 / 3 * (X 2 - X 1) * b 3 = meanSlope y 2 - meanSlope y 1
          rw [m1, m2 2 (by norm_num) (by norm_num), g2]
          simp only [b, if_true, if_neg (show ¬ 1 = 0 by omega), if_neg (show ¬ 2 = 0 by omega), if_neg (show ¬ 2 = 1 by omega),
            if_neg (show ¬ 3 = 0 by omega), if_neg (show ¬ 3 = 1 by omega)]
          rw [hs2]
          field_simp
          ring
        · rw [m2 i e9 (by omega), m2 (i - 1) (by omega) (by omega)]
          simp only [b, if_neg (show ¬ i = 0 by omega), if_neg (show ¬ i = 1 by omega), if_neg (show ¬ i - 1 = 0 by omega),
            if_neg (show ¬ i - 1 = 1 by omega), if_neg (show ¬ i + 1 = 0 by omega), if_neg (show ¬ i + 1 = 1 by omega)]
          ring
    · obtain rfl : i = 599 := by omega
      simp only [matrix, rhs, hn, b]
      norm_num
  have hb : ∀ i < g.n, bs.getD i 0 = b i := by
    obtain ⟨xs, h1, _, _, h4⟩ := Tridiag.trig_solve_good (matrix g.n g.val ⟨8, 0⟩) g.n (by omega)
      (rhs g.n g.val fun i => y.getD i 0) (pivot_eight hg (by rw [hn]; norm_num) (by
        show X 1 - X 0 < X 2 - X 1
        rw [g1, ← hh]; nlinarith))
    rw [h1] at hbs; cases hbs
    exact h4 b sw
  have e0 : bs.getD 0 0 = 2 / h := by rw [hb 0 (by rw [hn]; norm_num)]; simp [b]
  have e1 : bs.getD 1 0 = -(1 / (2 * h)) := by rw [hb 1 (by rw [hn]; norm_num)]; simp [b]
  have y0 : y.getD 0 0 = 0 := by rw [hget 0 (by norm_num)]; simp [kinked]
  have y1 : y.getD 1 0 = h := by rw [hget 1 (by norm_num)]; simp [kinked, hh]
  have pc : (pieces g y bs).c 0 = -(1 / 6) := by
    simp only [pieces, coefC, if_pos (show 0 + 1 < g.n by omega), zero_add, hv]
    rw [e0, e1, y0, y1, ← hh]
    norm_num
    field_simp
    norm_num
  have hl2 : X 1 ≤ X 599 := mono_le hg 1 599 (by omega) (by rw [hn]; norm_num)
  have hw0 := hg.width
  have hwid := hg.gap 0 (by rw [hn]; norm_num)
  have hsmall : (10 * 2⁻¹ ^ 52 : ℝ) < h / 2 := by
    have := abs_le.mp energy_table_range.2.1
    rw [hh, hstep 0]
    have hx : (9e-4 : ℝ) ≤ X 0 := by have := this.1; norm_num at this ⊢; linarith
    have : (0.039 : ℝ) * 9e-4 ≤ (q - 1) * X 0 := mul_le_mul (by norm_num; linarith) hx (by norm_num) (by linarith)
    norm_num at this ⊢
    linarith
  have hev : ∀ u : ℝ, 0 ≤ u → u ≤ h / 2 →
      (ofB g y bs).evaluate (X 0 + u) = .ok ((pieces g y bs).at g.val 0 (X 0 + u)) := by
    intro u hu0 hu1
    rw [evaluate_ofB g y bs hg.size (by rw [hn, hl]) _ _ 0
      (hg.inside 0 _ (by rw [hn]; norm_num) (by show X 0 ≤ X 0 + u; linarith) (by
        show X 0 + u < X 1 - 10 * 2⁻¹ ^ 52
        linarith)) (by omega) (by omega)
      (fun h' => by linarith [show X 0 + u < X 0 from h']) (fun h' => by linarith [show X 599 < X 0 + u from h']), if_neg (by
        show ¬ X 0 + u < X 0
        linarith)]
  have hval : ∀ u : ℝ, (pieces g y bs).at g.val 0 (X 0 + u) =
      -(5 / (6 * h ^ 2)) * u ^ 3 + 2 / h * u ^ 2 + -(1 / 6) * u := by
    intro u
    simp only [Cubics.at, pc]
    have p1 : (pieces g y bs).a 0 = -(5 / (6 * h ^ 2)) := by
      simp only [pieces, coefA, if_pos (show 0 + 1 < g.n by omega), zero_add, hv]
      rw [e0, e1, ← hh]
      norm_num
      field_simp
      norm_num
    have p2 : (pieces g y bs).b 0 = 2 / h := by
      simp only [pieces, if_pos (show 0 + 1 < g.n by omega)]
      exact e0
    have p3 : (pieces g y bs).y 0 = 0 := y0
    rw [p1, p2, p3, show X 0 + u - g.val 0 = u by rw [hv]; ring]
    ring
  refine ⟨y, tame, _, hnew, ⟨(pieces g y bs).c 0, ?_, ?_⟩, X 0, X 0 + h / 20, 0, -(11 / 3200 * h), le_rfl, by linarith, by linarith, ?_, ?_, by linarith⟩
  · rcases interpolant_value ci y bs hl 0 with ⟨-, -, hd⟩ | ⟨h', -⟩
    · exact hd
    · exact absurd h' (not_le.mpr X0)
  · rw [pc]; norm_num
  · have := hev 0 le_rfl (by linarith)
    rw [add_zero] at this
    rw [this]
    have := hval 0
    rw [add_zero] at this
    rw [this]
    norm_num
  · rw [hev _ (by linarith) (by linarith), hval]
    congr 1
    field_simp
    norm_num

end Catima
