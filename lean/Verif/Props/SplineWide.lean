import Verif.Props.SplineIncreasing
import Verif.Lemmas.IncreasingWide

/-!
# C107 for data whose mean slopes may change by a factor of 2.6
-/

namespace Catima

open Spline

/-- The slopes of the pieces lie between 3 % and 300 % of the mean slopes. -/
theorem slopes_wide (jk : Junk ℝ) (hjk : SmallJunk jk) (ci : Bool) (y : List ℝ) (hl : y.length = 600) (hs : ∀ i < 599, 0 < meanSlope y i)
    (hk : ∀ i < 598, meanSlope y i ≤ 2.6 * meanSlope y (i + 1) ∧ meanSlope y (i + 1) ≤ 2.6 * meanSlope y i) :
    ∃ bs, Spline.new jk (energy_table.grid ci) y = .ok (ofB (energy_table.grid ci) y bs) ∧
      (∀ k < 599, ∀ x, (energy_table : EnergyTable ℝ).val k - 10 * 2⁻¹ ^ 52 ≤ x → x ≤ (energy_table : EnergyTable ℝ).val (k + 1) →
        0.03 * meanSlope y k ≤ (pieces (energy_table.grid ci) y bs).slope (energy_table.grid ci).val k x ∧
        (pieces (energy_table.grid ci) y bs).slope (energy_table.grid ci).val k x ≤ 3 * meanSlope y k) := by
  set g : Grid ℝ := energy_table.grid ci with hgdef
  have hg := library_table_ordered ci
  rw [← hgdef] at hg
  have hn : g.n = 600 := rfl
  have hv : g.val = (energy_table : EnergyTable ℝ).val := rfl
  obtain ⟨bs, e1, e2⟩ := solve_data hg jk y (by rw [hn, hl])
  refine ⟨bs, e2, ?_⟩
  obtain ⟨xs, e1', sw, hb0, hbN⟩ := small_ends hg jk hjk fun i => y.getD i 0
  rw [e1] at e1'
  cases e1'
  have hq := gridRatio_bounds
  have hval0 : ∀ i, 0 < (energy_table : EnergyTable ℝ).val i := EnergyTable.val_pos _
  have hstep : ∀ i, (energy_table : EnergyTable ℝ).val (i + 1) - (energy_table : EnergyTable ℝ).val i =
      (gridRatio - 1) * (energy_table : EnergyTable ℝ).val i := fun i => by rw [grid_geometric]; ring
  have hpos : ∀ i, 0 < (energy_table : EnergyTable ℝ).val (i + 1) - (energy_table : EnergyTable ℝ).val i := fun i => by
    rw [hstep]; exact mul_pos (by linarith [hq.1]) (hval0 i)
  rw [hn] at hbN
  have hrow : ∀ i, i + 2 < 600 → ((energy_table : EnergyTable ℝ).val (i + 1 + 1) - (energy_table : EnergyTable ℝ).val (i + 1)) * bs.getD i 0
      + 2 * (((energy_table : EnergyTable ℝ).val (i + 1) - (energy_table : EnergyTable ℝ).val i)
        + ((energy_table : EnergyTable ℝ).val (i + 1 + 1) - (energy_table : EnergyTable ℝ).val (i + 1))) * bs.getD (i + 1) 0
      + ((energy_table : EnergyTable ℝ).val (i + 1) - (energy_table : EnergyTable ℝ).val i) * bs.getD (i + 2) 0
      = 3 * (meanSlope y (i + 1) - meanSlope y i) := by
    intro i hi
    have := sw (i + 1) (by rw [hn]; omega)
    simp only [hn, matrix, rhs, hv] at this
    have n0 : ¬ i + 1 = 0 := by omega
    have n1 : ¬ i + 1 = 600 - 1 := by omega
    have n2 : i + 1 + 1 < 600 := by omega
    simp only [if_neg n0, if_neg n1, if_pos n2] at this
    simp only [Nat.add_sub_cancel] at this
    unfold meanSlope
    rw [← this]
    norm_num
    ring
  have cb := wide_end_slopes 600 (by norm_num) gridRatio (by linarith [hq.1]) (by linarith [hq.2])
    (fun i => (energy_table : EnergyTable ℝ).val (i + 1) - (energy_table : EnergyTable ℝ).val i) (meanSlope y)
    (fun i => bs.getD i 0) hpos (fun i => by simp only [grid_geometric]; ring) (fun i hi => hs i (by omega))
    (fun i hi => hk i (by omega)) hrow hb0 hbN
  intro k hk' x hx0 hx1
  have hh := hpos k
  have hsk := hs k hk'
  obtain ⟨⟨c1, c2⟩, c3, c4⟩ := cb k (by omega)
  set h := (energy_table : EnergyTable ℝ).val (k + 1) - (energy_table : EnergyTable ℝ).val k with hhd
  have hform : (pieces g y bs).slope g.val k x = meanSlope y k + h * (bs.getD k 0 * (-2 / 3 + 2 * ((x - (energy_table : EnergyTable ℝ).val k) / h)
      - ((x - (energy_table : EnergyTable ℝ).val k) / h) ^ 2) + bs.getD (k + 1) 0 * (-1 / 3 + ((x - (energy_table : EnergyTable ℝ).val k) / h) ^ 2)) := by
    simp only [Cubics.slope, pieces, hn, hv]
    rw [if_pos (by omega), if_pos (by omega), if_pos (by omega), coefA_real, coefC_real]
    unfold meanSlope
    rw [← hhd]
    field_simp
    ring
  have hlow : (10 * 2⁻¹ ^ 52 : ℝ) ≤ 0.001 * h := by
    rw [hhd, hstep]
    have v0 : (9e-4 : ℝ) ≤ (energy_table : EnergyTable ℝ).val k := by
      have h0 := (abs_le.mp energy_table_range.2.1).1
      have hb := energy_table_bounds
      have := (EnergyTable.val_le_iff (energy_table : EnergyTable ℝ) hb.1 hb.2.1 0 k).mpr (by omega)
      refine le_trans ?_ this
      norm_num at h0 ⊢; linarith
    calc (10 * 2⁻¹ ^ 52 : ℝ) ≤ 0.001 * (0.039 * 9e-4) := by norm_num
      _ ≤ _ := by
        refine mul_le_mul_of_nonneg_left (mul_le_mul (by linarith [hq.1]) v0 (by norm_num) (by linarith [hq.1])) (by norm_num)
  set t := (x - (energy_table : EnergyTable ℝ).val k) / h with ht
  have hfin := wide_piece_slope (meanSlope y k) _ _ t hsk c1 c2 c3 c4 (by rw [ht, le_div_iff₀ hh]; linarith) (by rw [ht, div_le_one hh]; linarith)
  have e : meanSlope y k + h * (bs.getD k 0 * (-2 / 3 + 2 * t - t ^ 2) + bs.getD (k + 1) 0 * (-1 / 3 + t ^ 2)) =
      (meanSlope y k - h * (2 * bs.getD k 0 + bs.getD (k + 1) 0) / 3) * ((1 - t) * (1 - 3 * t)) +
        (meanSlope y k + h * (bs.getD k 0 + 2 * bs.getD (k + 1) 0) / 3) * (t * (3 * t - 2)) + 6 * meanSlope y k * (t * (1 - t)) := by
    ring
  rw [hform, e]
  exact hfin

/-- Data on the energy table whose mean slopes are positive and change by a factor of at most 2.6 from one interval to the
next. -/
structure Gentle (y : List ℝ) : Prop where
  length : y.length = 600
  pos : ∀ i < 599, 0 < meanSlope y i
  near : ∀ i < 598, meanSlope y i ≤ 2.6 * meanSlope y (i + 1) ∧ meanSlope y (i + 1) ≤ 2.6 * meanSlope y i

/-- C107: with at most 0.02 in the uninitialised cells, the interpolant of gentle data has a positive slope everywhere and increases:
strictly for the searched index (up to 9.9e6 MeV/u), and over distances of at least 2e-12 MeV/u for the calculated index. -/
theorem interpolant_increasing_wide (jk : Junk ℝ) (hjk : SmallJunk jk) (ci : Bool) (y : List ℝ) (hy : Gentle y) :
    ∃ s, Spline.new jk (energy_table.grid ci) y = .ok s ∧
      (∀ x, ∃ d, s.deriv x = .ok d ∧ 0 < d) ∧
      ∀ a b u v, s.evaluate a = .ok u → s.evaluate b = .ok v → (a + 2e-12 ≤ b ∨ ci = false ∧ a < b ∧ b ≤ 9.9e6) → u < v := by
  obtain ⟨bs, hnew, hsl⟩ := slopes_wide jk hjk ci y hy.length hy.pos hy.near
  exact increasing_core jk ci y bs 0.03 3 2.6 2e-12 (by norm_num) (by norm_num) (by norm_num) (by norm_num) (by norm_num)
    (by norm_num) hy.length hy.pos hy.near hnew hsl

/-- The 25th powers of the energies are such data (they are not tame). -/
example : Gentle ((List.range 600).map fun i => (energy_table : EnergyTable ℝ).val i ^ 25) ∧
    ¬ Tame ((List.range 600).map fun i => (energy_table : EnergyTable ℝ).val i ^ 25) := by
  have hq := gridRatio_bounds
  have h0 := EnergyTable.val_pos (energy_table : EnergyTable ℝ)
  have hm : ∀ i < 598, meanSlope ((List.range 600).map fun i => (energy_table : EnergyTable ℝ).val i ^ 25) (i + 1) =
      gridRatio ^ 24 * meanSlope ((List.range 600).map fun i => (energy_table : EnergyTable ℝ).val i ^ 25) i := by
    intro i hi
    unfold meanSlope
    simp only [List.getD_eq_getElem?_getD, List.getElem?_map, List.getElem?_range (show i < 600 by omega),
      List.getElem?_range (show i + 1 < 600 by omega), List.getElem?_range (show i + 1 + 1 < 600 by omega), Option.map_some,
      Option.getD_some]
    rw [grid_geometric (i + 1), grid_geometric i]
    have h1 : gridRatio - 1 ≠ 0 := by linarith [hq.1]
    have h2 := (h0 i).ne'
    have h3 : gridRatio ≠ 0 := by linarith [hq.1]
    have e1 : gridRatio * (gridRatio * (energy_table : EnergyTable ℝ).val i) - gridRatio * (energy_table : EnergyTable ℝ).val i =
      gridRatio * ((gridRatio - 1) * (energy_table : EnergyTable ℝ).val i) := by ring
    have e2 : gridRatio * (energy_table : EnergyTable ℝ).val i - (energy_table : EnergyTable ℝ).val i =
      (gridRatio - 1) * (energy_table : EnergyTable ℝ).val i := by ring
    rw [e1, e2]
    field_simp
  have hp : ∀ i < 599, 0 < meanSlope ((List.range 600).map fun i => (energy_table : EnergyTable ℝ).val i ^ 25) i := by
    intro i hi
    unfold meanSlope
    simp only [List.getD_eq_getElem?_getD, List.getElem?_map, List.getElem?_range (show i < 600 by omega),
      List.getElem?_range (show i + 1 < 600 by omega), Option.map_some, Option.getD_some]
    have h1 : (energy_table : EnergyTable ℝ).val i < (energy_table : EnergyTable ℝ).val (i + 1) := by
      rw [grid_geometric]; nlinarith [h0 i, hq.1]
    exact div_pos (sub_pos.mpr (pow_lt_pow_left₀ h1 (h0 i).le (by norm_num))) (sub_pos.mpr h1)
  have g1 : gridRatio ^ 24 ≤ 2.6 := (pow_le_pow_left₀ (by linarith [hq.1]) hq.2 24).trans (by norm_num)
  have g2 : 2 ≤ gridRatio ^ 24 := le_trans (by norm_num) (pow_le_pow_left₀ (by norm_num) hq.1 24)
  constructor
  · refine ⟨by simp, hp, fun i hi => ?_⟩
    rw [hm i hi]
    have := hp i (by omega)
    constructor <;> nlinarith
  · intro h
    have := (h.near 0 (by norm_num)).2
    rw [hm 0 (by norm_num)] at this
    have := hp 0 (by norm_num)
    nlinarith

end Catima
