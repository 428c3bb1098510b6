import Verif.Props.SplineIncreasing

/-!
# Helper lemmas: by how little the interpolant can decrease where the calculated index changes pieces
-/

namespace Catima

open Spline

/-- Between energies less than 2e-13 MeV/u apart, the interpolant of tame data that are not negative decreases by at most
3e-10 of its value, whatever the way the index is found. -/
theorem interpolant_nearly (jk : Junk ℝ) (hjk : SmallJunk jk) (ci : Bool) (y : List ℝ) (hy : Tame y) (hy0 : ∀ i < 600, 0 ≤ y.getD i 0) :
    ∃ s, Spline.new jk (energy_table.grid ci) y = .ok s ∧
      ∀ a b u v, s.evaluate a = .ok u → s.evaluate b = .ok v → a < b → b < a + 2e-13 → u < v ∨ 0 ≤ v ∧ u ≤ v + 3e-10 * v := by
  obtain ⟨bs, hnew, hsl⟩ := slopes_near jk hjk ci y hy.length hy.pos hy.near
  refine ⟨_, hnew, ?_⟩
  have hl := hy.length
  set g : Grid ℝ := energy_table.grid ci with hgdef
  have hg : g.Ordered (10 * 2⁻¹ ^ 52) := library_table_ordered ci
  have hv : g.val = (energy_table : EnergyTable ℝ).val := rfl
  have hn : g.n = 600 := rfl
  rw [hv] at hsl
  set P := pieces g y bs with hP
  set X := (energy_table : EnergyTable ℝ).val with hX
  have hmono : ∀ i j, i < j → j < 600 → X i < X j := fun i j h1 h2 => mono hg i j h1 h2
  have hw : (0 : ℝ) < 10 * 2⁻¹ ^ 52 := by norm_num
  have hw' : (10 * 2⁻¹ ^ 52 : ℝ) ≤ 2.3e-15 := by norm_num
  have hlast : ∀ x, P.slope X 599 x = P.slope X 598 (X 599) := by
    intro x
    have h1 := slope_last hg y bs
    rw [hn, hv] at h1
    rw [hP, ← h1]
    simp only [Cubics.slope, pieces, hn]
    norm_num
  have low : ∀ k < 600, ∀ x, X k - 10 * 2⁻¹ ^ 52 ≤ x → (k + 1 < 600 → x ≤ X (k + 1)) →
      0.06 * meanSlope y (min k 598) ≤ P.slope X k x ∧ P.slope X k x ≤ 1.94 * meanSlope y (min k 598) := by
    intro k hk x hx0 hx1
    rcases Nat.lt_or_ge k 599 with h | h
    · rw [min_eq_left (by omega)]
      exact hsl k h x hx0 (hx1 (by omega))
    · have e : k = 599 := by omega
      subst e
      rw [hlast, min_eq_right (by omega)]
      exact hsl 598 (by norm_num) (X 599) (by have := hmono 598 599 (by norm_num) (by norm_num); linarith) le_rfl
  have mpos : ∀ k < 600, 0 < meanSlope y (min k 598) := fun k hk => hy.pos _ (by omega)
  have c0pos : 0 < P.c 0 := by
    have c0 : P.c 0 = P.slope X 0 (X 0) := by simp only [Cubics.slope, sub_self]; norm_num
    have := (low 0 (by norm_num) (X 0) (by linarith) fun _ => (hmono 0 1 (by norm_num) (by norm_num)).le).1
    have := mpos 0 (by norm_num)
    rw [c0]; norm_num at *; linarith
  have inc : ∀ k < 600, ∀ a b, a < b → X k - 10 * 2⁻¹ ^ 52 ≤ a → (k + 1 < 600 → b ≤ X (k + 1)) → P.at X k a < P.at X k b := by
    intro k hk a b hab h0 h1
    obtain ⟨z, hz0, hz1, e⟩ := piece_mvt P X k a b hab
    have h2 := (low k hk z (by linarith) fun h => by linarith [h1 h]).1
    have h3 : 0 < P.slope X k z := lt_of_lt_of_le (by have := mpos k hk; positivity) h2
    have := mul_pos h3 (sub_pos.mpr hab)
    linarith
  have knot : ∀ k, P.at X k (X k) = y.getD k 0 := fun k => pieces_at_knot (g := g) y bs k
  have join : ∀ k, k + 1 < 600 → P.at X k (X (k + 1)) = y.getD (k + 1) 0 := fun k hk => pieces_join hg y bs k hk
  have gapj : ∀ j, j + 1 < 600 → 3e-5 ≤ X (j + 1) - X j := by
    intro j hj
    have v0 : (9e-4 : ℝ) ≤ X j := by
      have h0 := (abs_le.mp energy_table_range.2.1).1
      have hb := energy_table_bounds
      have := (EnergyTable.val_le_iff (energy_table : EnergyTable ℝ) hb.1 hb.2.1 0 j).mpr (by omega)
      refine le_trans ?_ this
      norm_num at h0 ⊢; linarith
    have := grid_geometric j
    have hq := gridRatio_bounds.1
    rw [← hX] at this
    rw [this]
    norm_num at v0 hq ⊢
    nlinarith
  have mnext : ∀ j, j + 1 < 600 → meanSlope y (min (j + 1) 598) ≤ 1.37 * meanSlope y j := by
    intro j hj
    rcases Nat.lt_or_ge j 598 with h | h
    · rw [min_eq_left (by omega)]; exact (hy.near j h).2
    · have e : j = 598 := by omega
      subst e
      have := hy.pos 598 (by norm_num)
      rw [min_eq_right (by norm_num)]; norm_num; linarith
  intro a b u v hu hv' hab hba
  -- around a point of the table
  have near : ∀ j, j + 1 < 600 → u ≤ y.getD (j + 1) 0 → X (j + 1) - 10 * 2⁻¹ ^ 52 ≤ b → (j + 2 < 600 → b < X (j + 2)) →
      v = P.at X (j + 1) b → u < v ∨ 0 ≤ v ∧ u ≤ v + 3e-10 * v := by
    intro j hj huj b1 b2 e
    rcases le_or_gt (X (j + 1)) b with h | h
    · have : y.getD (j + 1) 0 ≤ v := by
        rcases h.lt_or_eq with h | h
        · have := inc (j + 1) hj _ _ h (by linarith) fun h' => (b2 h').le
          rw [knot] at this
          linarith
        · rw [e, ← h, knot]
      have v0 : 0 ≤ v := (hy0 (j + 1) hj).trans this
      have : 0 ≤ 3e-10 * v := by positivity
      exact .inr ⟨v0, by linarith⟩
    · obtain ⟨z, hz0, hz1, e'⟩ := piece_mvt P X (j + 1) b (X (j + 1)) h
      have h2 := (low (j + 1) hj z (by linarith) fun h' => by linarith [hmono (j + 1) (j + 2) (by omega) h']).2
      have h3 := mnext j hj
      have hm := hy.pos j (by omega)
      have hgap := gapj j hj
      have e2 : meanSlope y j * (X (j + 1) - X j) = y.getD (j + 1) 0 - y.getD j 0 := by
        unfold meanSlope
        rw [← hX]
        have : X (j + 1) - X j ≠ 0 := by norm_num at hgap; intro h; linarith
        field_simp
      have y0 := hy0 j (by omega)
      have y1 := hy0 (j + 1) hj
      have h4 : meanSlope y j * 3e-5 ≤ y.getD (j + 1) 0 := by
        have := mul_le_mul_of_nonneg_left hgap hm.le
        linarith
      have h5 : P.slope X (j + 1) z ≤ 2.66 * meanSlope y j := by norm_num at h2 h3 ⊢; linarith
      have h6 : P.slope X (j + 1) z * (X (j + 1) - b) ≤ 2.66 * meanSlope y j * 2.3e-15 :=
        (mul_le_mul_of_nonneg_right h5 (by linarith)).trans (mul_le_mul_of_nonneg_left (by linarith) (by positivity))
      rw [knot] at e'
      generalize y.getD (j + 1) 0 = Y at *
      norm_num at h4 h6
      refine .inr ⟨by linarith, ?_⟩
      norm_num
      linarith
  rcases interpolant_value ci y bs hl a with ⟨ha, ea, -⟩ | ⟨ha, k, hk, a1, a2, a3, a4, a5, ea, -⟩
  · rcases interpolant_value ci y bs hl b with ⟨hb, eb, -⟩ | ⟨hb, k, hk, b1, b2, b3, b4, b5, eb, -⟩
    · refine .inl ?_
      rw [ea] at hu
      cases hu
      rw [eb] at hv'
      cases hv'
      have := mul_lt_mul_of_pos_left (show a - X 0 < b - X 0 by linarith) c0pos
      linarith
    · rw [ea] at hu
      cases hu
      have h1 : P.c 0 * (a - X 0) < 0 := mul_neg_of_pos_of_neg c0pos (by linarith)
      have e : k = 0 := by
        by_contra hne
        have h2 : X 1 ≤ X k := mono_le hg 1 k (by omega) hk
        have h3 := gapj 0 (by norm_num)
        rw [← hX] at ha b1
        norm_num at h3 hba b1
        linarith
      subst e
      refine .inl ?_
      rw [eb] at hv'
      cases hv'
      have h2 : y.getD 0 0 ≤ P.at X 0 b := by
        rcases hb.lt_or_eq with h | h
        · rw [← knot 0]
          exact (inc 0 hk _ _ h (by linarith) fun h' => (b2 h').le).le
        · rw [← h, knot]
      linarith
  · rcases interpolant_value ci y bs hl b with ⟨hb, eb, -⟩ | ⟨hb, k', hk', b1, b2, b3, b4, b5, eb, -⟩
    · linarith
    · rw [ea] at hu
      cases hu
      rw [eb] at hv'
      cases hv'
      rcases lt_trichotomy k k' with h | h | h
      · have e : k' = k + 1 := by
          by_contra hne
          have h1 : X (k + 2) ≤ X k' := mono_le hg (k + 2) k' (by omega) hk'
          have h2 : a < X (k + 1) := a2 (by omega)
          have h3 : 3e-5 ≤ X (k + 2) - X (k + 1) := gapj (k + 1) (by omega)
          rw [← hX] at b1
          norm_num at h3 hba b1
          linarith
        subst e
        refine near k hk' ?_ b1 b2 rfl
        rw [← join k hk']
        exact (inc k hk _ _ (a2 hk') a1 fun _ => le_rfl).le
      · subst h
        exact .inl (inc k hk a b hab a1 fun h => (b2 h).le)
      · exfalso
        have h1 := b2 (by omega)
        have h2 : X (k' + 1) ≤ X k := mono_le hg (k' + 1) k (by omega) hk
        have e : k = k' + 1 := by
          by_contra hne
          have h3 := gapj (k' + 1) (by omega)
          have h4 : X (k' + 1 + 1) ≤ X k := mono_le hg (k' + 1 + 1) k (by omega) hk
          norm_num at h3
          linarith
        subst e
        rcases Nat.lt_or_ge (k' + 1) 599 with hlt | hge
        · rcases b3 hlt with h3 | h3
          · linarith
          · rcases a5 with h5 | h5 | h5
            · linarith
            · rw [h3] at h5; cases h5
            · omega
        · have := b4 (by omega)
          linarith

end Catima
