import Verif.Lemmas.Bethe

/-!
# Helper lemmas: the sign of the tabulated Lindhard X
-/

namespace Catima

/-- Interpolation is, uniformly in the data, an affine combination of two neighbouring entries; the
weight leaves `[0, 1]` by at most `1e-12`. -/
theorem interpolate_affine (ci : Bool) (t : EnergyTable ℝ) (h : t.logmin < t.logmax)
    (hN : 2 ≤ t.N) (hN' : t.N ≤ 2147483647) (hgap : ∀ i, 3e-3 ≤ t.val (i + 1) - t.val i) (v : ℝ)
    (h0 : t.val 0 ≤ v) (h9 : v ≤ t.val (t.N - 1))
    (hv : v < t.val (t.N - 1) - 10 * 2⁻¹ ^ 52 ∨ t.val (t.N - 1) ≤ v) :
    ∃ (i : Nat) (θ : ℝ), i + 1 < t.N ∧ -1e-12 ≤ θ ∧ (t.val i ≤ v → 0 ≤ θ) ∧ θ ≤ 1 ∧ t.val i - 10 * 2⁻¹ ^ 52 ≤ v ∧
      v ≤ t.val (i + 1) ∧ v - t.val i = θ * (t.val (i + 1) - t.val i) ∧ ∀ y : List ℝ, (hy : y.length = t.N) →
        ∃ a b, y[i]? = some a ∧ y[i + 1]? = some b ∧ t.interpolate ci v y = .ok (a + θ * (b - a)) := by
  rw [← eps_eq] at hv
  simp only [← eps_eq]
  have he := eps_pos
  have he' : (numeric_epsilon : ℝ) ≤ 3e-15 := by rw [eps_eq]; norm_num
  rcases eq_or_lt_of_le h9 with hlast | hlt
  · refine ⟨t.N - 2, 1, by omega, by norm_num, fun _ => by norm_num, le_rfl, ?_, ?_, ?_, ?_⟩
    · have := (t.val_le_iff h hN (t.N - 2) (t.N - 1)).mpr (by omega)
      linarith
    · rw [show t.N - 2 + 1 = t.N - 1 by omega]; exact h9
    · rw [show t.N - 2 + 1 = t.N - 1 by omega, hlast, one_mul]
    · intro y hy
      refine ⟨y[t.N - 2]'(by omega), y[t.N - 1]'(by omega), List.getElem?_eq_getElem (by omega),
        ?_, ?_⟩
      · rw [← List.getElem?_eq_getElem (by omega)]; congr 1; omega
      · unfold EnergyTable.interpolate
        rw [if_neg, if_pos (by rw [beq_real]; exact hlast)]
        · have : ((t.N : Int) - 1) = ((t.N - 1 : Nat) : Int) := by omega
          rw [this, rd_nat y _ (by omega)]
          congr 1; ring
        · simp only [Bool.or_eq_true, lt_real, not_or, not_lt]
          exact ⟨h0, h9⟩
  · have hw : v < t.val (t.N - 1) - numeric_epsilon := by
      rcases hv with hv | hv
      · exact hv
      · linarith
    obtain ⟨k, hk, hk0, hk1, -⟩ := t.exists_bracket h hN v h0 hlt
    have hidx := t.index_inside ci h hN hN' v k hk hk0 hk1 hw
    obtain ⟨i, hi, hidx, hb0, hb1⟩ : ∃ i : Nat, i + 1 < t.N ∧ t.index ci v = .ok (i : Int) ∧
        t.val i - numeric_epsilon ≤ v ∧ v ≤ t.val (i + 1) := by
      rw [hidx]
      split
      · rename_i hc
        refine ⟨k + 1, ?_, by push_cast; rfl, hc.2, ?_⟩
        · by_contra hge
          have : k + 1 = t.N - 1 := by omega
          rw [this] at hc
          linarith [hc.2]
        · have := (t.val_le_iff h hN (k + 1) (k + 1 + 1)).mpr (by omega)
          linarith
      · exact ⟨k, hk, rfl, by linarith, hk1.le⟩
    have hg := hgap i
    norm_num at hg he'
    refine ⟨i, (v - t.val i) / (t.val (i + 1) - t.val i), hi, ?_, fun hh => ?_, ?_, hb0, hb1, ?_, ?_⟩
    · rw [le_div_iff₀ (by linarith)]
      norm_num
      nlinarith
    · exact div_nonneg (by linarith) (by linarith)
    · rw [div_le_one (by linarith)]; linarith
    · rw [div_mul_cancel₀ _ (by linarith)]
    · intro y hy
      refine ⟨y[i], y[i + 1], List.getElem?_eq_getElem (by omega), List.getElem?_eq_getElem (by omega), ?_⟩
      have e2 : ((i : Int) + 1) = ((i + 1 : Nat) : Int) := by push_cast; rfl
      unfold EnergyTable.interpolate
      rw [if_neg (by
          simp only [Bool.or_eq_true, lt_real, not_or, not_lt]
          exact ⟨h0, h9⟩), if_neg (by rw [beq_real]; exact hlt.ne)]
      simp only [hidx, bind_ok, EnergyTable.get]
      rw [if_pos (by omega), if_pos (by omega)]
      simp only [bind_ok]
      have hgz : ¬ ((t.val ((i : Int) + 1).toNat - t.val ((i : Int)).toNat =? (0.0 : ℝ)) = true) := by
        rw [beq_real]
        have : ((i : Int) + 1).toNat = i + 1 := by omega
        rw [this, Int.toNat_natCast]
        norm_num
        linarith
      rw [if_neg hgz, e2, rd_nat y i (by omega), rd_nat y (i + 1) (by omega)]
      simp only [bind_ok, Int.toNat_natCast, pure, Except.pure]
      have key : ∀ x a b : ℝ, (1.0 - x) * a + (1.0 - (1.0 - x)) * b = a + x * (b - a) := by
        intro x a b
        rw [show (1.0 : ℝ) = 1 by norm_num]
        ring
      exact congrArg Except.ok (key _ _ _)

theorem lsRowAt_get (tab : List Nat) (r : Nat) (h : r < tab.length) :
    ∃ y : List ℝ, lsRowAt tab (r : Int) = .ok y ∧ y.length = 200 ∧
      ∀ j, j < 200 → y[j]? = some ((lsField tab[r] j : ℝ) / 10 ^ 11) := by
  refine ⟨_, by unfold lsRowAt; rw [rd_nat tab r h]; rfl, lsRow_length _, fun j hj => ?_⟩
  rw [List.getElem?_map, lsRow, List.getElem?_map, List.getElem?_range hj]
  simp only [Option.map_some]
  rw [Dec.toScalar_real]

theorem ls_first : (ls_energy_table : EnergyTable ℝ).val 0 = 1 := by
  rw [EnergyTable.val_eq]; norm_num [ls_energy_table]

theorem ls_gap (i : Nat) : 3e-3 ≤ (ls_energy_table : EnergyTable ℝ).val (i + 1) -
    (ls_energy_table : EnergyTable ℝ).val i := by
  have hb := ls_energy_table_bounds
  have e : (ls_energy_table : EnergyTable ℝ).val (i + 1) =
      Real.exp (LN10 * (ls_energy_table : EnergyTable ℝ).step) * (ls_energy_table : EnergyTable ℝ).val i := by
    rw [EnergyTable.val_eq, EnergyTable.val_eq, ← Real.exp_add]; congr 1; push_cast; ring
  have h1 := Real.add_one_le_exp (LN10 * (ls_energy_table : EnergyTable ℝ).step)
  have h2 : (1 : ℝ) ≤ (ls_energy_table : EnergyTable ℝ).val i := by
    rw [← ls_first]; exact (EnergyTable.val_le_iff _ hb.1 hb.2.1 0 i).mpr (by omega)
  have hs : (ls_energy_table : EnergyTable ℝ).step = 7 / 199 := by
    rw [EnergyTable.step_eq]; norm_num [ls_energy_table]
  rw [hs] at h1 e
  have h3 : (0.07 : ℝ) ≤ LN10 * (7 / 199) := by norm_num [LN10]
  rw [e]
  norm_num at h3 ⊢
  nlinarith

/-- The lookup of X in terms of the table entries. -/
theorem lindhard_X_affine (ci : Bool) {p : Projectile ℝ} {n : Int} (hp : p.Ion n) (hn : n ≤ 108)
    (h0 : 1 ≤ p.T) (h9 : p.T ≤ (ls_energy_table : EnergyTable ℝ).val 199) (hT : LindhardReadable p.T) :
    ∃ (i : Nat) (θ s : ℝ) (r : Nat) (hr : r < 108), (r : Int) = n - 1 ∧ i < 199 ∧
      -1e-12 ≤ θ ∧ ((ls_energy_table : EnergyTable ℝ).val i ≤ p.T → 0 ≤ θ) ∧ θ ≤ 1 ∧
      s = 20 * ((p.A - element_atomic_weight n) / element_atomic_weight n) ∧
      (ls_energy_table : EnergyTable ℝ).val i - 10 * 2⁻¹ ^ 52 ≤ p.T ∧
      p.T ≤ (ls_energy_table : EnergyTable ℝ).val (i + 1) ∧
      ∃ c : Nat → ℝ, (∀ j, c j = ((lsField (ls_X_coefficients_a[r]'(by rw [ls_lengths.2.2.1]; exact hr)) j : ℝ)
          + s * ((lsField (ls_X_coefficients_ahi[r]'(by rw [ls_lengths.2.2.2]; exact hr)) j : ℝ) -
            lsField (ls_X_coefficients_a[r]'(by rw [ls_lengths.2.2.1]; exact hr)) j)) / 10 ^ 11) ∧
        precalculated_lindhard_X ci p = .ok (c i + θ * (c (i + 1) - c i)) := by
  have hb := ls_energy_table_bounds
  obtain ⟨i, θ, hi, ht0, htp, ht1, hb0, hb1, -, key⟩ := interpolate_affine ci ls_energy_table hb.1 hb.2.1 hb.2.2
    ls_gap p.T (by rw [ls_first]; exact h0) h9 hT
  obtain ⟨r, hr⟩ := Int.eq_ofNat_of_zero_le (show 0 ≤ n - 1 by linarith [hp.pos])
  have hr' : r < 108 := by omega
  refine ⟨i, θ, _, r, hr', hr.symm, by change i + 1 < 200 at hi; omega, ht0, htp, ht1, rfl, hb0, hb1, _, fun j => rfl, ?_⟩
  obtain ⟨y1, hy1, hl1, hv1⟩ := lsRowAt_get ls_X_coefficients_a r (by rw [ls_lengths.2.2.1]; exact hr')
  obtain ⟨y2, hy2, hl2, hv2⟩ := lsRowAt_get ls_X_coefficients_ahi r (by rw [ls_lengths.2.2.2]; exact hr')
  obtain ⟨a1, b1, ha1, hb1', e1⟩ := key y1 hl1
  obtain ⟨a2, b2, ha2, hb2, e2⟩ := key y2 hl2
  change i + 1 < 200 at hi
  rw [hv1 i (by omega)] at ha1
  rw [hv1 (i + 1) (by omega)] at hb1'
  rw [hv2 i (by omega)] at ha2
  rw [hv2 (i + 1) (by omega)] at hb2
  unfold precalculated_lindhard_X
  rw [lsZ_ion hp (by omega), bind_ok, if_neg (by rw [lt_real, ls_first]; linarith)]
  unfold lsValue lsValueOf
  rw [hr]
  simp only [hy1, hy2, bind_ok, e1, e2, pure, Except.pure]
  refine congrArg Except.ok ?_
  rw [← Option.some.inj ha1, ← Option.some.inj hb1', ← Option.some.inj ha2, ← Option.some.inj hb2]
  generalize (lsField (ls_X_coefficients_a[r]'(by rw [ls_lengths.2.2.1]; exact hr')) i : ℝ) = A1
  generalize (lsField (ls_X_coefficients_a[r]'(by rw [ls_lengths.2.2.1]; exact hr')) (i + 1) : ℝ) = B1
  generalize (lsField (ls_X_coefficients_ahi[r]'(by rw [ls_lengths.2.2.2]; exact hr')) i : ℝ) = A2
  generalize (lsField (ls_X_coefficients_ahi[r]'(by rw [ls_lengths.2.2.2]; exact hr')) (i + 1) : ℝ) = B2
  generalize (p.A - element_atomic_weight n) / element_atomic_weight n = d
  have e : (0.05 : ℝ) = 1 / 20 := by norm_num
  rw [e]
  ring

end Catima
