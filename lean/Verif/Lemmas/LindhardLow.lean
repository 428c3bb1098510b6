import Verif.Lemmas.LindhardX
import Verif.Lemmas.LindhardTables
import Verif.Lemmas.AtomicWeights
import Verif.Lemmas.LogTen

/-!
# Helper lemmas: lower bounds of the Lindhard-Sørensen correction
-/

namespace Catima

/-- The lookup of LS in terms of the table entries. -/
theorem lindhard_affine (ci : Bool) {p : Projectile ℝ} {n : Int} (hp : p.Ion n) (hn : n ≤ 108)
    (h0 : 1 ≤ p.T) (h9 : p.T ≤ (ls_energy_table : EnergyTable ℝ).val 199) (hT : LindhardReadable p.T) :
    ∃ (i : Nat) (θ s : ℝ) (r : Nat) (hr : r < 108), (r : Int) = n - 1 ∧ i < 199 ∧
      -1e-12 ≤ θ ∧ θ ≤ 1 ∧
      s = 20 * ((p.A - element_atomic_weight n) / element_atomic_weight n) ∧
      (ls_energy_table : EnergyTable ℝ).val i - 10 * 2⁻¹ ^ 52 ≤ p.T ∧
      p.T ≤ (ls_energy_table : EnergyTable ℝ).val (i + 1) ∧
      p.T - (ls_energy_table : EnergyTable ℝ).val i = θ * ((ls_energy_table : EnergyTable ℝ).val (i + 1) -
        (ls_energy_table : EnergyTable ℝ).val i) ∧
      ∃ c : Nat → ℝ, (∀ j, c j = ((lsField (ls_coefficients_a[r]'(by rw [ls_lengths.1]; exact hr)) j : ℝ)
          + s * ((lsField (ls_coefficients_ahi[r]'(by rw [ls_lengths.2.1]; exact hr)) j : ℝ) -
            lsField (ls_coefficients_a[r]'(by rw [ls_lengths.1]; exact hr)) j)) / 10 ^ 11) ∧
        precalculated_lindhard ci p = .ok (c i + θ * (c (i + 1) - c i)) := by
  have hb := ls_energy_table_bounds
  obtain ⟨i, θ, hi, ht0, htp, ht1, hb0, hb1, hθ, key⟩ := interpolate_affine ci ls_energy_table hb.1 hb.2.1 hb.2.2
    ls_gap p.T (by rw [ls_first]; exact h0) h9 hT
  obtain ⟨r, hr⟩ := Int.eq_ofNat_of_zero_le (show 0 ≤ n - 1 by linarith [hp.pos])
  have hr' : r < 108 := by omega
  refine ⟨i, θ, _, r, hr', hr.symm, by change i + 1 < 200 at hi; omega, ht0, ht1, rfl, hb0, hb1, hθ, _, fun j => rfl, ?_⟩
  obtain ⟨y1, hy1, hl1, hv1⟩ := lsRowAt_get ls_coefficients_a r (by rw [ls_lengths.1]; exact hr')
  obtain ⟨y2, hy2, hl2, hv2⟩ := lsRowAt_get ls_coefficients_ahi r (by rw [ls_lengths.2.1]; exact hr')
  obtain ⟨a1, b1, ha1, hb1', e1⟩ := key y1 hl1
  obtain ⟨a2, b2, ha2, hb2, e2⟩ := key y2 hl2
  change i + 1 < 200 at hi
  rw [hv1 i (by omega)] at ha1
  rw [hv1 (i + 1) (by omega)] at hb1'
  rw [hv2 i (by omega)] at ha2
  rw [hv2 (i + 1) (by omega)] at hb2
  unfold precalculated_lindhard
  rw [lsZ_ion hp (by omega), bind_ok]
  dsimp only
  rw [if_neg (by rw [lt_real, ls_first]; linarith)]
  unfold lsValue lsValueOf
  rw [hr]
  simp only [hy1, hy2, bind_ok, e1, e2, pure, Except.pure]
  refine congrArg Except.ok ?_
  rw [← Option.some.inj ha1, ← Option.some.inj hb1', ← Option.some.inj ha2, ← Option.some.inj hb2]
  generalize (lsField (ls_coefficients_a[r]'(by rw [ls_lengths.1]; exact hr')) i : ℝ) = A1
  generalize (lsField (ls_coefficients_a[r]'(by rw [ls_lengths.1]; exact hr')) (i + 1) : ℝ) = B1
  generalize (lsField (ls_coefficients_ahi[r]'(by rw [ls_lengths.2.1]; exact hr')) i : ℝ) = A2
  generalize (lsField (ls_coefficients_ahi[r]'(by rw [ls_lengths.2.1]; exact hr')) (i + 1) : ℝ) = B2
  generalize (p.A - element_atomic_weight n) / element_atomic_weight n = d
  have e : (0.05 : ℝ) = 1 / 20 := by norm_num
  rw [e]
  ring

/-- An affine function is bounded below by its values at the ends. -/
theorem affine_ge (a d B s : ℝ) (h1 : B ≤ a - 20 * d) (h2 : B ≤ a + 80 * d) (s0 : -20 ≤ s)
    (s1 : s ≤ 80) : B ≤ a + s * d := by
  rcases le_total 0 d with h | h <;> nlinarith

theorem affine_le (a d B s : ℝ) (h1 : a - 20 * d ≤ B) (h2 : a + 80 * d ≤ B) (s0 : -20 ≤ s)
    (s1 : s ≤ 80) : a + s * d ≤ B := by
  rcases le_total 0 d with h | h <;> nlinarith

theorem ls_step : (ls_energy_table : EnergyTable ℝ).step = 7 / 199 := by
  rw [EnergyTable.step_eq]; norm_num [ls_energy_table]

theorem ls_val_28 : (ls_energy_table : EnergyTable ℝ).val 28 < 10 := by
  rw [EnergyTable.val_eq, ls_step]
  have h := Real.exp_log (show (0 : ℝ) < 10 by norm_num)
  conv_rhs => rw [← h]
  have h2 := (abs_le.mp LN10_near).2
  have h3 : (0 : ℝ) < LN10 := by norm_num [LN10]
  apply Real.exp_lt_exp.mpr
  have h4 : (LN10 : ℝ) = 2.30258509299404568401799145468 := rfl
  norm_num [ls_energy_table] at h2 ⊢
  rw [h4] at h2 ⊢
  norm_num at h2 ⊢
  linarith

theorem ls_val_148 : 150001 < (ls_energy_table : EnergyTable ℝ).val 148 := by
  rw [EnergyTable.val_eq, ls_step]
  have h1 : (150001 : ℝ) < Real.exp 11.95 := by
    have e : Real.exp (11.95 : ℝ) = Real.exp 1 ^ 12 * Real.exp (-0.05) := by
      rw [← Real.exp_nat_mul, ← Real.exp_add]; norm_num
    have h27 := Real.exp_one_gt_d9
    have h5 := Real.add_one_le_exp (-0.05 : ℝ)
    rw [e]
    calc (150001 : ℝ) < 2.718 ^ 12 * 0.95 := by norm_num
      _ ≤ Real.exp 1 ^ 12 * Real.exp (-0.05) := by
        gcongr
        · norm_num at h27 ⊢; linarith
        · norm_num at h5 ⊢; linarith
  refine h1.trans_le (Real.exp_le_exp.mpr ?_)
  norm_num [ls_energy_table, LN10]

/-- Lower bounds of LS for masses up to five atomic weights. -/
theorem lindhard_ge (ci : Bool) {p : Projectile ℝ} {n : Int} (hp : p.Ion n) (hn : n ≤ 108)
    (hA : p.A ≤ 5 * element_atomic_weight n) (h0 : 10 ≤ p.T) (hT : LindhardReadable p.T) :
    ∃ v, precalculated_lindhard ci p = .ok v ∧ -6.51 ≤ v ∧ (p.T ≤ 150000 → -2.23 ≤ v) := by
  have hwp := atomic_weight_pos n hp.pos (by omega)
  have hb := ls_energy_table_bounds
  rcases lt_or_ge ((ls_energy_table : EnergyTable ℝ).val 199) p.T with h9 | h9
  · refine ⟨0, ?_, by norm_num, fun _ => by norm_num⟩
    unfold precalculated_lindhard lsValue lsValueOf
    rw [lsZ_ion hp (by omega), bind_ok]
    dsimp only
    rw [if_neg (by rw [lt_real, ls_first]; linarith)]
    obtain ⟨y1, hy1, -⟩ := lsRowAt_ok ls_coefficients_a (n - 1) (by linarith [hp.pos])
      (by rw [ls_lengths.1]; norm_num; omega)
    obtain ⟨y2, hy2, -⟩ := lsRowAt_ok ls_coefficients_ahi (n - 1) (by linarith [hp.pos])
      (by rw [ls_lengths.2.1]; norm_num; omega)
    have ho : ∀ y, (ls_energy_table : EnergyTable ℝ).interpolate ci p.T y = .ok 0 :=
      fun y => interpolate_outside ci _ y _ (Or.inr h9)
    simp only [hy1, hy2, bind_ok, ho]
    norm_num [pure, Except.pure]
  obtain ⟨i, θ, s, r, hr, hrn, hi, ht0, ht1, hs, hb0, hb1, -, c, hc, hX⟩ :=
    lindhard_affine ci hp hn (by linarith) h9 hT
  have hs0 : -20 ≤ s ∧ s ≤ 80 := by
    rw [hs]
    have h2 : -1 ≤ (p.A - element_atomic_weight n) / element_atomic_weight n := by
      rw [le_div_iff₀ hwp]; linarith [hp.A]
    have h3 : (p.A - element_atomic_weight n) / element_atomic_weight n ≤ 4 := by
      rw [div_le_iff₀ hwp]
      linarith
    constructor <;> linarith
  have hcp : ∀ j < 200, -6.5 ≤ c j ∧ c j ≤ 3 ∧ (28 ≤ j → j ≤ 148 → -2.229 ≤ c j) := by
    intro j hj
    have hg := lsTables_good r hr
    unfold lsRowGood at hg
    rw [List.all_eq_true] at hg
    have hg := of_decide_eq_true (hg j (List.mem_range.mpr hj))
    rw [hc j]
    generalize lsField (ls_coefficients_a[r]'(by rw [ls_lengths.1]; exact hr)) j = a at hg ⊢
    generalize lsField (ls_coefficients_ahi[r]'(by rw [ls_lengths.2.1]; exact hr)) j = h at hg ⊢
    obtain ⟨g1, g2, g3, g4, g5⟩ := hg
    have g1' : (-650000000000 : ℝ) ≤ a - 20 * ((h : ℝ) - a) := by exact_mod_cast g1
    have g2' : (-650000000000 : ℝ) ≤ a + 80 * ((h : ℝ) - a) := by exact_mod_cast g2
    have g3' : a - 20 * ((h : ℝ) - a) ≤ 300000000000 := by exact_mod_cast g3
    have g4' : a + 80 * ((h : ℝ) - a) ≤ 300000000000 := by exact_mod_cast g4
    refine ⟨?_, ?_, fun j0 j1 => ?_⟩
    · rw [le_div_iff₀ (by norm_num)]
      exact le_trans (by norm_num) (affine_ge _ _ _ s g1' g2' hs0.1 hs0.2)
    · rw [div_le_iff₀ (by norm_num)]
      exact le_trans (affine_le _ _ _ s g3' g4' hs0.1 hs0.2) (by norm_num)
    · obtain ⟨g5, g6⟩ := g5 j0 j1
      have g5' : (-222900000000 : ℝ) ≤ a - 20 * ((h : ℝ) - a) := by exact_mod_cast g5
      have g6' : (-222900000000 : ℝ) ≤ a + 80 * ((h : ℝ) - a) := by exact_mod_cast g6
      rw [le_div_iff₀ (by norm_num)]
      exact le_trans (by norm_num) (affine_ge _ _ _ s g5' g6' hs0.1 hs0.2)
  obtain ⟨l1, u1, m1⟩ := hcp i (by omega)
  obtain ⟨l2, u2, m2⟩ := hcp (i + 1) (by omega)
  have mix : ∀ B, -6.5 ≤ B → B ≤ c i → B ≤ c (i + 1) → B - 0.001 ≤ c i + θ * (c (i + 1) - c i) := by
    intro B hB b1 b2
    norm_num at l1 l2 u1 u2 ht0 hB ⊢
    rcases le_total 0 θ with h | h <;> nlinarith
  refine ⟨_, hX, ?_, fun hle => ?_⟩
  · have := mix (-6.5) le_rfl l1 l2
    norm_num at this ⊢
    linarith
  · have hv := (EnergyTable.val_le_iff (ls_energy_table : EnergyTable ℝ) hb.1 hb.2.1)
    have i0 : 28 ≤ i := by
      by_contra hlt
      have := (hv (i + 1) 28).mpr (by omega)
      linarith [ls_val_28]
    have i1 : i < 148 := by
      by_contra hlt
      have := (hv 148 i).mpr (by omega)
      have := ls_val_148
      norm_num at hb0
      linarith
    have := mix (-2.229) (by norm_num) (m1 i0 (by omega)) (m2 (by omega) (by omega))
    norm_num at this ⊢
    linarith

end Catima
