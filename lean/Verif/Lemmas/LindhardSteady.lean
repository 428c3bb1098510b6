import Verif.Lemmas.LindhardLow
import Verif.Lemmas.LindhardSteadyTables
import Verif.Lemmas.LindhardInterp

/-!
# Helper lemmas: small steps of the Lindhard-Sørensen correction
-/

namespace Catima

/-- Ratio of neighbouring energies of the LS tables. -/
noncomputable def lsRatio : ℝ := Real.exp (LN10 * (7 / 199))

theorem ls_geometric (i : Nat) : (ls_energy_table : EnergyTable ℝ).val (i + 1) = lsRatio * (ls_energy_table : EnergyTable ℝ).val i := by
  rw [EnergyTable.val_eq, EnergyTable.val_eq, lsRatio, ← Real.exp_add, ls_step]
  congr 1
  push_cast
  ring

theorem lsRatio_bounds : 1.0843 ≤ lsRatio ∧ lsRatio ≤ 1.0845 := by
  have h0 : (LN10 : ℝ) * (7 / 199) = 16.11809565095831978812594018276 / 199 := by norm_num [LN10]
  have h := Real.exp_bound' (x := 16.11809565095831978812594018276 / 199) (by norm_num) (by norm_num) (n := 4) (by norm_num)
  have h' := Real.sum_le_exp_of_nonneg (x := 16.11809565095831978812594018276 / 199) (by norm_num) 4
  simp only [Finset.sum_range_succ, Finset.sum_range_zero, Nat.factorial] at h h'
  unfold lsRatio
  rw [h0]
  norm_num at h h' ⊢
  constructor <;> linarith

theorem ls_val_148' : 155900 < (ls_energy_table : EnergyTable ℝ).val 148 := by
  rw [EnergyTable.val_eq, ls_step]
  have h1 : (155900 : ℝ) < Real.exp 11.96 := by
    have e : Real.exp (11.96 : ℝ) = Real.exp 1 ^ 12 * Real.exp (-0.04) := by
      rw [← Real.exp_nat_mul, ← Real.exp_add]; norm_num
    have h27 := Real.exp_one_gt_d9
    have h5 := Real.add_one_le_exp (-0.04 : ℝ)
    rw [e]
    calc (155900 : ℝ) < 2.718281 ^ 12 * 0.96 := by norm_num
      _ ≤ Real.exp 1 ^ 12 * Real.exp (-0.04) := by
        gcongr
        · norm_num at h27 ⊢; linarith
        · norm_num at h5 ⊢; linarith
  refine h1.trans_le (Real.exp_le_exp.mpr ?_)
  norm_num [ls_energy_table, LN10]

theorem ls_val_log (i : Nat) (a : ℝ) (ha : 0 < a) :
    ((ls_energy_table : EnergyTable ℝ).val i < a ↔ (LN10 : ℝ) * (7 * i / 199) < Real.log a) ∧
    (a < (ls_energy_table : EnergyTable ℝ).val i ↔ Real.log a < (LN10 : ℝ) * (7 * i / 199)) := by
  have e : (ls_energy_table : EnergyTable ℝ).val i = Real.exp (LN10 * (7 * i / 199)) := by
    rw [EnergyTable.val_eq, ls_step]
    congr 1
    norm_num [ls_energy_table]
    left
    ring
  rw [e]
  exact ⟨(Real.lt_log_iff_exp_lt ha).symm, (Real.log_lt_iff_lt_exp ha).symm⟩

theorem ls_val_mid : (ls_energy_table : EnergyTable ℝ).val 34 < 16 ∧ 16.64 < (ls_energy_table : EnergyTable ℝ).val 35 ∧
    32.5 < (ls_energy_table : EnergyTable ℝ).val 43 := by
  have h34 : (ls_energy_table : EnergyTable ℝ).val 34 < 16 := by
    rw [(ls_val_log 34 16 (by norm_num)).1]
    have e : Real.log 16 = 4 * Real.log 2 := by
      rw [show (16 : ℝ) = 2 ^ 4 by norm_num, Real.log_pow]; norm_num
    have := Real.log_two_gt_d9
    rw [e]
    norm_num [LN10] at this ⊢
    linarith
  refine ⟨h34, ?_, ?_⟩
  · rw [(ls_val_log 35 16.64 (by norm_num)).2]
    have e : Real.log 16.64 = 4 * Real.log 2 + Real.log 1.04 := by
      rw [show (16.64 : ℝ) = 2 ^ 4 * 1.04 by norm_num, Real.log_mul (by norm_num) (by norm_num), Real.log_pow]; norm_num
    have := Real.log_two_lt_d9
    have h2 := Real.log_le_sub_one_of_pos (show (0 : ℝ) < 1.04 by norm_num)
    rw [e]
    norm_num [LN10] at this h2 ⊢
    linarith
  · rw [(ls_val_log 43 32.5 (by norm_num)).2]
    have e : Real.log 32.5 = 5 * Real.log 2 + Real.log 1.015625 := by
      rw [show (32.5 : ℝ) = 2 ^ 5 * 1.015625 by norm_num, Real.log_mul (by norm_num) (by norm_num), Real.log_pow]; norm_num
    have := Real.log_two_lt_d9
    have h2 := Real.log_le_sub_one_of_pos (show (0 : ℝ) < 1.015625 by norm_num)
    rw [e]
    norm_num [LN10] at this h2 ⊢
    linarith

set_option maxHeartbeats 1000000 in
/-- LS over a step of the energy table: bounds and changes for masses up to three atomic weights. -/
theorem lindhard_step (ci : Bool) {p : Projectile ℝ} {n : Int} (hp : p.Ion n) (hn : n ≤ 108)
    (hA : p.A ≤ 3 * element_atomic_weight n) (x r : ℝ) (h1 : 1.039 ≤ r) (h2 : r ≤ 1.0393) (h0 : 10 ≤ x)
    (h9 : r * x ≤ (ls_energy_table : EnergyTable ℝ).val 199) (hT : LindhardReadable x) (hT' : LindhardReadable (r * x)) :
    ∃ v v', precalculated_lindhard ci (p.withT x) = .ok v ∧ precalculated_lindhard ci (p.withT (r * x)) = .ok v' ∧
      |v' - v| ≤ 0.86 ∧ (x ≤ 150000 → |v' - v| ≤ 0.0493 ∧ -2.221 ≤ v ∧ -2.221 ≤ v') ∧ (x ≤ 16 → |v' - v| ≤ 0.0246) ∧
      (16 ≤ x → x ≤ 150000 → -1.944 ≤ v ∧ -1.944 ≤ v') ∧ (x ≤ 31.2 → v ≤ 0.004 ∧ v' ≤ 0.004) := by
  have hwp := atomic_weight_pos n hp.pos (by omega)
  have hb := ls_energy_table_bounds
  have hvle := (EnergyTable.val_le_iff (ls_energy_table : EnergyTable ℝ) hb.1 hb.2.1)
  have hpos : ∀ j, 0 < (ls_energy_table : EnergyTable ℝ).val j := EnergyTable.val_pos _
  have hq := lsRatio_bounds
  norm_num at h1 h2 hq
  have hxx : x < r * x := by nlinarith
  have hxr : x + 0.39 ≤ r * x := by norm_num; nlinarith
  norm_num at hxr
  have hxx2 : r * x ≤ 1.0393 * x := by norm_num; nlinarith
  norm_num at hxx2
  have ionT : ∀ y, (p.withT y).Ion n := fun y => ⟨hp.Z, hp.pos, hp.int, hp.A⟩
  obtain ⟨i, θ, s, k, hk, hkn, hi, ht0, ht1, hs, hb0, hb1, hθ, c, hc, hX⟩ :=
    lindhard_affine ci (ionT x) hn (by show 1 ≤ x; linarith) (by show x ≤ _; linarith) hT
  obtain ⟨i', θ', s', k', hk', hkn', hi', ht0', ht1', hs', hb0', hb1', hθ', c', hc', hX'⟩ :=
    lindhard_affine ci (ionT (r * x)) hn (by show 1 ≤ r * x; linarith) (by show r * x ≤ _; exact h9) hT'
  have ek : k' = k := by omega
  subst ek
  have es : s' = s := by rw [hs, hs']; rfl
  subst es
  have ec : c' = c := funext fun j => by rw [hc, hc']
  subst ec
  simp only [Projectile.withT] at hb0 hb1 hb0' hb1' hθ hθ' hs
  refine ⟨_, _, hX, hX', ?_⟩
  have hs0 : -20 ≤ s' ∧ s' ≤ 40 := by
    rw [hs]
    have h2 : -1 ≤ (p.A - element_atomic_weight n) / element_atomic_weight n := by
      rw [le_div_iff₀ hwp]; linarith [hp.A]
    have h3 : (p.A - element_atomic_weight n) / element_atomic_weight n ≤ 2 := by
      rw [div_le_iff₀ hwp]
      linarith
    constructor <;> linarith
  -- the table
  have tab : ∀ j < 199, 28 ≤ j → |c' (j + 1) - c' j| ≤ 1.694 ∧
      (j ≤ 147 → |c' (j + 1) - c' j| ≤ 0.097 ∧ -2.22 ≤ c' j ∧ -2.22 ≤ c' (j + 1)) ∧ (j ≤ 34 → |c' (j + 1) - c' j| ≤ 0.0484) ∧
      (34 ≤ j → j ≤ 147 → -1.943 ≤ c' j ∧ -1.943 ≤ c' (j + 1)) ∧ (j ≤ 42 → c' j ≤ 0.003 ∧ c' (j + 1) ≤ 0.003) := by
    intro j hj hj28
    obtain ⟨hg1, hg2⟩ := lsTables_steady k' hk'
    obtain ⟨B, hB, g1, g2, g3, g4⟩ := lsRow_steady hg1 j hj28 hj
    have hr1 := lsRow_range hg2 j hj28
    have hr2 := lsRow_range hg2 (j + 1) (by omega)
    rw [hc j, hc (j + 1)]
    generalize lsField (ls_coefficients_a[k']'(by rw [ls_lengths.1]; exact hk')) j = a at g1 g2 g3 g4 hr1 ⊢
    generalize lsField (ls_coefficients_ahi[k']'(by rw [ls_lengths.2.1]; exact hk')) j = h at g1 g2 g3 g4 hr1 ⊢
    generalize lsField (ls_coefficients_a[k']'(by rw [ls_lengths.1]; exact hk')) (j + 1) = a' at g1 g2 g3 g4 hr2 ⊢
    generalize lsField (ls_coefficients_ahi[k']'(by rw [ls_lengths.2.1]; exact hk')) (j + 1) = h' at g1 g2 g3 g4 hr2 ⊢
    have ed : ((a' : ℝ) + s' * ((h' : ℝ) - a')) / 10 ^ 11 - ((a : ℝ) + s' * ((h : ℝ) - a)) / 10 ^ 11 =
        (((a' : ℝ) - a) + s' * ((h' : ℝ) - a' - ((h : ℝ) - a))) / 10 ^ 11 := by ring
    have dif : ∀ B : Int, -B ≤ a' - a - 20 * (h' - a' - (h - a)) → a' - a - 20 * (h' - a' - (h - a)) ≤ B →
        -B ≤ a' - a + 40 * (h' - a' - (h - a)) → a' - a + 40 * (h' - a' - (h - a)) ≤ B →
        |((a' : ℝ) + s' * ((h' : ℝ) - a')) / 10 ^ 11 - ((a : ℝ) + s' * ((h : ℝ) - a)) / 10 ^ 11| ≤ (B : ℝ) / 10 ^ 11 := by
      intro B q1 q2 q3 q4
      have := affine_mid ((a' : ℝ) - a) ((h' : ℝ) - a' - ((h : ℝ) - a)) (-B) B s' (by exact_mod_cast q1) (by exact_mod_cast q3)
        (by exact_mod_cast q2) (by exact_mod_cast q4) hs0.1 hs0.2
      rw [ed, abs_le]
      constructor
      · rw [le_div_iff₀ (by norm_num), neg_mul, div_mul_cancel₀ _ (by norm_num)]; exact this.1
      · rw [div_le_div_iff_of_pos_right (by norm_num)]; exact this.2
    have low : ∀ (B a h : Int), B ≤ a - 20 * (h - a) → B ≤ a + 40 * (h - a) →
        (B : ℝ) / 10 ^ 11 ≤ ((a : ℝ) + s' * ((h : ℝ) - a)) / 10 ^ 11 := by
      intro B a h q1 q2
      rw [div_le_div_iff_of_pos_right (by norm_num)]
      have q1' : (B : ℝ) ≤ a - 20 * ((h : ℝ) - a) := by exact_mod_cast q1
      have q2' : (B : ℝ) ≤ a + 40 * ((h : ℝ) - a) := by exact_mod_cast q2
      rcases le_total 0 ((h : ℝ) - a) with hh | hh <;> nlinarith [hs0.1, hs0.2]
    have upp : ∀ (B a h : Int), a - 20 * (h - a) ≤ B → a + 40 * (h - a) ≤ B →
        ((a : ℝ) + s' * ((h : ℝ) - a)) / 10 ^ 11 ≤ (B : ℝ) / 10 ^ 11 := by
      intro B a h q1 q2
      rw [div_le_div_iff_of_pos_right (by norm_num)]
      have q1' : a - 20 * ((h : ℝ) - a) ≤ (B : ℝ) := by exact_mod_cast q1
      have q2' : a + 40 * ((h : ℝ) - a) ≤ (B : ℝ) := by exact_mod_cast q2
      rcases le_total 0 ((h : ℝ) - a) with hh | hh <;> nlinarith [hs0.1, hs0.2]
    have dB := dif B g1 g2 g3 g4
    refine ⟨dB.trans ?_, fun hj1 => ⟨dB.trans ?_, ?_, ?_⟩, fun hj1 => dB.trans ?_, fun hj1 hj2 => ⟨?_, ?_⟩, fun hj1 => ⟨?_, ?_⟩⟩
    · rw [hB]; split_ifs <;> norm_num
    · rw [hB]; split_ifs <;> norm_num
    · have := low _ _ _ (hr1 (by omega)).1 (hr1 (by omega)).2.1
      norm_num at this ⊢; exact this
    · have := low _ _ _ (hr2 (by omega)).1 (hr2 (by omega)).2.1
      norm_num at this ⊢; exact this
    · rw [hB, if_pos hj1]; norm_num
    · have := low _ _ _ ((hr1 (by omega)).2.2.1 hj1).1 ((hr1 (by omega)).2.2.1 hj1).2
      norm_num at this ⊢; exact this
    · have := low _ _ _ ((hr2 (by omega)).2.2.1 (by omega)).1 ((hr2 (by omega)).2.2.1 (by omega)).2
      norm_num at this ⊢; exact this
    · have := upp _ _ _ ((hr1 (by omega)).2.2.2 (by omega)).1 ((hr1 (by omega)).2.2.2 (by omega)).2
      norm_num at this ⊢; exact this
    · have := upp _ _ _ ((hr2 (by omega)).2.2.2 (by omega)).1 ((hr2 (by omega)).2.2.2 (by omega)).2
      norm_num at this ⊢; exact this
  -- where the two energies lie
  norm_num at hb0 hb0'
  have i28 : 28 ≤ i := by
    by_contra hlt
    have := (hvle (i + 1) 28).mpr (by omega)
    linarith [ls_val_28]
  have Ei := hpos i
  have geo := ls_geometric i
  have iup : i' ≤ i + 1 := by
    by_contra hlt
    have := (hvle (i + 2) i').mpr (by omega)
    have := ls_geometric (i + 1)
    have E1 : 1 ≤ (ls_energy_table : EnergyTable ℝ).val (i + 1) := by linarith
    have : 1.0843 * (ls_energy_table : EnergyTable ℝ).val (i + 1) ≤ (ls_energy_table : EnergyTable ℝ).val (i + 2) := by
      rw [this]; norm_num; nlinarith
    norm_num at this
    linarith
  have ilo : i ≤ i' := by
    by_contra hlt
    have := (hvle (i' + 1) i).mpr (by omega)
    linarith
  have hw : 0 < (ls_energy_table : EnergyTable ℝ).val (i + 1) - (ls_energy_table : EnergyTable ℝ).val i := by
    rw [geo]; nlinarith
  -- the change of the interpolated value
  have change : ∀ D, |c' (i + 1) - c' i| ≤ D → |c' (i' + 1) - c' i'| ≤ D →
      |c' i' + θ' * (c' (i' + 1) - c' i') - (c' i + θ * (c' (i + 1) - c' i))| ≤ 0.5075 * D := by
    intro D hD hD'
    have D0 : 0 ≤ D := (abs_nonneg _).trans hD
    rcases Nat.lt_or_ge i i' with h | h
    · have e : i' = i + 1 := by omega
      subst e
      exact interp_next _ _ _ lsRatio r x θ θ' _ _ _ D geo (ls_geometric (i + 1)) hq.1 hq.2 h1 h2 h0 hb1 hb0' hθ hθ' ht1 ht0' hD hD'
    · have e : i' = i := by omega
      subst e
      exact interp_same _ _ lsRatio r x θ θ' _ _ D geo hq.1 hq.2 h1 h2 h0 hb1 hθ hθ' hD
  have mix : ∀ (j : Nat) (t B : ℝ), -1e-12 ≤ t → t ≤ 1 → |c' (j + 1) - c' j| ≤ 2 → B ≤ c' j → B ≤ c' (j + 1) →
      B - 0.001 ≤ c' j + t * (c' (j + 1) - c' j) := by
    intro j t B q0 q1 q2 b1 b2
    have q3 := abs_le.mp q2
    norm_num at q0 ⊢
    rcases le_total 0 t with h | h <;> nlinarith
  have mixu : ∀ (j : Nat) (t B : ℝ), -1e-12 ≤ t → t ≤ 1 → |c' (j + 1) - c' j| ≤ 2 → c' j ≤ B → c' (j + 1) ≤ B →
      c' j + t * (c' (j + 1) - c' j) ≤ B + 0.001 := by
    intro j t B q0 q1 q2 b1 b2
    have q3 := abs_le.mp q2
    norm_num at q0 ⊢
    rcases le_total 0 t with h | h <;> nlinarith
  obtain ⟨A1, A2, A3, A4, A5⟩ := tab i hi i28
  obtain ⟨B1, B2, B3, B4, B5⟩ := tab i' hi' (by omega)
  have A1' : |c' (i + 1) - c' i| ≤ 2 := A1.trans (by norm_num)
  have B1' : |c' (i' + 1) - c' i'| ≤ 2 := B1.trans (by norm_num)
  have i147 : x ≤ 150000 → i' ≤ 147 := by
    intro hx
    by_contra hlt
    have := (hvle 148 i').mpr (by omega)
    have := ls_val_148'
    linarith
  have i34 : x ≤ 16 → i' ≤ 34 := by
    intro hx
    by_contra hlt
    have := (hvle 35 i').mpr (by omega)
    have := ls_val_mid.2.1
    norm_num at this
    linarith
  have j34 : 16 ≤ x → 34 ≤ i := by
    intro hx
    by_contra hlt
    have := (hvle (i + 1) 34).mpr (by omega)
    linarith [ls_val_mid.1]
  have i42 : x ≤ 31.2 → i' ≤ 42 := by
    intro hx
    by_contra hlt
    have := (hvle 43 i').mpr (by omega)
    have := ls_val_mid.2.2
    norm_num at this hx
    linarith
  refine ⟨(change _ A1 B1).trans (by norm_num), fun hx => ?_, fun hx => ?_, fun hx hx' => ?_, fun hx => ?_⟩
  · have h := i147 hx
    obtain ⟨a1, a2, a3⟩ := A2 (by omega)
    obtain ⟨b1, b2, b3⟩ := B2 h
    refine ⟨(change _ a1 b1).trans (by norm_num), ?_, ?_⟩
    · have := mix i θ _ ht0 ht1 A1' a2 a3; norm_num at this ⊢; linarith
    · have := mix i' θ' _ ht0' ht1' B1' b2 b3; norm_num at this ⊢; linarith
  · have h := i34 hx
    exact (change _ (A3 (by omega)) (B3 h)).trans (by norm_num)
  · have h := i147 hx'
    have h' := j34 hx
    obtain ⟨a1, a2⟩ := A4 h' (by omega)
    obtain ⟨b1, b2⟩ := B4 (by omega) h
    constructor
    · have := mix i θ _ ht0 ht1 A1' a1 a2; norm_num at this ⊢; linarith
    · have := mix i' θ' _ ht0' ht1' B1' b1 b2; norm_num at this ⊢; linarith
  · have h := i42 hx
    obtain ⟨a1, a2⟩ := A5 (by omega)
    obtain ⟨b1, b2⟩ := B5 h
    constructor
    · have := mixu i θ _ ht0 ht1 A1' a1 a2; norm_num at this ⊢; linarith
    · have := mixu i' θ' _ ht0' ht1' B1' b1 b2; norm_num at this ⊢; linarith

end Catima
