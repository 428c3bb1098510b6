import Verif.Lemmas.LindhardX
import Verif.Lemmas.LindhardXTables
import Verif.Lemmas.AtomicWeights
import Verif.Props.Scattering

/-!
# C85: the sign of the tabulated X correction of the energy-loss variance
-/

namespace Catima

/-- C85, the part that holds below about 100 GeV/u: for every ion up to Z = 108 with at most three
times the atomic weight of its element, X is defined and non-negative. -/
theorem lindhard_X_low_partial (ci : Bool) (p : Projectile ℝ) (n : Int) (hp : p.Ion n) (hn : n ≤ 108)
    (hA : p.A ≤ 3 * element_atomic_weight n)
    (h9 : p.T ≤ (ls_energy_table : EnergyTable ℝ).val 142) :
    ∃ X, precalculated_lindhard_X ci p = .ok X ∧ 0 ≤ X := by
  have hb := ls_energy_table_bounds
  have hv := (EnergyTable.val_le_iff (ls_energy_table : EnergyTable ℝ) hb.1 hb.2.1)
  have hw := atomic_weight_pos n hp.pos (by omega)
  rcases lt_or_ge p.T 1 with h1 | h1
  · refine ⟨1, ?_, by norm_num⟩
    unfold precalculated_lindhard_X
    rw [lsZ_ion hp (by omega), bind_ok, if_pos (by rw [lt_real, ls_first]; exact h1)]
    norm_num [pure, Except.pure]
  have hg := ls_gap 142
  have h143 := (hv 143 199).mpr (by norm_num)
  norm_num at hg
  obtain ⟨i, θ, s, r, hr, hrn, hi, ht0, -, ht1, hs, hb0, hb1, c, hc, hX⟩ := lindhard_X_affine ci hp hn h1
    (by linarith) (Or.inl (by norm_num; linarith))
  refine ⟨_, hX, ?_⟩
  have hi' : i < 143 := by
    by_contra hge
    have := (hv 143 i).mpr (by omega)
    norm_num at hb0
    linarith
  have hgood := xTables_good r hr
  unfold xRowGood at hgood
  rw [List.all_eq_true] at hgood
  have hg' := of_decide_eq_true (hgood i (List.mem_range.mpr hi'))
  have hs0 : -20 ≤ s ∧ s ≤ 40 := by
    rw [hs]
    have h2 : -1 ≤ (p.A - element_atomic_weight n) / element_atomic_weight n := by
      rw [le_div_iff₀ hw]; linarith [hp.A]
    have h3 : (p.A - element_atomic_weight n) / element_atomic_weight n ≤ 2 := by
      rw [div_le_iff₀ hw]; linarith
    constructor <;> linarith
  have ci' := hc i
  have ci1 := hc (i + 1)
  generalize lsField (ls_X_coefficients_a[r]'(by rw [ls_lengths.2.2.1]; exact hr)) i = a at *
  generalize lsField (ls_X_coefficients_ahi[r]'(by rw [ls_lengths.2.2.2]; exact hr)) i = h at *
  generalize lsField (ls_X_coefficients_a[r]'(by rw [ls_lengths.2.2.1]; exact hr)) (i + 1) = a' at *
  generalize lsField (ls_X_coefficients_ahi[r]'(by rw [ls_lengths.2.2.2]; exact hr)) (i + 1) = h' at *
  obtain ⟨g1, g2, g3, g4, g5, g6⟩ := hg'
  have r1 : (0 : ℝ) < a - 20 * (h - a) := by exact_mod_cast g1
  have r2 : (0 : ℝ) < a + 40 * (h - a) := by exact_mod_cast g2
  have r3 : (0 : ℝ) < a' - 20 * (h' - a') := by exact_mod_cast g3
  have r4 : (0 : ℝ) < a' + 40 * (h' - a') := by exact_mod_cast g4
  have r5 : (a' : ℝ) - 20 * (h' - a') ≤ 10 ^ 12 * (a - 20 * (h - a)) := by exact_mod_cast g5
  have r6 : (a' : ℝ) + 40 * (h' - a') ≤ 10 ^ 12 * (a + 40 * (h - a)) := by exact_mod_cast g6
  -- affine in `s`, so bounds at the two ends carry over
  obtain ⟨l, hl0, hl1, hl⟩ : ∃ l : ℝ, 0 ≤ l ∧ l ≤ 1 ∧ s = (1 - l) * (-20) + l * 40 :=
    ⟨(s + 20) / 60, by linarith, by linarith, by ring⟩
  have q1 : 0 ≤ c i := by
    rw [ci', hl]
    apply div_nonneg _ (by positivity)
    nlinarith
  have q2 : 0 ≤ c (i + 1) := by
    rw [ci1, hl]
    apply div_nonneg _ (by positivity)
    nlinarith
  have q3 : c (i + 1) ≤ 10 ^ 12 * c i := by
    rw [ci', ci1, hl, ← mul_div_assoc, div_le_div_iff_of_pos_right (by positivity)]
    nlinarith
  rcases le_or_gt 0 θ with hθ | hθ
  · nlinarith
  · norm_num at ht0 q3
    nlinarith

/-- C85, the part that holds at all energies: an ion whose mass is between the atomic weight of its
element and 5% more (in particular the default masses) has non-negative X.  The energies excluded
are the windows of `10 * 2^-52` MeV/u below the table points. -/
theorem lindhard_X_natural_partial (ci : Bool) (p : Projectile ℝ) (n : Int) (hp : p.Ion n)
    (hn : n ≤ 108) (hA : element_atomic_weight n ≤ p.A) (hA' : p.A ≤ 1.05 * element_atomic_weight n)
    (hw : ∀ k, ¬ ((ls_energy_table : EnergyTable ℝ).val k - 10 * 2⁻¹ ^ 52 ≤ p.T ∧
      p.T < (ls_energy_table : EnergyTable ℝ).val k)) :
    ∃ X, precalculated_lindhard_X ci p = .ok X ∧ 0 ≤ X := by
  have hwp := atomic_weight_pos n hp.pos (by omega)
  rcases lt_or_ge p.T 1 with h1 | h1
  · refine ⟨1, ?_, by norm_num⟩
    unfold precalculated_lindhard_X
    rw [lsZ_ion hp (by omega), bind_ok, if_pos (by rw [lt_real, ls_first]; exact h1)]
    norm_num [pure, Except.pure]
  rcases lt_or_ge ((ls_energy_table : EnergyTable ℝ).val 199) p.T with h9 | h9
  · refine ⟨0, ?_, le_rfl⟩
    unfold precalculated_lindhard_X lsValue lsValueOf
    rw [lsZ_ion hp (by omega), bind_ok, if_neg (by rw [lt_real, ls_first]; linarith)]
    obtain ⟨y1, hy1, -⟩ := lsRowAt_ok ls_X_coefficients_a (n - 1) (by linarith [hp.pos])
      (by rw [ls_lengths.2.2.1]; norm_num; omega)
    obtain ⟨y2, hy2, -⟩ := lsRowAt_ok ls_X_coefficients_ahi (n - 1) (by linarith [hp.pos])
      (by rw [ls_lengths.2.2.2]; norm_num; omega)
    have ho : ∀ y, (ls_energy_table : EnergyTable ℝ).interpolate ci p.T y = .ok 0 :=
      fun y => interpolate_outside ci _ y _ (Or.inr h9)
    simp only [hy1, hy2, bind_ok, ho]
    norm_num [pure, Except.pure]
  have hread : LindhardReadable p.T := by
    rcases lt_or_ge p.T ((ls_energy_table : EnergyTable ℝ).val 199 - 10 * 2⁻¹ ^ 52) with h | h
    · exact Or.inl h
    · right
      by_contra hlt
      exact hw 199 ⟨h, not_le.mp hlt⟩
  obtain ⟨i, θ, s, r, hr, hrn, hi, -, hθ, ht1, hs, hb0, hb1, c, hc, hX⟩ :=
    lindhard_X_affine ci hp hn h1 h9 hread
  refine ⟨_, hX, ?_⟩
  have hθ0 : 0 ≤ θ := hθ (by
    by_contra hlt
    exact hw i ⟨hb0, not_le.mp hlt⟩)
  have hs0 : 0 ≤ s ∧ s ≤ 1 := by
    rw [hs]
    have h2 : 0 ≤ (p.A - element_atomic_weight n) / element_atomic_weight n :=
      div_nonneg (by linarith) hwp.le
    have h3 : (p.A - element_atomic_weight n) / element_atomic_weight n ≤ 1 / 20 := by
      rw [div_le_iff₀ hwp]
      norm_num at hA'
      linarith
    constructor <;> linarith
  have hcp : ∀ j < 200, 0 ≤ c j := by
    intro j hj
    obtain ⟨n1, n2⟩ := xTables_nonneg r hr j hj
    rw [hc j]
    have n1' : (0 : ℝ) ≤ (lsField (ls_X_coefficients_a[r]'(by rw [ls_lengths.2.2.1]; exact hr)) j : ℝ) := by
      exact_mod_cast n1
    have n2' : (0 : ℝ) ≤ (lsField (ls_X_coefficients_ahi[r]'(by rw [ls_lengths.2.2.2]; exact hr)) j : ℝ) := by
      exact_mod_cast n2
    apply div_nonneg _ (by positivity)
    nlinarith
  have := hcp i (by omega)
  have := hcp (i + 1) (by omega)
  nlinarith

/-- A lead-208 projectile at 1 GeV/u, and a default-mass gold projectile, meet the hypotheses. -/
example (ci : Bool) : (∃ X : ℝ, precalculated_lindhard_X ci ⟨207.98, 82, 82, 1000⟩ = .ok X ∧ 0 ≤ X) ∧
    ∃ X : ℝ, precalculated_lindhard_X ci ⟨element_atomic_weight 79, 79, 79, 0.5⟩ = .ok X ∧ 0 ≤ X := by
  have hb := ls_energy_table_bounds
  constructor
  · refine lindhard_X_low_partial ci ⟨207.98, 82, 82, 1000⟩ 82 ⟨by norm_num, by norm_num, by norm_num, by norm_num⟩ (by norm_num) ?_ ?_
    · have : (element_atomic_weight 82 : ℝ) = (Dec.toScalar ⟨2072, 1⟩ : ℝ) := rfl
      rw [this, Dec.toScalar_real]; norm_num
    · rw [EnergyTable.val_eq]
      have hs : (ls_energy_table : EnergyTable ℝ).step = 7 / 199 := by
        rw [EnergyTable.step_eq]; norm_num [ls_energy_table]
      rw [hs]
      have h10 : (1000 : ℝ) ≤ Real.exp 8 := by
        have e : Real.exp 8 = Real.exp 1 ^ 8 := by rw [← Real.exp_nat_mul]; norm_num
        have h27 := Real.exp_one_gt_d9
        rw [e]
        calc (1000 : ℝ) ≤ 2.7 ^ 8 := by norm_num
          _ ≤ _ := by gcongr; norm_num at h27 ⊢; linarith
      refine h10.trans (Real.exp_le_exp.mpr ?_)
      norm_num [ls_energy_table, LN10]
  · have hpos := atomic_weight_pos 79 (by norm_num) (by norm_num)
    refine lindhard_X_natural_partial ci ⟨element_atomic_weight 79, 79, 79, 0.5⟩ 79 ⟨by norm_num, by norm_num, by norm_num, hpos⟩ (by norm_num) le_rfl
      (by norm_num; linarith) ?_
    rintro k ⟨h1, -⟩
    have : (1 : ℝ) ≤ (ls_energy_table : EnergyTable ℝ).val k := by
      rw [← ls_first]; exact (EnergyTable.val_le_iff _ hb.1 hb.2.1 0 k).mpr (by omega)
    norm_num at h1
    linarith

/-- C85, refuted: for helium-3 between the table points 182 and 183 (2.5 to 2.7 TeV/u) X is
negative, because the extrapolation in mass is applied to entries that vanish. -/
theorem lindhard_X_negative (ci : Bool) (x q : ℝ) (h0 : (ls_energy_table : EnergyTable ℝ).val 182 ≤ x)
    (h1 : x < (ls_energy_table : EnergyTable ℝ).val 183 - 10 * 2⁻¹ ^ 52) :
    ∃ X, precalculated_lindhard_X ci ⟨3.016, 2, q, x⟩ = .ok X ∧ X ≤ -0.04 := by
  have hb := ls_energy_table_bounds
  have hv := (EnergyTable.val_le_iff (ls_energy_table : EnergyTable ℝ) hb.1 hb.2.1)
  have hp : Projectile.Ion (⟨3.016, 2, q, x⟩ : Projectile ℝ) 2 :=
    ⟨by norm_num, by norm_num, by norm_num, by norm_num⟩
  obtain ⟨y1, hy1, hl1, hv1⟩ := lsRowAt_get ls_X_coefficients_a 1 (by rw [ls_lengths.2.2.1]; norm_num)
  obtain ⟨y2, hy2, hl2, hv2⟩ := lsRowAt_get ls_X_coefficients_ahi 1 (by rw [ls_lengths.2.2.2]; norm_num)
  obtain ⟨r1, e1, f1, -⟩ := interpolate_between_partial ci ls_energy_table hb.1 hb.2.1 hb.2.2 y1 hl1 x
    182 (by decide) h0 h1
  obtain ⟨r2, e2, f2, -⟩ := interpolate_between_partial ci ls_energy_table hb.1 hb.2.1 hb.2.2 y2 hl2 x
    182 (by decide) h0 h1
  have w2 : (element_atomic_weight 2 : ℝ) = 4.0026 := by
    have : (element_atomic_weight 2 : ℝ) = (Dec.toScalar ⟨40026, 4⟩ : ℝ) := rfl
    rw [this, Dec.toScalar_real]; norm_num
  have hx1 : (1 : ℝ) ≤ x := by
    rw [← ls_first]; exact ((hv 0 182).mpr (by norm_num)).trans h0
  refine ⟨r1 + (r2 - r1) * ((3.016 - 4.0026) / 4.0026) / 0.05, ?_, ?_⟩
  · unfold precalculated_lindhard_X
    rw [lsZ_ion hp (by omega), bind_ok, if_neg (by rw [lt_real, ls_first]; dsimp only; linarith)]
    unfold lsValue lsValueOf
    have e : (2 : Int) - 1 = ((1 : Nat) : Int) := by norm_num
    rw [e]
    simp only [hy1, hy2, bind_ok, e1, e2, pure, Except.pure, w2]
  · have k : lsField ls_X_coefficients_a[1] 182 = 2842760000 ∧ lsField ls_X_coefficients_a[1] 183 = 0 ∧
        lsField ls_X_coefficients_ahi[1] 182 = 4336390000 ∧
        lsField ls_X_coefficients_ahi[1] 183 = 1173460000 := by decide +kernel
    have g1 := hv1 182 (by norm_num)
    have g2 := hv1 183 (by norm_num)
    have g3 := hv2 182 (by norm_num)
    have g4 := hv2 183 (by norm_num)
    rw [k.1, List.getElem?_eq_getElem (by omega)] at g1
    rw [k.2.1, List.getElem?_eq_getElem (by omega)] at g2
    rw [k.2.2.1, List.getElem?_eq_getElem (by omega)] at g3
    rw [k.2.2.2, List.getElem?_eq_getElem (by omega)] at g4
    rw [Option.some.inj g1, Option.some.inj g2] at f1
    rw [Option.some.inj g3, Option.some.inj g4] at f2
    have hgap := ls_gap 182
    norm_num at hgap h1
    have ht0 : 0 ≤ (x - (ls_energy_table : EnergyTable ℝ).val 182) /
        ((ls_energy_table : EnergyTable ℝ).val (182 + 1) - (ls_energy_table : EnergyTable ℝ).val 182) :=
      div_nonneg (by linarith) (by norm_num; linarith)
    have ht1 : (x - (ls_energy_table : EnergyTable ℝ).val 182) /
        ((ls_energy_table : EnergyTable ℝ).val (182 + 1) - (ls_energy_table : EnergyTable ℝ).val 182) ≤ 1 := by
      rw [div_le_one (by norm_num; linarith)]
      norm_num
      linarith
    generalize (x - (ls_energy_table : EnergyTable ℝ).val 182) /
        ((ls_energy_table : EnergyTable ℝ).val (182 + 1) - (ls_energy_table : EnergyTable ℝ).val 182) = θ at *
    rw [f1, f2]
    norm_num
    linarith

theorem ls_182_large : (20000 : ℝ) ≤ (ls_energy_table : EnergyTable ℝ).val 182 := by
  rw [EnergyTable.val_eq]
  have hs : (ls_energy_table : EnergyTable ℝ).step = 7 / 199 := by
    rw [EnergyTable.step_eq]; norm_num [ls_energy_table]
  rw [hs]
  have h10 : (20000 : ℝ) ≤ Real.exp 10 := by
    have e : Real.exp 10 = Real.exp 1 ^ 10 := by rw [← Real.exp_nat_mul]; norm_num
    have h27 := Real.exp_one_gt_d9
    rw [e]
    calc (20000 : ℝ) ≤ 2.7 ^ 10 := by norm_num
      _ ≤ _ := by gcongr; norm_num at h27 ⊢; linarith
  refine h10.trans (Real.exp_le_exp.mpr ?_)
  norm_num [ls_energy_table, LN10]

/-- A consequence: the energy-loss variance of helium-3 at these energies is negative in every
target, so its root is not a number. -/
theorem variance_negative (env : Env ℝ) (x q : ℝ)
    (h0 : (ls_energy_table : EnergyTable ℝ).val 182 ≤ x)
    (h1 : x < (ls_energy_table : EnergyTable ℝ).val 183 - 10 * 2⁻¹ ^ 52)
    (t : Target ℝ) (tZ : 1 ≤ t.Z) (tA : 0 < t.A) (c : Config ℝ) (hc : c.z_effective = 1) :
    ∃ v, dedx_variance env ⟨3.016, 2, q, x⟩ t c = .ok v ∧ v < 0 := by
  obtain ⟨X, hX, hXn⟩ := lindhard_X_negative env.calcIndex x q h0 h1
  have hx := ls_182_large.trans h0
  have hx0 : 0 < x := by linarith
  obtain ⟨hg1, hb1, hb2⟩ := gamma_beta_bounds x hx0
  have htz : (1 : ℝ) ≤ t.Z := by exact_mod_cast tZ
  set z := z_eff_Pierce_Blann (2 : ℝ) (beta_from_T x) with hz
  have hzpos : 0 < z := by
    rw [hz]
    unfold z_eff_Pierce_Blann
    simp only [exp_real, pow_real]
    have : Real.exp (-0.95 * fine_structure_inverted * beta_from_T x / (2 : ℝ) ^ ((2.0 : ℝ) / 3.0)) < 1 := by
      rw [Real.exp_lt_one_iff]
      apply div_neg_of_neg_of_pos _ (by positivity)
      apply mul_neg_of_neg_of_pos _ hb1
      norm_num [fine_structure_inverted, fine_structure]
    norm_num at this ⊢
    linarith
  unfold dedx_variance
  rw [(z_effective_basic env.debug ⟨3.016, 2, q, x⟩ t c).2 hc, hX]
  dsimp only
  simp only [bind_ok]
  rw [if_neg (by rw [lt_real]; norm_num; linarith)]
  refine ⟨_, rfl, ?_⟩
  have hd : (0 : ℝ) < domega2dx_constant := by norm_num [domega2dx_constant, dedx_constant, electron_mass]
  have hf : 0 < domega2dx_constant * ipow z 2 * (ofInt t.Z : ℝ) / t.A := by
    have : (0 : ℝ) < ipow z 2 := by show 0 < z * z; positivity
    rw [ofInt_real]
    have : (0 : ℝ) < t.Z := by linarith
    positivity
  apply mul_neg_of_pos_of_neg hf
  have hgam : (20 : ℝ) ≤ gamma_from_T x := by
    unfold gamma_from_T
    have : (19 : ℝ) ≤ x / atomic_mass_unit := by
      rw [le_div_iff₀ amu_pos]
      norm_num [atomic_mass_unit]
      linarith
    norm_num at this ⊢
    linarith
  have hcor : (if c.calculation = 0 then smax (24.89 * Scalar.pow (ofInt t.Z : ℝ) 1.2324 /
      (electron_mass * 1.0e6 * (beta_from_T x * beta_from_T x)) *
        Scalar.log (2.0 * electron_mass * 1.0e6 * (beta_from_T x * beta_from_T x) /
          (33.05 * Scalar.pow (ofInt t.Z : ℝ) 1.6364))) 0.0 else 0.0) ≤ (2 : ℝ) := by
    split
    · rw [smax_real]
      refine max_le ?_ (by norm_num)
      simp only [ofInt_real, pow_real, log_real]
      have hbb : 0 < beta_from_T x * beta_from_T x := by positivity
      generalize beta_from_T x * beta_from_T x = b at hbb
      have ha : (0 : ℝ) < (t.Z : ℝ) ^ (1.2324 : ℝ) := by positivity
      have hab : (t.Z : ℝ) ^ (1.2324 : ℝ) ≤ (t.Z : ℝ) ^ (1.6364 : ℝ) :=
        Real.rpow_le_rpow_of_exponent_le htz (by norm_num)
      generalize (t.Z : ℝ) ^ (1.2324 : ℝ) = u at *
      generalize (t.Z : ℝ) ^ (1.6364 : ℝ) = v at *
      have hv : 0 < v := by linarith
      have hm : (0 : ℝ) < electron_mass := by norm_num [electron_mass]
      generalize (electron_mass : ℝ) = m at hm
      have hl := Real.log_le_sub_one_of_pos (show 0 < 2.0 * m * 1.0e6 * b / (33.05 * v) by positivity)
      have hk : 0 < 24.89 * u / (m * 1.0e6 * b) := by positivity
      calc 24.89 * u / (m * 1.0e6 * b) * Real.log (2.0 * m * 1.0e6 * b / (33.05 * v))
          ≤ 24.89 * u / (m * 1.0e6 * b) * (2.0 * m * 1.0e6 * b / (33.05 * v)) := by
            apply mul_le_mul_of_nonneg_left _ hk.le
            linarith
        _ = 24.89 * 2.0 / 33.05 * (u / v) := by field_simp
        _ ≤ 24.89 * 2.0 / 33.05 * 1 := by
            apply mul_le_mul_of_nonneg_left _ (by norm_num)
            rw [div_le_one hv]; exact hab
        _ ≤ 2 := by norm_num
    · norm_num
  refine lt_of_le_of_lt (add_le_add le_rfl hcor) ?_
  have hgg : (400 : ℝ) ≤ gamma_from_T x * gamma_from_T x := by nlinarith
  norm_num at hXn
  nlinarith

/-- There are such energies. -/
example : ∃ x : ℝ, (ls_energy_table : EnergyTable ℝ).val 182 ≤ x ∧
    x < (ls_energy_table : EnergyTable ℝ).val 183 - 10 * 2⁻¹ ^ 52 := by
  refine ⟨_, le_rfl, ?_⟩
  have := ls_gap 182
  norm_num at this ⊢
  linarith

end Catima
