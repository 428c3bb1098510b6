import Verif.Lemmas.LindhardSteady
import Verif.Lemmas.LindhardXTables
import Verif.Lemmas.Straggling
import Verif.Props.Continuity
import Verif.Props.LindhardX

/-!
# C139: the energy-loss variance has no jumps but one
-/

namespace Catima

open Filter Topology

theorem lindhard_X_line (ci : Bool) {p : Projectile ℝ} {n : Int} (hp : p.Ion n) (hn : n ≤ 108)
    (h0 : 1 ≤ p.T) (h9 : p.T ≤ (ls_energy_table : EnergyTable ℝ).val 199) (hT : LindhardReadable p.T) :
    ∃ (i : Nat) (θ s : ℝ) (r : Nat) (hr : r < 108), (r : Int) = n - 1 ∧ i < 199 ∧
      -1e-12 ≤ θ ∧ ((ls_energy_table : EnergyTable ℝ).val i ≤ p.T → 0 ≤ θ) ∧ θ ≤ 1 ∧
      s = 20 * ((p.A - element_atomic_weight n) / element_atomic_weight n) ∧
      (ls_energy_table : EnergyTable ℝ).val i - 10 * 2⁻¹ ^ 52 ≤ p.T ∧
      p.T ≤ (ls_energy_table : EnergyTable ℝ).val (i + 1) ∧
      p.T - (ls_energy_table : EnergyTable ℝ).val i = θ * ((ls_energy_table : EnergyTable ℝ).val (i + 1) -
        (ls_energy_table : EnergyTable ℝ).val i) ∧
      ∃ c : Nat → ℝ, (∀ j, c j = ((lsField (ls_X_coefficients_a[r]'(by rw [ls_lengths.2.2.1]; exact hr)) j : ℝ)
          + s * ((lsField (ls_X_coefficients_ahi[r]'(by rw [ls_lengths.2.2.2]; exact hr)) j : ℝ) -
            lsField (ls_X_coefficients_a[r]'(by rw [ls_lengths.2.2.1]; exact hr)) j)) / 10 ^ 11) ∧
        precalculated_lindhard_X ci p = .ok (c i + θ * (c (i + 1) - c i)) := by
  have hb := ls_energy_table_bounds
  obtain ⟨i, θ, hi, ht0, htp, ht1, hb0, hb1, hθ, key⟩ := interpolate_affine ci ls_energy_table hb.1 hb.2.1 hb.2.2
    ls_gap p.T (by rw [ls_first]; exact h0) h9 hT
  obtain ⟨r, hr⟩ := Int.eq_ofNat_of_zero_le (show 0 ≤ n - 1 by linarith [hp.pos])
  have hr' : r < 108 := by omega
  refine ⟨i, θ, _, r, hr', hr.symm, by change i + 1 < 200 at hi; omega, ht0, htp, ht1, rfl, hb0, hb1, hθ, _, fun j => rfl, ?_⟩
  obtain ⟨y1, hy1, hl1, hv1⟩ := lsRowAt_get ls_X_coefficients_a r (by rw [ls_lengths.2.2.1]; exact hr')
  obtain ⟨y2, hy2, hl2, hv2⟩ := lsRowAt_get ls_X_coefficients_ahi r (by rw [ls_lengths.2.2.2]; exact hr')
  obtain ⟨a1, b1, ha1, hb1', e1⟩ := key y1 hl1
  obtain ⟨a2, b2, ha2, hb2, e2⟩ := key y2 hl2
  change i + 1 < 200 at hi
  rw [hv1 i (by omega)] at ha1
  rw [hv1 (i + 1) (by omega)] at hb1'
  rw [hv2 i (by omega)] at ha2
  rw [hv2 (i + 1) (by omega)] at hb2
  unfold precalculated_lindhard_X
  rw [lsZ_ion hp (by omega), bind_ok, if_neg (by rw [lt_real, ls_first]; linarith)]
  unfold lsValue lsValueOf
  rw [hr]
  simp only [hy1, hy2, bind_ok, e1, e2, pure, Except.pure]
  refine congrArg Except.ok ?_
  rw [← Option.some.inj ha1, ← Option.some.inj hb1', ← Option.some.inj ha2, ← Option.some.inj hb2]
  generalize (lsField (ls_X_coefficients_a[r]'(by rw [ls_lengths.2.2.1]; exact hr')) i : ℝ) = A1
  generalize (lsField (ls_X_coefficients_a[r]'(by rw [ls_lengths.2.2.1]; exact hr')) (i + 1) : ℝ) = B1
  generalize (lsField (ls_X_coefficients_ahi[r]'(by rw [ls_lengths.2.2.2]; exact hr')) i : ℝ) = A2
  generalize (lsField (ls_X_coefficients_ahi[r]'(by rw [ls_lengths.2.2.2]; exact hr')) (i + 1) : ℝ) = B2
  generalize (p.A - element_atomic_weight n) / element_atomic_weight n = d
  have e : (0.05 : ℝ) = 1 / 20 := by norm_num
  rw [e]
  ring

/-- Between two points of its table the X correction is a line, and beyond the table it is 0. -/
theorem lindhard_X_no_jump (ci : Bool) {p : Projectile ℝ} {n : Int} (hp : p.Ion n) (hn : n ≤ 108) (x : ℝ) (hx : 1 < x)
    (hoff : ∀ k < 200, x < (ls_energy_table : EnergyTable ℝ).val k - 10 * 2⁻¹ ^ 52 ∨ (ls_energy_table : EnergyTable ℝ).val k < x) :
    NoJump (fun T => precalculated_lindhard_X ci (p.withT T)) x := by
  have hb := ls_energy_table_bounds
  have ew : (0 : ℝ) < 10 * 2⁻¹ ^ 52 := by norm_num
  have mono := fun i j => EnergyTable.val_le_iff (ls_energy_table : EnergyTable ℝ) hb.1 hb.2.1 i j
  rcases hoff 199 (by norm_num) with h9 | h9
  · obtain ⟨k, hk, k0, k1, -⟩ := (ls_energy_table : EnergyTable ℝ).exists_bracket hb.1 hb.2.1 x (by rw [ls_first]; exact hx.le)
      (by show x < (ls_energy_table : EnergyTable ℝ).val 199; linarith)
    change k + 1 < 200 at hk
    have k0' : (ls_energy_table : EnergyTable ℝ).val k < x := (hoff k (by omega)).resolve_left (by linarith)
    have k1' : x < (ls_energy_table : EnergyTable ℝ).val (k + 1) - 10 * 2⁻¹ ^ 52 := (hoff (k + 1) hk).resolve_right (by linarith)
    obtain ⟨r, hr⟩ := Int.eq_ofNat_of_zero_le (show 0 ≤ n - 1 by linarith [hp.pos])
    have hr' : r < 108 := by omega
    obtain ⟨C, hC⟩ : ∃ C : Nat → ℝ, ∀ j, C j = ((lsField (ls_X_coefficients_a[r]'(by rw [ls_lengths.2.2.1]; exact hr')) j : ℝ)
          + 20 * ((p.A - element_atomic_weight n) / element_atomic_weight n) * ((lsField (ls_X_coefficients_ahi[r]'(by rw [ls_lengths.2.2.2]; exact hr')) j : ℝ) -
            lsField (ls_X_coefficients_a[r]'(by rw [ls_lengths.2.2.1]; exact hr')) j)) / 10 ^ 11 := ⟨_, fun _ => rfl⟩
    refine ⟨fun T => C k + (T - (ls_energy_table : EnergyTable ℝ).val k) / ((ls_energy_table : EnergyTable ℝ).val (k + 1) -
      (ls_energy_table : EnergyTable ℝ).val k) * (C (k + 1) - C k), ?_, by fun_prop⟩
    filter_upwards [lt_mem_nhds k0', gt_mem_nhds k1', gt_mem_nhds h9, lt_mem_nhds hx] with T t0 t1 t9 tx
    obtain ⟨i, θ, s, r', hr1, hr2, hi, -, -, -, hs, i0, i1, hθ, c, hc, hv⟩ := lindhard_X_line ci (p := p.withT T) ⟨hp.Z, hp.pos, hp.int, hp.A⟩
      hn tx.le (by show T ≤ _; linarith) (.inl t9)
    change _ ≤ T at i0
    change T ≤ _ at i1
    change T - _ = _ at hθ
    change s = 20 * ((p.A - element_atomic_weight n) / element_atomic_weight n) at hs
    obtain rfl : r' = r := by omega
    obtain rfl : i = k := by
      rcases lt_trichotomy i k with h | h | h
      · have := (mono (i + 1) k).mpr (by omega)
        linarith
      · exact h
      · have := (mono (k + 1) i).mpr (by omega)
        linarith
    have gap : 0 < (ls_energy_table : EnergyTable ℝ).val (i + 1) - (ls_energy_table : EnergyTable ℝ).val i := by
      linarith
    have hθ' : (T - (ls_energy_table : EnergyTable ℝ).val i) / ((ls_energy_table : EnergyTable ℝ).val (i + 1) -
      (ls_energy_table : EnergyTable ℝ).val i) = θ := by
      rw [hθ, mul_div_assoc, div_self gap.ne', mul_one]
    rw [hv, hθ', hC, hC, hc, hc, hs]
  · refine ⟨fun _ => 0, ?_, continuousAt_const⟩
    filter_upwards [lt_mem_nhds h9, lt_mem_nhds hx] with T t9 tx
    obtain ⟨r, hr⟩ := Int.eq_ofNat_of_zero_le (show 0 ≤ n - 1 by linarith [hp.pos])
    have hr' : r < 108 := by omega
    obtain ⟨y1, hy1, -, -⟩ := lsRowAt_get ls_X_coefficients_a r (by rw [ls_lengths.2.2.1]; exact hr')
    obtain ⟨y2, hy2, -, -⟩ := lsRowAt_get ls_X_coefficients_ahi r (by rw [ls_lengths.2.2.2]; exact hr')
    unfold precalculated_lindhard_X
    rw [lsZ_ion (p := p.withT T) ⟨hp.Z, hp.pos, hp.int, hp.A⟩ (by omega), bind_ok]
    rw [if_neg (by rw [lt_real, ls_first]; show ¬ T < 1; linarith)]
    have z : ∀ y : List ℝ, (ls_energy_table : EnergyTable ℝ).interpolate ci (p.withT T).T y = .ok 0 := by
      intro y
      unfold EnergyTable.interpolate
      rw [if_pos (by rw [Bool.or_eq_true, lt_real, lt_real]; right; exact t9)]
      norm_num
    unfold lsValue lsValueOf
    rw [hr]
    simp only [hy1, hy2, bind_ok, z, pure, Except.pure]
    norm_num

/-- Up to the 44th point (32.5 MeV/u) the X tables lie between 0.96 and 1.33 for all masses up to three atomic weights. -/
theorem xTables_low : ∀ r, (hr : r < 108) → ∀ j < 44,
    96000000000 ≤ lsField (ls_X_coefficients_a[r]'(by rw [ls_lengths.2.2.1]; exact hr)) j -
      20 * (lsField (ls_X_coefficients_ahi[r]'(by rw [ls_lengths.2.2.2]; exact hr)) j - lsField (ls_X_coefficients_a[r]'(by rw [ls_lengths.2.2.1]; exact hr)) j) ∧
    96000000000 ≤ lsField (ls_X_coefficients_a[r]'(by rw [ls_lengths.2.2.1]; exact hr)) j +
      40 * (lsField (ls_X_coefficients_ahi[r]'(by rw [ls_lengths.2.2.2]; exact hr)) j - lsField (ls_X_coefficients_a[r]'(by rw [ls_lengths.2.2.1]; exact hr)) j) ∧
    lsField (ls_X_coefficients_a[r]'(by rw [ls_lengths.2.2.1]; exact hr)) j -
      20 * (lsField (ls_X_coefficients_ahi[r]'(by rw [ls_lengths.2.2.2]; exact hr)) j - lsField (ls_X_coefficients_a[r]'(by rw [ls_lengths.2.2.1]; exact hr)) j) ≤ 132000000000 ∧
    lsField (ls_X_coefficients_a[r]'(by rw [ls_lengths.2.2.1]; exact hr)) j +
      40 * (lsField (ls_X_coefficients_ahi[r]'(by rw [ls_lengths.2.2.2]; exact hr)) j - lsField (ls_X_coefficients_a[r]'(by rw [ls_lengths.2.2.1]; exact hr)) j) ≤ 132000000000 := by
  have h : ((ls_X_coefficients_a.zip ls_X_coefficients_ahi).all fun e =>
      (List.range 44).all fun j => decide (96000000000 ≤ lsField e.1 j - 20 * (lsField e.2 j - lsField e.1 j) ∧
        96000000000 ≤ lsField e.1 j + 40 * (lsField e.2 j - lsField e.1 j) ∧
        lsField e.1 j - 20 * (lsField e.2 j - lsField e.1 j) ≤ 132000000000 ∧
        lsField e.1 j + 40 * (lsField e.2 j - lsField e.1 j) ≤ 132000000000)) = true := by
    decide +kernel
  intro r hr j hj
  rw [List.all_eq_true] at h
  have hz : r < (ls_X_coefficients_a.zip ls_X_coefficients_ahi).length := by
    rw [List.length_zip, ls_lengths.2.2.1, ls_lengths.2.2.2]; omega
  have := h _ (List.getElem_mem hz)
  rw [List.getElem_zip, List.all_eq_true] at this
  exact of_decide_eq_true (this j (List.mem_range.mpr hj))

/-- Up to 32 MeV/u the X correction lies between 0.95 and 1.33. -/
theorem X_low_bounds (ci : Bool) {p : Projectile ℝ} {n : Int} (hp : p.Ion n) (hn : n ≤ 108) (hA : p.A ≤ 3 * element_atomic_weight n)
    (h32 : p.T ≤ 32) : ∃ X, precalculated_lindhard_X ci p = .ok X ∧ 0.95 ≤ X ∧ X ≤ 1.33 := by
  rcases lt_or_ge p.T 1 with h1 | h1
  · exact ⟨1, X_low ci p n hp (by rw [ls_first]; exact h1), by norm_num, by norm_num⟩
  have hb := ls_energy_table_bounds
  have mono := fun i j => EnergyTable.val_le_iff (ls_energy_table : EnergyTable ℝ) hb.1 hb.2.1 i j
  have hw := atomic_weight_pos n hp.pos (by omega)
  have h43 := ls_val_mid.2.2
  have h199 := (mono 43 199).mpr (by norm_num)
  have ew : (10 : ℝ) * 2⁻¹ ^ 52 ≤ 1e-12 := by norm_num
  norm_num at h43 ew
  obtain ⟨i, θ, s, r, hr, -, -, t0, -, t1, hs, b0, -, -, c, hc, hX⟩ := lindhard_X_line ci hp hn h1 (by linarith) (.inl (by norm_num; linarith))
  refine ⟨_, hX, ?_⟩
  have hi : i < 43 := by
    by_contra hge
    have := (mono 43 i).mpr (by omega)
    norm_num at b0
    linarith
  have hs0 : -20 ≤ s ∧ s ≤ 40 := by
    rw [hs]
    have h2 : -1 ≤ (p.A - element_atomic_weight n) / element_atomic_weight n := by
      rw [le_div_iff₀ hw]; linarith [hp.A]
    have h3 : (p.A - element_atomic_weight n) / element_atomic_weight n ≤ 2 := by
      rw [div_le_iff₀ hw]; linarith
    constructor <;> linarith
  have bound : ∀ j < 44, 0.96 ≤ c j ∧ c j ≤ 1.32 := by
    intro j hj
    obtain ⟨g1, g2, g3, g4⟩ := xTables_low r hr j hj
    rw [hc j]
    generalize lsField (ls_X_coefficients_a[r]'(by rw [ls_lengths.2.2.1]; exact hr)) j = a at *
    generalize lsField (ls_X_coefficients_ahi[r]'(by rw [ls_lengths.2.2.2]; exact hr)) j = h at *
    have r1 : (96000000000 : ℝ) ≤ a - 20 * (h - a) := by exact_mod_cast g1
    have r2 : (96000000000 : ℝ) ≤ a + 40 * (h - a) := by exact_mod_cast g2
    have r3 : (a : ℝ) - 20 * (h - a) ≤ 132000000000 := by exact_mod_cast g3
    have r4 : (a : ℝ) + 40 * (h - a) ≤ 132000000000 := by exact_mod_cast g4
    obtain ⟨l, hl0, hl1, hl⟩ : ∃ l : ℝ, 0 ≤ l ∧ l ≤ 1 ∧ s = (1 - l) * (-20) + l * 40 :=
      ⟨(s + 20) / 60, by linarith, by linarith, by ring⟩
    rw [le_div_iff₀ (by positivity), div_le_iff₀ (by positivity), hl]
    constructor <;> norm_num <;> nlinarith
  obtain ⟨p1, p2⟩ := bound i (by omega)
  obtain ⟨q1, q2⟩ := bound (i + 1) (by omega)
  norm_num at p1 p2 q1 q2 t0 ⊢
  constructor <;> nlinarith

/-- The correction of calculations.cpp:624-628 is at most 1.51. -/
theorem omega_correction_bound (tz b2 : ℝ) (htz : 1 ≤ tz) (hb : 0 < b2) :
    24.89 * tz ^ (1.2324 : ℝ) / (electron_mass * 1.0e6 * b2) * Real.log (2.0 * electron_mass * 1.0e6 * b2 / (33.05 * tz ^ (1.6364 : ℝ))) ≤ 1.51 := by
  have hm : (0 : ℝ) < electron_mass := by norm_num [electron_mass]
  have h1 : tz ^ (1.2324 : ℝ) ≤ tz ^ (1.6364 : ℝ) := Real.rpow_le_rpow_of_exponent_le htz (by norm_num)
  have h0 : 0 < tz ^ (1.2324 : ℝ) := Real.rpow_pos_of_pos (by linarith) _
  have h0' : 0 < tz ^ (1.6364 : ℝ) := Real.rpow_pos_of_pos (by linarith) _
  generalize tz ^ (1.2324 : ℝ) = u at *
  generalize tz ^ (1.6364 : ℝ) = v at *
  have hy : 0 < electron_mass * 1.0e6 * b2 := by positivity
  have e0 : 2.0 * (electron_mass : ℝ) * 1.0e6 * b2 = 2 * (electron_mass * 1.0e6 * b2) := by
    rw [show (2.0 : ℝ) = 2 by norm_num, mul_assoc, mul_assoc, mul_assoc]
  rw [e0]
  generalize (electron_mass : ℝ) * 1.0e6 * b2 = y at *
  rw [show (24.89 : ℝ) = 2489 / 100 by norm_num, show (33.05 : ℝ) = 3305 / 100 by norm_num, show (1.51 : ℝ) = 151 / 100 by norm_num]
  have hx : 0 < 2 * y / ((3305 / 100) * v) := by positivity
  have hl := Real.log_le_sub_one_of_pos hx
  have hk : 0 < (2489 / 100) * u / y := by positivity
  have e : (2489 / 100) * u / y * (2 * y / ((3305 / 100) * v)) = (2489 / 100) * 2 / (3305 / 100) * (u / v) := by
    rw [div_mul_div_comm, div_mul_div_comm, div_eq_div_iff (by positivity) (by positivity)]
    ring
  have hq : u / v ≤ 1 := (div_le_one h0').mpr h1
  have := mul_le_mul_of_nonneg_left (show Real.log (2 * y / ((3305 / 100) * v)) ≤ 2 * y / ((3305 / 100) * v) by linarith) hk.le
  rw [e] at this
  refine this.trans ?_
  have h2 : ((2489 / 100) * 2 / (3305 / 100) : ℝ) ≤ 151 / 100 := by norm_num
  have h3 := mul_le_mul h2 hq (by positivity) (by norm_num)
  linarith

/-- The square of one charge times the other. -/
theorem charge_product (a b : ℝ) (ha : 0 ≤ a) (hb : 0 ≤ b) (h : a + b ≤ 228) (hp : 0 < a + b) :
    a ^ 2 * b ≤ 0.9053 * (a + b) ^ ((8 : ℝ) / 3) := by
  have h1 : a ^ 2 * b ≤ 4 / 27 * (a + b) ^ 3 := by nlinarith [mul_nonneg ha hb, sq_nonneg (a - 2 * b), mul_nonneg (add_nonneg ha hb) (sq_nonneg (a - 2 * b)), mul_nonneg ha (sq_nonneg (a - 2 * b)), mul_nonneg hb (sq_nonneg (a - 2 * b))]
  have h2 : (a + b) ^ ((1 : ℝ) / 3) ≤ 6.1102 := by
    have : (6.1102 : ℝ) = (6.1102 ^ (3 : ℝ)) ^ ((1 : ℝ) / 3) := by
      rw [← Real.rpow_mul (by norm_num)]; norm_num
    rw [this]
    apply Real.rpow_le_rpow hp.le _ (by norm_num)
    norm_num
    linarith
  have h3 : (a + b) ^ 3 = (a + b) ^ ((8 : ℝ) / 3) * (a + b) ^ ((1 : ℝ) / 3) := by
    rw [← Real.rpow_add hp]
    norm_num
  have h4 : 0 < (a + b) ^ ((8 : ℝ) / 3) := Real.rpow_pos_of_pos hp _
  rw [h3] at h1
  have := mul_le_mul_of_nonneg_left h2 h4.le
  norm_num at this h1 ⊢
  linarith

/-- From 2.5 MeV/u on the limit of Firsov exceeds the formula it limits. -/
theorem firsov_above (z1 q tz A T X cor : ℝ) (hq0 : 0 ≤ q) (hq : q ≤ z1) (hz1 : 1 ≤ z1) (hz2 : z1 ≤ 108) (ht1 : 1 ≤ tz) (ht2 : tz ≤ 120) (hA : 0 < A)
    (hT : 2.5 ≤ T) (hT2 : T ≤ 30) (hX0 : 0 ≤ X) (hX : X ≤ 1.33) (hc0 : 0 ≤ cor) (hc : cor ≤ 1.51) :
    domega2dx_constant * q ^ 2 * tz / A * (X * (gamma_from_T T * gamma_from_T T) + cor) ≤ energy_straggling_firsov z1 T tz A := by
  have hg : gamma_from_T T = 1 + T / 931.4940954 := by unfold gamma_from_T atomic_mass_unit; norm_num
  have g1 : 1.00268 ≤ gamma_from_T T := by
    rw [hg]
    have : (0.00268 : ℝ) ≤ T / 931.4940954 := by rw [le_div_iff₀ (by norm_num)]; norm_num at hT ⊢; linarith
    norm_num at this ⊢
    linarith
  have g2 : gamma_from_T T ≤ 1.03221 := by
    rw [hg]
    have : T / 931.4940954 ≤ (0.03221 : ℝ) := by rw [div_le_iff₀ (by norm_num)]; norm_num at hT2 ⊢; linarith
    norm_num at this ⊢
    linarith
  unfold energy_straggling_firsov
  dsimp only
  rw [pow_real]
  generalize gamma_from_T T = g at *
  have gg : g * g ≤ 1.0655 := by norm_num at g1 g2 ⊢; nlinarith
  have gg1 : 1.0053 ≤ g * g := by norm_num at g1 g2 ⊢; nlinarith
  have hb2 : 0.00527 ≤ 1.0 - 1.0 / (g * g) := by
    have : 1.0 / (g * g) ≤ 1.0 / 1.0053 := div_le_div_of_nonneg_left (by norm_num) (by norm_num) gg1
    norm_num at this ⊢
    linarith
  generalize 1.0 - 1.0 / (g * g) = b2 at *
  have hprod := charge_product z1 tz (by linarith) (by linarith) (by linarith) (by linarith)
  have e83 : (8.0 / 3.0 : ℝ) = 8 / 3 := by norm_num
  rw [e83]
  have hP : 0 < (z1 + tz) ^ ((8 : ℝ) / 3) := Real.rpow_pos_of_pos (by linarith) _
  generalize (z1 + tz) ^ ((8 : ℝ) / 3) = P at *
  have hd : (domega2dx_constant : ℝ) ≤ 0.15692 := by norm_num [domega2dx_constant, dedx_constant, electron_mass]
  have hd0 : (0 : ℝ) < domega2dx_constant := by norm_num [domega2dx_constant, dedx_constant, electron_mass]
  have hfs : (18778 : ℝ) ≤ 1 / fine_structure / fine_structure := by norm_num [fine_structure]
  have hsum : X * (g * g) + cor ≤ 2.93 := by norm_num at *; nlinarith
  have hsum0 : 0 ≤ X * (g * g) + cor := by positivity
  generalize X * (g * g) + cor = S at *
  have hqq : q ^ 2 * tz ≤ 0.9053 * P := by
    have : q ^ 2 ≤ z1 ^ 2 := by gcongr
    have := mul_le_mul_of_nonneg_right this (show 0 ≤ tz by linarith)
    linarith
  have hL : domega2dx_constant * q ^ 2 * tz / A * S ≤ 0.15692 * (0.9053 * P) / A * 2.93 := by
    have e : domega2dx_constant * q ^ 2 * tz / A * S = domega2dx_constant * (q ^ 2 * tz) / A * S := by ring
    rw [e]
    have : 0 ≤ q ^ 2 * tz := by positivity
    gcongr
  have hR : 4.8184e-3 * P / A * 0.00527 * 18778 ≤ 4.8184e-3 * P / A * b2 / fine_structure / fine_structure := by
    have e : 4.8184e-3 * P / A * b2 / fine_structure / fine_structure = 4.8184e-3 * P / A * b2 * (1 / fine_structure / fine_structure) := by ring
    rw [e]
    have : 0 ≤ b2 := by norm_num at hb2; linarith
    gcongr
  refine hL.trans (le_trans ?_ hR)
  have hx : 0 < P / A := div_pos hP hA
  have e1 : 0.15692 * (0.9053 * P) / A * 2.93 = (0.15692 * 0.9053 * 2.93) * (P / A) := by ring
  have e2 : 4.8184e-3 * P / A * 0.00527 * 18778 = (4.8184e-3 * 0.00527 * 18778) * (P / A) := by ring
  rw [e1, e2]
  exact mul_le_mul_of_nonneg_right (by norm_num) hx.le

/-- The correction of calculations.cpp:624-628. -/
noncomputable def omegaCor (c : Config ℝ) (tz b2 : ℝ) : ℝ :=
  if c.calculation = 0 then max (24.89 * tz ^ (1.2324 : ℝ) / (electron_mass * 1.0e6 * b2) *
    Real.log (2.0 * electron_mass * 1.0e6 * b2 / (33.05 * tz ^ (1.6364 : ℝ)))) 0 else 0

theorem omegaCor_bounds (c : Config ℝ) (tz b2 : ℝ) (htz : 1 ≤ tz) (hb : 0 < b2) : 0 ≤ omegaCor c tz b2 ∧ omegaCor c tz b2 ≤ 1.51 := by
  unfold omegaCor
  split
  · exact ⟨le_max_right _ _, max_le (omega_correction_bound tz b2 htz hb) (by norm_num)⟩
  · norm_num

/-- What `dedx_variance` computes. -/
theorem variance_formula (env : Env ℝ) (p : Projectile ℝ) (t : Target ℝ) (c : Config ℝ) (q X : ℝ)
    (hq : z_effective env.debug p t c = .ok q) (hX : precalculated_lindhard_X env.calcIndex p = .ok X) :
    dedx_variance env p t c = .ok (if p.T < 30 then
      min (domega2dx_constant * q ^ 2 * t.Z / t.A * (X * (gamma_from_T p.T * gamma_from_T p.T) + omegaCor c t.Z (beta_from_T p.T * beta_from_T p.T)))
        (energy_straggling_firsov p.Z p.T t.Z t.A)
      else domega2dx_constant * q ^ 2 * t.Z / t.A *
        (X * (gamma_from_T p.T * gamma_from_T p.T) + omegaCor c t.Z (beta_from_T p.T * beta_from_T p.T))) := by
  unfold dedx_variance
  rw [hq, hX]
  dsimp only
  simp only [bind_ok]
  have e2 : ipow q 2 = q ^ 2 := by rw [pow_two]; rfl
  have ec : (if c.calculation = 0 then smax (24.89 * Scalar.pow (ofInt t.Z : ℝ) 1.2324 / (electron_mass * 1.0e6 * (beta_from_T p.T * beta_from_T p.T)) *
        Scalar.log (2.0 * electron_mass * 1.0e6 * (beta_from_T p.T * beta_from_T p.T) / (33.05 * Scalar.pow (ofInt t.Z : ℝ) 1.6364))) 0.0 else 0.0)
      = omegaCor c t.Z (beta_from_T p.T * beta_from_T p.T) := by
    unfold omegaCor
    rw [smax_real, pow_real, pow_real, ofInt_real, show (0.0 : ℝ) = 0 by norm_num]
    rfl
  rw [ec, e2, ofInt_real]
  by_cases h : p.T < 30
  · rw [if_pos (by rw [lt_real]; norm_num; exact h), if_pos h, smin_real]
    rfl
  · rw [if_neg (by rw [lt_real]; norm_num; linarith), if_neg h]
    rfl

/-- The effective charge of the options none and Pierce-Blann as a function of the energy. -/
theorem charge_function {p : Projectile ℝ} {n : Int} {m : Material ℝ} {c : Config ℝ} (h : Computable p n m c) (hQ : c.z_effective = 0 → p.Q ≤ p.Z)
    (debug : Bool) : ∃ q : ℝ → ℝ, (∀ T t, z_effective debug (p.withT T) t c = .ok (q T)) ∧ (∀ T, 0 < T → 0 ≤ q T ∧ q T ≤ p.Z) ∧
      ∀ x, 0 < x → ContinuousAt q x := by
  rcases h.charge with hq | ⟨hq, hq'⟩
  · refine ⟨fun T => z_eff_Pierce_Blann p.Z (beta_from_T T), fun T t => (z_effective_basic debug (p.withT T) t c).2 hq, fun T hT => ?_, fun x x0 => ?_⟩
    · have := pierce_blann_bounds p.Z _ h.posZ (gamma_beta_bounds T hT).2.1.le
      exact ⟨this.1, this.2.le⟩
    · exact (pierce_continuous p.Z).continuousAt.comp (f := fun T : ℝ => beta_from_T T) (beta_continuousOn.continuousAt (Ioi_mem_nhds x0))
  · exact ⟨fun _ => p.Q, fun T t => (z_effective_basic debug (p.withT T) t c).1 hq, fun _ _ => ⟨hq', hQ hq⟩, fun _ _ => continuousAt_const⟩

theorem omegaCor_continuous (c : Config ℝ) (tz : ℝ) (htz : 1 ≤ tz) (b2 : ℝ → ℝ) (x : ℝ) (hc : ContinuousAt b2 x) (hb : 0 < b2 x) :
    ContinuousAt (fun T => omegaCor c tz (b2 T)) x := by
  unfold omegaCor
  have hm : (0 : ℝ) < electron_mass := by norm_num [electron_mass]
  have h0 : 0 < tz ^ (1.2324 : ℝ) := Real.rpow_pos_of_pos (by linarith) _
  have h0' : 0 < tz ^ (1.6364 : ℝ) := Real.rpow_pos_of_pos (by linarith) _
  split
  · refine (continuous_id.max continuous_const).continuousAt.comp ?_
    refine ContinuousAt.mul (continuousAt_const.div (continuousAt_const.mul hc) (mul_pos (mul_pos hm (by norm_num)) hb).ne') ?_
    exact ((continuousAt_const.mul hc).div_const _).log
      (div_pos (mul_pos (mul_pos (mul_pos (by norm_num) hm) (by norm_num)) hb) (mul_pos (by norm_num) h0')).ne'
  · exact continuousAt_const

/-- C139, what holds: off 1 MeV/u and the points of the table of the X correction the energy-loss variance has no jump. -/
theorem straggling_no_jump_partial (env : Env ℝ) {p : Projectile ℝ} {n : Int} {m : Material ℝ} {c : Config ℝ} (h : Computable p n m c)
    (hA : p.A ≤ 3 * element_atomic_weight n) (hQ : c.z_effective = 0 → p.Q ≤ p.Z) (x : ℝ) (x0 : 0 < x) (x1 : x ≠ 1)
    (hoff : 1 < x → ∀ k < 200, x < (ls_energy_table : EnergyTable ℝ).val k - 10 * 2⁻¹ ^ 52 ∨ (ls_energy_table : EnergyTable ℝ).val k < x) :
    ∃ D : ℝ → ℝ, (∀ᶠ T in 𝓝 x, domega2dx env (p.withT T) m c = .ok (D T)) ∧ ContinuousAt D x := by
  refine NoJump.sum (f := fun T t => dedx_variance env (p.withT T) t c) fun t ht => ?_
  have tZ : (1 : ℝ) ≤ t.Z := by exact_mod_cast h.sound.Z t ht
  have tZ' : (t.Z : ℝ) ≤ 120 := by exact_mod_cast h.known t ht
  have tA := h.sound.A t ht
  have pZ : 1 ≤ p.Z := by rw [h.ion.Z]; exact_mod_cast h.ion.pos
  have pZ' : p.Z ≤ 108 := by rw [h.ion.Z]; exact_mod_cast h.small
  obtain ⟨q, hq, hqb, cq⟩ := charge_function h hQ env.debug
  obtain ⟨X, hX, cX⟩ : NoJump (fun T => precalculated_lindhard_X env.calcIndex (p.withT T)) x := by
    rcases lt_or_gt_of_ne x1 with hx | hx
    · refine ⟨fun _ => 1, ?_, continuousAt_const⟩
      filter_upwards [gt_mem_nhds hx] with T hT
      exact X_low env.calcIndex (p.withT T) n (withT_ion h.ion T) (by rw [ls_first]; exact hT)
    · exact lindhard_X_no_jump env.calcIndex h.ion h.small x hx (hoff hx)
  have cb : ContinuousAt (fun T : ℝ => beta_from_T T) x := beta_continuousOn.continuousAt (Ioi_mem_nhds x0)
  have b0 := (gamma_beta_bounds x x0).2.1
  have cg : Continuous (gamma_from_T : ℝ → ℝ) := by unfold gamma_from_T; fun_prop
  have cform : ContinuousAt (fun T => domega2dx_constant * q T ^ 2 * t.Z / t.A * (X T * (gamma_from_T T * gamma_from_T T) +
      omegaCor c t.Z (beta_from_T T * beta_from_T T))) x := by
    have c1 := cq x x0
    have c2 := omegaCor_continuous c t.Z tZ (fun T => beta_from_T T * beta_from_T T) x (cb.mul cb) (by positivity)
    exact (((continuousAt_const.mul (c1.pow 2)).mul continuousAt_const).div_const _).mul
      ((cX.mul (cg.continuousAt.mul cg.continuousAt)).add c2)
  rcases lt_trichotomy x 30 with hx | hx | hx
  · refine ⟨fun T => min (domega2dx_constant * q T ^ 2 * t.Z / t.A * (X T * (gamma_from_T T * gamma_from_T T) +
      omegaCor c t.Z (beta_from_T T * beta_from_T T))) (energy_straggling_firsov p.Z T t.Z t.A), ?_, (continuous_min.continuousAt).comp (cform.prodMk ?_)⟩
    · filter_upwards [hX, gt_mem_nhds hx] with T h1 h2
      rw [variance_formula env (p.withT T) t c _ _ (hq T t) h1, if_pos (show (p.withT T).T < 30 from h2)]
      rfl
    · have : gamma_from_T x * gamma_from_T x ≠ 0 := by
        have := (gamma_beta_bounds x x0).1
        positivity
      exact (((continuousAt_const.mul (continuousAt_const.sub (continuousAt_const.div (cg.continuousAt.mul cg.continuousAt) this))).div_const _).div_const _)
  · refine ⟨_, ?_, cform⟩
    filter_upwards [hX, lt_mem_nhds (show (2.5 : ℝ) < x by rw [hx]; norm_num), gt_mem_nhds (show x < 32 by rw [hx]; norm_num)] with T h1 h2 h3
    have T0 : 0 < T := by norm_num at h2; linarith
    rw [variance_formula env (p.withT T) t c _ _ (hq T t) h1]
    change Except.ok (if T < 30 then _ else _) = _
    split
    · rename_i h30
      obtain ⟨X', e, l1, l2⟩ := X_low_bounds env.calcIndex (withT_ion h.ion T) h.small hA (show T ≤ 32 by linarith)
      rw [h1] at e
      obtain rfl := Except.ok.inj e
      obtain ⟨o1, o2⟩ := omegaCor_bounds c t.Z (beta_from_T T * beta_from_T T) tZ (by have := (gamma_beta_bounds T T0).2.1; positivity)
      have := firsov_above p.Z (q T) t.Z t.A T (X T) (omegaCor c t.Z (beta_from_T T * beta_from_T T)) (hqb T T0).1 (hqb T T0).2 pZ pZ' tZ tZ' tA h2.le h30.le
        (by norm_num at l1; linarith) l2 o1 o2
      exact congrArg Except.ok (min_eq_left this)
    · rfl
  · refine ⟨_, ?_, cform⟩
    filter_upwards [hX, lt_mem_nhds hx] with T h1 h2
    rw [variance_formula env (p.withT T) t c _ _ (hq T t) h1, if_neg (by show ¬ T < 30; linarith)]
    rfl

/-- 30 MeV/u is not a point of the table of the X correction. -/
theorem thirty_off : ∀ k < 200, (30 : ℝ) < (ls_energy_table : EnergyTable ℝ).val k - 10 * 2⁻¹ ^ 52 ∨ (ls_energy_table : EnergyTable ℝ).val k < 30 := by
  have hb := ls_energy_table_bounds
  have mono := fun i j => EnergyTable.val_le_iff (ls_energy_table : EnergyTable ℝ) hb.1 hb.2.1 i j
  have h41 : (ls_energy_table : EnergyTable ℝ).val 41 < 30 := by
    rw [(ls_val_log 41 30 (by norm_num)).1]
    have e : Real.log 30 = 5 * Real.log 2 - Real.log (32 / 30) := by
      rw [show (30 : ℝ) = 2 ^ 5 / (32 / 30) by norm_num, Real.log_div (by norm_num) (by norm_num), Real.log_pow]; norm_num
    have := Real.log_two_gt_d9
    have h2 := Real.log_le_sub_one_of_pos (show (0 : ℝ) < 32 / 30 by norm_num)
    rw [e]
    norm_num [LN10] at this h2 ⊢
    linarith
  have h42 : 30.001 < (ls_energy_table : EnergyTable ℝ).val 42 := by
    rw [(ls_val_log 42 30.001 (by norm_num)).2]
    have e : Real.log 30.001 = Real.log 2 + Real.log 3 + Real.log 5 + Real.log (30.001 / 30) := by
      rw [← Real.log_mul (by norm_num) (by norm_num), ← Real.log_mul (by norm_num) (by norm_num), ← Real.log_mul (by norm_num) (by norm_num)]
      norm_num
    have l2 := Real.log_two_lt_d9
    have h2 := Real.log_le_sub_one_of_pos (show (0 : ℝ) < 30.001 / 30 by norm_num)
    have e3 : 12 * Real.log 3 = 19 * Real.log 2 + Real.log (531441 / 524288) := by
      have : (3 : ℝ) ^ 12 = 2 ^ 19 * (531441 / 524288) := by norm_num
      have := congrArg Real.log this
      rw [Real.log_pow, Real.log_mul (by norm_num) (by norm_num), Real.log_pow] at this
      exact_mod_cast this
    have e5 : 3 * Real.log 5 = 7 * Real.log 2 + Real.log (125 / 128) := by
      have : (5 : ℝ) ^ 3 = 2 ^ 7 * (125 / 128) := by norm_num
      have := congrArg Real.log this
      rw [Real.log_pow, Real.log_mul (by norm_num) (by norm_num), Real.log_pow] at this
      exact_mod_cast this
    have h3 := Real.log_le_sub_one_of_pos (show (0 : ℝ) < 531441 / 524288 by norm_num)
    have h5 := Real.log_le_sub_one_of_pos (show (0 : ℝ) < 125 / 128 by norm_num)
    rw [e]
    norm_num [LN10] at l2 h2 h3 h5 ⊢
    linarith
  intro k _
  rcases Nat.lt_or_ge k 42 with hk | hk
  · right
    exact ((mono k 41).mpr (by omega)).trans_lt h41
  · left
    have := (mono 42 k).mpr hk
    norm_num at h42 ⊢
    linarith

/-- C139: the limit of Firsov ends at 30 MeV/u without a jump. -/
theorem firsov_ends_smoothly (env : Env ℝ) {p : Projectile ℝ} {n : Int} {m : Material ℝ} {c : Config ℝ} (h : Computable p n m c)
    (hA : p.A ≤ 3 * element_atomic_weight n) (hQ : c.z_effective = 0 → p.Q ≤ p.Z) :
    ∃ D : ℝ → ℝ, (∀ᶠ T in 𝓝 30, domega2dx env (p.withT T) m c = .ok (D T)) ∧ ContinuousAt D 30 :=
  straggling_no_jump_partial env h hA hQ 30 (by norm_num) (by norm_num) fun _ => thirty_off

/-- C139: between 2.5 and 32 MeV/u the variance is that of Bohr for the relativistic electron, within -5 % and +33 %: the limit of Firsov is not reached. -/
theorem bohr_straggling (env : Env ℝ) {p : Projectile ℝ} {n : Int} {m : Material ℝ} {c : Config ℝ} (h : Computable p n m c)
    (hA : p.A ≤ 3 * element_atomic_weight n) (hQ : c.z_effective = 0 → p.Q ≤ p.Z) (hc : c.calculation ≠ 0) (hT : 2.5 ≤ p.T) (hT2 : p.T ≤ 32)
    (q : ℝ) (hq : ∀ t, z_effective env.debug p t c = .ok q) :
    ∃ X, 0.95 ≤ X ∧ X ≤ 1.33 ∧ domega2dx env p m c =
      .ok (X * (1 + p.T / 931.4940954) ^ 2 * (0.3070749187 * electron_mass * q ^ 2 * (m.atoms.map fun t => m.wfrac t * (t.Z / t.A)).sum)) := by
  obtain ⟨X, hX, l1, l2⟩ := X_low_bounds env.calcIndex h.ion h.small hA hT2
  have T0 : 0 < p.T := by norm_num at hT; linarith
  have pZ : 1 ≤ p.Z := by rw [h.ion.Z]; exact_mod_cast h.ion.pos
  have pZ' : p.Z ≤ 108 := by rw [h.ion.Z]; exact_mod_cast h.small
  have hg : gamma_from_T p.T = 1 + p.T / 931.4940954 := by unfold gamma_from_T atomic_mass_unit; norm_num
  have ec : ∀ tz b2, omegaCor c tz b2 = 0 := fun tz b2 => by unfold omegaCor; rw [if_neg hc]
  refine ⟨X, l1, l2, ?_⟩
  obtain ⟨q', hq', hqb, -⟩ := charge_function h hQ env.debug
  have qb := hqb p.T T0
  have comp : ∀ t ∈ m.atoms, dedx_variance env p t c =
      .ok (X * (1 + p.T / 931.4940954) ^ 2 * (0.3070749187 * electron_mass * q ^ 2) * (t.Z / t.A)) := by
    intro t ht
    have tZ : (1 : ℝ) ≤ t.Z := by exact_mod_cast h.sound.Z t ht
    have tZ' : (t.Z : ℝ) ≤ 120 := by exact_mod_cast h.known t ht
    have tA := h.sound.A t ht
    have e : q' p.T = q := by
      have h1 := hq' p.T t
      have h2 := hq t
      change z_effective env.debug p t c = _ at h1
      rw [h1] at h2
      exact Except.ok.inj h2
    rw [e] at qb
    have hval : domega2dx_constant * q ^ 2 * t.Z / t.A * (X * (gamma_from_T p.T * gamma_from_T p.T) + 0) =
        X * (1 + p.T / 931.4940954) ^ 2 * (0.3070749187 * electron_mass * q ^ 2) * (t.Z / t.A) := by
      rw [hg]
      unfold domega2dx_constant dedx_constant
      ring
    rw [variance_formula env p t c q X (hq t) hX, ec]
    split
    · rename_i h30
      have := firsov_above p.Z q t.Z t.A p.T X 0 qb.1 qb.2 pZ pZ' tZ tZ' tA hT h30.le
        (by norm_num at l1; linarith) l2 le_rfl (by norm_num)
      rw [min_eq_left this, hval]
    · rw [hval]
  have := componentSum_ok m (fun t => dedx_variance env p t c) _ comp
  refine this.trans (congrArg Except.ok ?_)
  rw [← List.sum_map_mul_left, ← List.sum_map_mul_left]
  exact congrArg List.sum (List.map_congr_left fun t _ => by ring)

/-! ## The jump at 1 MeV/u -/

theorem xTables_first : lsField (ls_X_coefficients_a[0]'(by rw [ls_lengths.2.2.1]; norm_num)) 0 = 99918200000 ∧
    lsField (ls_X_coefficients_ahi[0]'(by rw [ls_lengths.2.2.2]; norm_num)) 0 = 99918200000 := by decide +kernel

/-- At 1 MeV/u the X correction of hydrogen ions is 0.999182. -/
theorem X_hydrogen_one (ci : Bool) {p : Projectile ℝ} (hp : p.Ion 1) (hT : p.T = 1) : precalculated_lindhard_X ci p = .ok 0.999182 := by
  have hb := ls_energy_table_bounds
  have mono := fun i j => EnergyTable.val_le_iff (ls_energy_table : EnergyTable ℝ) hb.1 hb.2.1 i j
  have gap := ls_gap 0
  have h199 := (mono 1 199).mpr (by norm_num)
  have ew : (10 : ℝ) * 2⁻¹ ^ 52 ≤ 1e-12 := by norm_num
  rw [ls_first] at gap
  norm_num at gap ew
  obtain ⟨i, θ, s, r, hr, hr1, -, -, -, -, -, b0, b1, hθ, c, hc, hX⟩ := lindhard_X_line ci hp (by norm_num) hT.ge (by rw [hT]; linarith)
    (.inl (by rw [hT]; norm_num; linarith))
  rw [hT] at b0 b1 hθ
  obtain rfl : i = 0 := by
    by_contra hi
    have := (mono 1 i).mpr (by omega)
    norm_num at b0
    linarith
  obtain rfl : r = 0 := by omega
  have hθ0 : θ = 0 := by
    rw [ls_first, sub_self] at hθ
    rcases mul_eq_zero.mp hθ.symm with h | h
    · exact h
    · exfalso
      rw [show (0 + 1 : ℕ) = 1 from rfl] at h
      linarith
  rw [hX, hθ0, hc 0]
  have e1 : lsField (ls_X_coefficients_a[0]'(by rw [ls_lengths.2.2.1]; exact hr)) 0 = 99918200000 := xTables_first.1
  have e2 : lsField (ls_X_coefficients_ahi[0]'(by rw [ls_lengths.2.2.2]; exact hr)) 0 = 99918200000 := xTables_first.2
  rw [e1, e2]
  norm_num

/-- Around 1 MeV/u the limit of Firsov is not reached by hydrogen ions. -/
theorem firsov_hydrogen (q tz A T S : ℝ) (hq0 : 0 ≤ q) (hq : q ≤ 1) (ht1 : 1 ≤ tz) (hA : 0 < A) (hT : 0.9 ≤ T) (hT2 : T ≤ 1)
    (hS0 : 0 ≤ S) (hS : S ≤ 1) : domega2dx_constant * q ^ 2 * tz / A * (S * (gamma_from_T T * gamma_from_T T) + 0) ≤ energy_straggling_firsov 1 T tz A := by
  have hg : gamma_from_T T = 1 + T / 931.4940954 := by unfold gamma_from_T atomic_mass_unit; norm_num
  have g1 : 1.000966 ≤ gamma_from_T T := by
    rw [hg]
    have : (0.000966 : ℝ) ≤ T / 931.4940954 := by rw [le_div_iff₀ (by norm_num)]; norm_num at hT ⊢; linarith
    norm_num at this ⊢
    linarith
  have g2 : gamma_from_T T ≤ 1.0011 := by
    rw [hg]
    have : T / 931.4940954 ≤ (0.0011 : ℝ) := by rw [div_le_iff₀ (by norm_num)]; norm_num at hT2 ⊢; linarith
    norm_num at this ⊢
    linarith
  unfold energy_straggling_firsov
  dsimp only
  rw [pow_real]
  generalize gamma_from_T T = g at *
  have gg : g * g ≤ 1.003 := by norm_num at g1 g2 ⊢; nlinarith
  have gg1 : 1.0019 ≤ g * g := by norm_num at g1 g2 ⊢; nlinarith
  have hb2 : 0.00189 ≤ 1.0 - 1.0 / (g * g) := by
    have : 1.0 / (g * g) ≤ 1.0 / 1.0019 := div_le_div_of_nonneg_left (by norm_num) (by norm_num) gg1
    norm_num at this ⊢
    linarith
  generalize 1.0 - 1.0 / (g * g) = b2 at *
  have hP : 4 * tz ≤ (1 + tz) ^ (8.0 / 3.0 : ℝ) := by
    have h1 : (1 + tz) ^ (2 : ℝ) ≤ (1 + tz) ^ (8.0 / 3.0 : ℝ) := Real.rpow_le_rpow_of_exponent_le (by linarith) (by norm_num)
    have h2 : (1 + tz) ^ (2 : ℝ) = (1 + tz) ^ 2 := by norm_cast
    rw [h2] at h1
    nlinarith [sq_nonneg (1 - tz)]
  generalize (1 + tz) ^ (8.0 / 3.0 : ℝ) = P at *
  have hd : (domega2dx_constant : ℝ) ≤ 0.15692 := by norm_num [domega2dx_constant, dedx_constant, electron_mass]
  have hd0 : (0 : ℝ) < domega2dx_constant := by norm_num [domega2dx_constant, dedx_constant, electron_mass]
  have hfs : (18778 : ℝ) ≤ 1 / fine_structure / fine_structure := by norm_num [fine_structure]
  have hsum : S * (g * g) + 0 ≤ 1.003 := by norm_num at *; nlinarith
  have hsum0 : 0 ≤ S * (g * g) + 0 := by positivity
  generalize S * (g * g) + 0 = S' at *
  have hqq : q ^ 2 ≤ 1 := by nlinarith
  have hL : domega2dx_constant * q ^ 2 * tz / A * S' ≤ 0.15692 * 1 * tz / A * 1.003 := by gcongr
  have hR : 4.8184e-3 * (4 * tz) / A * 0.00189 * 18778 ≤ 4.8184e-3 * P / A * b2 / fine_structure / fine_structure := by
    have e : 4.8184e-3 * P / A * b2 / fine_structure / fine_structure = 4.8184e-3 * P / A * b2 * (1 / fine_structure / fine_structure) := by ring
    rw [e]
    have : 0 ≤ b2 := by norm_num at hb2; linarith
    have : 0 ≤ P := by linarith
    gcongr
  refine hL.trans (le_trans ?_ hR)
  have hx : 0 < tz / A := div_pos (by linarith) hA
  have e1 : 0.15692 * 1 * tz / A * 1.003 = (0.15692 * 1.003) * (tz / A) := by ring
  have e2 : 4.8184e-3 * (4 * tz) / A * 0.00189 * 18778 = (4.8184e-3 * 4 * 0.00189 * 18778) * (tz / A) := by ring
  rw [e1, e2]
  exact mul_le_mul_of_nonneg_right (by norm_num) hx.le

/-- C139 refuted at 1 MeV/u: the energy-loss variance of hydrogen ions drops there by the factor 0.999182 in every material. -/
theorem straggling_jumps_wrong (env : Env ℝ) {p : Projectile ℝ} {m : Material ℝ} {c : Config ℝ} (h : Computable p 1 m c)
    (hQ : c.z_effective = 0 → 0 < p.Q ∧ p.Q ≤ 1) (hc : c.calculation ≠ 0) :
    ∃ (D : ℝ → ℝ) (v : ℝ), (∀ T, 0.9 ≤ T → T < 1 → domega2dx env (p.withT T) m c = .ok (D T)) ∧
      domega2dx env (p.withT 1) m c = .ok v ∧ 0 < v ∧ Tendsto D (𝓝[<] 1) (𝓝 (v / 0.999182)) := by
  have pZ : p.Z = 1 := by rw [h.ion.Z]; norm_num
  obtain ⟨q, hq, hqb, cq⟩ := charge_function h (fun h0 => by rw [pZ]; exact (hQ h0).2) env.debug
  have hq1 : 0 < q 1 := by
    rcases h.charge with h1 | ⟨h1, -⟩
    · have e := hq 1 ⟨1, 1, 1⟩
      rw [(z_effective_basic env.debug (p.withT 1) ⟨1, 1, 1⟩ c).2 h1] at e
      have e' := Except.ok.inj e
      rw [← e']
      have b0 := (gamma_beta_bounds 1 one_pos).2.1
      show 0 < z_eff_Pierce_Blann p.Z (beta_from_T 1)
      rw [pierce_blann_eq, pZ, one_mul, sub_pos, Real.exp_lt_one_iff]
      have := pierce_rate_pos 1 one_pos
      rw [neg_lt_zero]
      positivity
    · have e := hq 1 ⟨1, 1, 1⟩
      rw [(z_effective_basic env.debug (p.withT 1) ⟨1, 1, 1⟩ c).1 h1] at e
      rw [← Except.ok.inj e]
      exact (hQ h1).1
  have ec : ∀ tz b2, omegaCor c tz b2 = 0 := fun tz b2 => by unfold omegaCor; rw [if_neg hc]
  have hd0 : (0 : ℝ) < domega2dx_constant := by norm_num [domega2dx_constant, dedx_constant, electron_mass]
  have comp : ∀ T X, 0.9 ≤ T → T ≤ 1 → 0 ≤ X → X ≤ 1 → precalculated_lindhard_X env.calcIndex (p.withT T) = .ok X →
      domega2dx env (p.withT T) m c = .ok (X * (m.atoms.map fun t => m.wfrac t * (domega2dx_constant * q T ^ 2 * t.Z / t.A *
        (gamma_from_T T * gamma_from_T T))).sum) := by
    intro T X t0 t1 x0 x1 hX
    have T0 : 0 < T := by norm_num at t0; linarith
    have qb := hqb T T0
    rw [pZ] at qb
    have : ∀ t ∈ m.atoms, dedx_variance env (p.withT T) t c = .ok (X * (domega2dx_constant * q T ^ 2 * t.Z / t.A *
        (gamma_from_T T * gamma_from_T T))) := by
      intro t ht
      have tZ : (1 : ℝ) ≤ t.Z := by exact_mod_cast h.sound.Z t ht
      rw [variance_formula env (p.withT T) t c _ X (hq T t) hX, ec, if_pos (show (p.withT T).T < 30 by show T < 30; linarith)]
      change Except.ok (min (domega2dx_constant * q T ^ 2 * t.Z / t.A * (X * (gamma_from_T T * gamma_from_T T) + 0))
        (energy_straggling_firsov p.Z T t.Z t.A)) = _
      rw [pZ, min_eq_left (firsov_hydrogen (q T) t.Z t.A T X qb.1 qb.2 tZ (h.sound.A t ht) t0 t1 x0 x1)]
      exact congrArg Except.ok (by ring)
    refine (componentSum_ok m (fun t => dedx_variance env (p.withT T) t c) _ this).trans (congrArg Except.ok ?_)
    rw [← List.sum_map_mul_left]
    exact congrArg List.sum (List.map_congr_left fun t _ => by ring)
  have cg : Continuous (gamma_from_T : ℝ → ℝ) := by unfold gamma_from_T; fun_prop
  have g1 := (gamma_beta_bounds 1 one_pos).1
  refine ⟨fun T => 1 * (m.atoms.map fun t => m.wfrac t * (domega2dx_constant * q T ^ 2 * t.Z / t.A * (gamma_from_T T * gamma_from_T T))).sum, _,
    fun T t0 t1 => comp T 1 t0 t1.le zero_le_one le_rfl (X_low env.calcIndex (p.withT T) 1 (withT_ion h.ion T) (by rw [ls_first]; exact t1)),
    comp 1 0.999182 (by norm_num) le_rfl (by norm_num) (by norm_num) (X_hydrogen_one env.calcIndex (withT_ion h.ion 1) rfl), ?_, ?_⟩
  · refine mul_pos (by norm_num) (List.sum_pos _ ?_ ?_)
    · intro y hy
      obtain ⟨t, ht, rfl⟩ := List.mem_map.mp hy
      have tZ : (1 : ℝ) ≤ t.Z := by exact_mod_cast h.sound.Z t ht
      have tA := h.sound.A t ht
      have := m.wfrac_pos h.sound t ht
      have : (0 : ℝ) < t.Z := by linarith
      positivity
    · simpa using h.sound.nonempty
  · rw [mul_comm (0.999182 : ℝ), mul_div_assoc, div_self (by norm_num), mul_one]
    have : ContinuousAt (fun T => 1 * (m.atoms.map fun t => m.wfrac t * (domega2dx_constant * q T ^ 2 * t.Z / t.A *
        (gamma_from_T T * gamma_from_T T))).sum) 1 := by
      refine continuousAt_const.mul ?_
      generalize m.wfrac = w
      generalize m.atoms = l
      induction l with
      | nil => exact continuousAt_const
      | cons t l ih =>
        simp only [List.map_cons, List.sum_cons]
        exact (continuousAt_const.mul ((((continuousAt_const.mul ((cq 1 one_pos).pow 2)).mul continuousAt_const).div_const _).mul
          (cg.continuousAt.mul cg.continuousAt))).add ih
    have := this.tendsto.mono_left (nhdsWithin_le_nhds (s := Set.Iio 1))
    simpa only [one_mul] using this

/-- Carbon ions and protons in water meet the hypotheses. -/
example (env : Env ℝ) : (∃ D : ℝ → ℝ, (∀ᶠ T in 𝓝 30, domega2dx env (⟨12, 6, 6, T⟩ : Projectile ℝ)
      (⟨1, 0.5, 18.015, 78, [⟨1.00794, 1, 2⟩, ⟨15.9994, 8, 1⟩]⟩ : Material ℝ) Config.default = .ok (D T)) ∧ ContinuousAt D 30) ∧
    ∃ (D : ℝ → ℝ) (v : ℝ), (∀ T, 0.9 ≤ T → T < 1 → domega2dx env (⟨1.00794, 1, 1, T⟩ : Projectile ℝ)
      (⟨1, 0.5, 18.015, 78, [⟨1.00794, 1, 2⟩, ⟨15.9994, 8, 1⟩]⟩ : Material ℝ) Config.default = .ok (D T)) ∧
      domega2dx env (⟨1.00794, 1, 1, 1⟩ : Projectile ℝ)
      (⟨1, 0.5, 18.015, 78, [⟨1.00794, 1, 2⟩, ⟨15.9994, 8, 1⟩]⟩ : Material ℝ) Config.default = .ok v ∧ 0 < v ∧
      Tendsto D (𝓝[<] 1) (𝓝 (v / 0.999182)) := by
  have a := carbon_water 30
  have w6 : (element_atomic_weight 6 : ℝ) = 12.0107 := by
    have : (element_atomic_weight 6 : ℝ) = (Dec.toScalar ⟨120107, 4⟩ : ℝ) := rfl
    rw [this, Dec.toScalar_real]; norm_num
  refine ⟨firsov_ends_smoothly env a.computable (by rw [w6]; norm_num) (fun h => absurd h (by decide)), ?_⟩
  have hp : (⟨1.00794, 1, 1, 1⟩ : Projectile ℝ).Ion 1 := ⟨by norm_num, by norm_num, by norm_num, by norm_num⟩
  exact straggling_jumps_wrong env (p := ⟨1.00794, 1, 1, 1⟩) ⟨hp, by norm_num, a.computable.sound, a.computable.known, Or.inl rfl⟩
    (fun h => absurd h (by decide)) (by decide)

/-- So do carbon ions of 10 MeV/u in water. -/
example (env : Env ℝ) : ∃ q X : ℝ, 0.95 ≤ X ∧ X ≤ 1.33 ∧ domega2dx env (⟨12, 6, 6, 10⟩ : Projectile ℝ)
      (⟨1, 0.5, 18.015, 78, [⟨1.00794, 1, 2⟩, ⟨15.9994, 8, 1⟩]⟩ : Material ℝ) Config.default =
      .ok (X * (1 + 10 / 931.4940954) ^ 2 * (0.3070749187 * electron_mass * q ^ 2 *
        (([⟨1.00794, 1, 2⟩, ⟨15.9994, 8, 1⟩] : List (Target ℝ)).map fun t =>
          (⟨1, 0.5, 18.015, 78, [⟨1.00794, 1, 2⟩, ⟨15.9994, 8, 1⟩]⟩ : Material ℝ).wfrac t * (t.Z / t.A)).sum)) := by
  have a := carbon_water 10
  have w6 : (element_atomic_weight 6 : ℝ) = 12.0107 := by
    have : (element_atomic_weight 6 : ℝ) = (Dec.toScalar ⟨120107, 4⟩ : ℝ) := rfl
    rw [this, Dec.toScalar_real]; norm_num
  exact ⟨_, bohr_straggling env a.computable (by rw [w6]; norm_num) (fun h => absurd h (by decide)) (by decide) (by norm_num) (by norm_num) _
    fun t => (z_effective_basic env.debug _ t Config.default).2 rfl⟩

end Catima
