import Verif.Lemmas.ProtonValue
import Verif.Lemmas.RadiativeStep
import Verif.Lemmas.LindhardSteady
import Verif.Lemmas.BarkasStep
import Verif.Lemmas.DensitySteady

/-!
# Helper lemmas: the low-energy model and the Bethe formula for protons agree within factors between 10 and 32.5 MeV/u
-/

namespace Catima

/-- `beta²` over the energy in keV/u. -/
theorem beta_over_e (x : ℝ) (h0 : 10 ≤ x) (h1 : x ≤ 32.5) : etaSq x / (1 + etaSq x) ≤ 2.1131e-6 * (1000 * x) ∧
    2.0397e-6 * (1000 * x) ≤ etaSq x / (1 + etaSq x) := by
  have e : etaSq x / (1 + etaSq x) = x / 931.4940954 * (1 / (1 + x / 931.4940954) + 1 / (1 + x / 931.4940954) ^ 2) := by
    unfold etaSq
    have : 0 < 1 + x / 931.4940954 := by positivity
    generalize x / 931.4940954 = y at *
    rw [show (1 : ℝ) + ((1 + y) ^ 2 - 1) = (1 + y) ^ 2 by ring]
    field_simp
    ring
  rw [e]
  have y0 : 1.010735 ≤ 1 + x / 931.4940954 := by
    have : (10 : ℝ) / 931.4940954 ≤ x / 931.4940954 := by gcongr
    norm_num at this ⊢; linarith
  have y1 : 1 + x / 931.4940954 ≤ 1.034891 := by
    have : x / 931.4940954 ≤ 32.5 / 931.4940954 := by gcongr
    norm_num at this ⊢; linarith
  have a1 : 1 / (1 + x / 931.4940954) + 1 / (1 + x / 931.4940954) ^ 2 ≤ 1 / 1.010735 + 1 / 1.010735 ^ 2 := by gcongr
  have a0 : 1 / 1.034891 + 1 / 1.034891 ^ 2 ≤ 1 / (1 + x / 931.4940954) + 1 / (1 + x / 931.4940954) ^ 2 := by gcongr
  generalize 1 / (1 + x / 931.4940954) + 1 / (1 + x / 931.4940954) ^ 2 = W at *
  constructor
  · calc x / 931.4940954 * W ≤ x / 931.4940954 * (1 / 1.010735 + 1 / 1.010735 ^ 2) := by gcongr
      _ = x * ((1 / 1.010735 + 1 / 1.010735 ^ 2) / 931.4940954) := by ring
      _ ≤ x * (2.1131e-6 * 1000) := by
        apply mul_le_mul_of_nonneg_left _ (by linarith); norm_num
      _ = _ := by ring
  · calc 2.0397e-6 * (1000 * x) = x * (2.0397e-6 * 1000) := by ring
      _ ≤ x * ((1 / 1.034891 + 1 / 1.034891 ^ 2) / 931.4940954) := by
        apply mul_le_mul_of_nonneg_left _ (by linarith); norm_num
      _ = x / 931.4940954 * (1 / 1.034891 + 1 / 1.034891 ^ 2) := by ring
      _ ≤ _ := by gcongr

/-- What the hints give for every target. -/
def hintsGood (l : List (Int × Int × Nat × Nat × Nat × Nat × Nat)) : Bool :=
  (List.range 92).all fun i => match l[i]? with
    | some w => decide (2000 * (if i = 91 then 120 else i + 1) ≤ w.2.2.2.2.2.2 ∧
        w.2.2.2.2.2.1 ≤ (if i < 10 then 9000 else 7000) * (i + 1))
    | none => false

theorem hints_good : hintsGood pse_95_hints = true ∧ hintsGood proton_stopping_coef_hints = true := by decide +kernel

theorem pseGen_value (tab : List (List Dec)) (hints : List (Int × Int × Nat × Nat × Nat × Nat × Nat)) (hl : tab.length = 92)
    (hl' : hints.length = 92) (hr : ∀ r ∈ tab, pseRowSteady r = true) (hh : (tab.zip hints).all (fun e => pseHint e.1 e.2) = true)
    (hg : hintsGood hints = true) (Z : Int) (hZ : 1 ≤ Z) (hZ' : Z ≤ 120) (x : ℝ) (h0 : 10 ≤ x) (h1 : x ≤ 32.5) :
    ∃ s, pseGen tab Z x = .ok s ∧ 2 * (Z : ℝ) ≤ 1961.13 * s * (etaSq x / (1 + etaSq x)) ∧
      1961.13 * s * (etaSq x / (1 + etaSq x)) ≤ 9 * (Z : ℝ) ∧ (11 ≤ Z → 1961.13 * s * (etaSq x / (1 + etaSq x)) ≤ 7 * (Z : ℝ)) := by
  obtain ⟨i0, i92⟩ := srimIdx_range Z hZ
  obtain ⟨k, hk⟩ := Int.eq_ofNat_of_zero_le i0
  have hk' : k < tab.length := by omega
  have hkh : k < hints.length := by omega
  have hrow := rd_nat tab k hk'
  have hs := hr _ (List.getElem_mem hk')
  have hw : pseHint tab[k] hints[k] = true := by
    rw [List.all_eq_true] at hh
    have hz : k < (tab.zip hints).length := by rw [List.length_zip]; omega
    have := hh _ (List.getElem_mem hz)
    rwa [List.getElem_zip] at this
  have hgk : 2000 * (if k = 91 then 120 else k + 1) ≤ hints[k].2.2.2.2.2.2 ∧ hints[k].2.2.2.2.2.1 ≤ (if k < 10 then 9000 else 7000) * (k + 1) := by
    unfold hintsGood at hg
    rw [List.all_eq_true] at hg
    have := hg k (List.mem_range.mpr (by omega))
    rw [List.getElem?_eq_getElem hkh] at this
    simpa using this
  obtain ⟨q1, q0⟩ := beta_over_e x h0 h1
  obtain ⟨s, es, b0, b1⟩ := pseRow_value tab[k] hs hints[k] hw (1000 * x) _ (by linarith) (by norm_num at h1; linarith) q1 q0
  have val : pseGen tab Z x = .ok s := by
    unfold pseGen
    have e25 : (25.0 : ℝ) = 25 := by norm_num
    have e1000 : (1000.0 : ℝ) = 1000 := by norm_num
    rw [hk, e25, e1000]
    have h' : ¬ Scalar.le (1000 * x) 25 = true := fun hh => by have := (le_real _ _).mp hh; linarith
    simp only [hrow, bind_ok, if_neg h', es]
    rfl
  have kZ : (Z ≤ 92 → (k : Int) + 1 = Z) ∧ (92 < Z → k = 91) := by
    unfold srimIdx at hk
    split at hk <;> omega
  refine ⟨s, val, ?_, ?_, fun h11 => ?_⟩
  · refine le_trans ?_ b0
    rw [le_div_iff₀ (by norm_num)]
    have : 2000 * Z ≤ (hints[k].2.2.2.2.2.2 : Int) := by
      have := hgk.1
      split at this <;> omega
    have : (2000 : ℝ) * Z ≤ (hints[k].2.2.2.2.2.2 : ℝ) := by exact_mod_cast this
    linarith
  · refine b1.trans ?_
    rw [div_le_iff₀ (by norm_num)]
    have : (hints[k].2.2.2.2.2.1 : Int) ≤ 9000 * Z := by
      have := hgk.2
      split at this <;> omega
    have : (hints[k].2.2.2.2.2.1 : ℝ) ≤ 9000 * Z := by exact_mod_cast this
    linarith
  · refine b1.trans ?_
    rw [div_le_iff₀ (by norm_num)]
    have : (hints[k].2.2.2.2.2.1 : Int) ≤ 7000 * Z := by
      have := hgk.2
      split at this <;> omega
    have : (hints[k].2.2.2.2.2.1 : ℝ) ≤ 7000 * Z := by exact_mod_cast this
    linarith

theorem proton_value (b : Bool) (Z : Int) (hZ : 1 ≤ Z) (hZ' : Z ≤ 120) (x : ℝ) (h0 : 10 ≤ x) (h1 : x ≤ 32.5) :
    ∃ s, (if b then p_se Z else p_se85 Z : ℝ → M ℝ) x = .ok s ∧ 2 * (Z : ℝ) ≤ 1961.13 * s * (etaSq x / (1 + etaSq x)) ∧
      1961.13 * s * (etaSq x / (1 + etaSq x)) ≤ 9 * (Z : ℝ) ∧ (11 ≤ Z → 1961.13 * s * (etaSq x / (1 + etaSq x)) ≤ 7 * (Z : ℝ)) := by
  cases b
  · exact pseGen_value _ _ proton_ok.1 proton_hinted.2 proton_steady proton_hinted.1 hints_good.2 Z hZ hZ' x h0 h1
  · exact pseGen_value _ _ pse_95_ok.1 pse_95_hinted.2 pse_95_steady pse_95_hinted.1 hints_good.1 Z hZ hZ' x h0 h1

/-! ## Bounds of the Bethe bracket for protons -/

theorem ls_val_44 : 32.6 < (ls_energy_table : EnergyTable ℝ).val 44 := by
  rw [(ls_val_log 44 32.6 (by norm_num)).2]
  have e : Real.log 32.6 = 5 * Real.log 2 + Real.log 1.01875 := by
    rw [show (32.6 : ℝ) = 2 ^ 5 * 1.01875 by norm_num, Real.log_mul (by norm_num) (by norm_num), Real.log_pow]; norm_num
  have := Real.log_two_lt_d9
  have h2 := Real.log_le_sub_one_of_pos (show (0 : ℝ) < 1.01875 by norm_num)
  rw [e]
  norm_num [LN10] at this h2 ⊢
  linarith

/-- The entries of the table of Lindhard and Sørensen between 10 and 32.5 MeV/u lie within `B/10^11` of zero for every
isotope of at most three atomic weights. -/
def lsRowNear (B ra rh : Nat) : Bool :=
  (List.range 17).all fun k =>
    Nat.ble (549755813888 + 20 * lsRaw rh (k + 28)) (B + 21 * lsRaw ra (k + 28)) &&
    Nat.ble (549755813888 + 39 * lsRaw ra (k + 28)) (B + 40 * lsRaw rh (k + 28)) &&
    Nat.ble (21 * lsRaw ra (k + 28)) (B + 549755813888 + 20 * lsRaw rh (k + 28)) &&
    Nat.ble (40 * lsRaw rh (k + 28)) (B + 549755813888 + 39 * lsRaw ra (k + 28))

theorem lindhard_near (ci : Bool) {p : Projectile ℝ} {n : Int} (hp : p.Ion n) (hn : n ≤ 108)
    (hA : p.A ≤ 3 * element_atomic_weight n) (B : Nat) (hB : ∀ r : Nat, (r : Int) = n - 1 → (hr : r < 108) →
      lsRowNear B (ls_coefficients_a[r]'(by rw [ls_lengths.1]; exact hr)) (ls_coefficients_ahi[r]'(by rw [ls_lengths.2.1]; exact hr)) = true)
    (h0 : 10 ≤ p.T) (h1 : p.T ≤ 32.5) (hT : LindhardReadable p.T) :
    ∃ v, precalculated_lindhard ci p = .ok v ∧ |v| ≤ (B : ℝ) / 10 ^ 11 + 0.001 := by
  have hwp := atomic_weight_pos n hp.pos (by omega)
  have hb := ls_energy_table_bounds
  have hvle := (EnergyTable.val_le_iff (ls_energy_table : EnergyTable ℝ) hb.1 hb.2.1)
  have top : p.T ≤ (ls_energy_table : EnergyTable ℝ).val 199 := by
    have := (hvle 43 199).mpr (by norm_num)
    have := ls_val_mid.2.2
    linarith
  obtain ⟨i, θ, s, k, hk, hkn, hi, ht0, ht1, hs, hb0, hb1, hθ, c, hc, hX⟩ := lindhard_affine ci hp hn (by linarith) top hT
  refine ⟨_, hX, ?_⟩
  have i28 : 28 ≤ i := by
    by_contra hlt
    have := (hvle (i + 1) 28).mpr (by omega)
    linarith [ls_val_28]
  have i43 : i ≤ 43 := by
    by_contra hlt
    have h44 := (hvle 44 i).mpr (by omega)
    have := ls_val_44
    norm_num at this h1 hb0
    linarith
  have hs0 : -20 ≤ s ∧ s ≤ 40 := by
    rw [hs]
    have h2 : -1 ≤ (p.A - element_atomic_weight n) / element_atomic_weight n := by
      rw [le_div_iff₀ hwp]; linarith [hp.A]
    have h3 : (p.A - element_atomic_weight n) / element_atomic_weight n ≤ 2 := by
      rw [div_le_iff₀ hwp]
      linarith
    constructor <;> linarith
  have tab : ∀ j, 28 ≤ j → j ≤ 44 → -((B : ℝ) / 10 ^ 11) ≤ c j ∧ c j ≤ (B : ℝ) / 10 ^ 11 := by
    intro j hj hj'
    have h := hB k hkn hk
    unfold lsRowNear at h
    rw [List.all_eq_true] at h
    have h := h (j - 28) (List.mem_range.mpr (by omega))
    simp only [Bool.and_eq_true, Nat.ble_eq, show j - 28 + 28 = j by omega] at h
    rw [hc, lsRaw_field, lsRaw_field]
    generalize lsRaw (ls_coefficients_a[k]'(by rw [ls_lengths.1]; exact hk)) j = a at *
    generalize lsRaw (ls_coefficients_ahi[k]'(by rw [ls_lengths.2.1]; exact hk)) j = d at *
    obtain ⟨⟨⟨q1, q2⟩, q3⟩, q4⟩ := h
    have q1' : (549755813888 : ℝ) + 20 * d ≤ B + 21 * a := by exact_mod_cast q1
    have q2' : (549755813888 : ℝ) + 39 * a ≤ B + 40 * d := by exact_mod_cast q2
    have q3' : (21 : ℝ) * a ≤ B + 549755813888 + 20 * d := by exact_mod_cast q3
    have q4' : (40 : ℝ) * d ≤ B + 549755813888 + 39 * a := by exact_mod_cast q4
    rw [← neg_div, div_le_div_iff_of_pos_right (by norm_num), div_le_div_iff_of_pos_right (by norm_num)]
    push_cast
    constructor <;> rcases le_total (0 : ℝ) ((d : ℝ) - a) with hh | hh <;> nlinarith [hs0.1, hs0.2]
  have t1 := tab i i28 (by omega)
  have t2 := tab (i + 1) (by omega) (by omega)
  have hlip : |c (i + 1) - c i| ≤ 2 := by
    obtain ⟨hg1, -⟩ := lsTables_steady k hk
    obtain ⟨B', hB', g1, g2, g3, g4⟩ := lsRow_steady hg1 i i28 (by omega)
    rw [hc i, hc (i + 1)]
    generalize lsField (ls_coefficients_a[k]'(by rw [ls_lengths.1]; exact hk)) i = a at g1 g2 g3 g4 ⊢
    generalize lsField (ls_coefficients_ahi[k]'(by rw [ls_lengths.2.1]; exact hk)) i = h at g1 g2 g3 g4 ⊢
    generalize lsField (ls_coefficients_a[k]'(by rw [ls_lengths.1]; exact hk)) (i + 1) = a' at g1 g2 g3 g4 ⊢
    generalize lsField (ls_coefficients_ahi[k]'(by rw [ls_lengths.2.1]; exact hk)) (i + 1) = h' at g1 g2 g3 g4 ⊢
    have ed : ((a' : ℝ) + s * ((h' : ℝ) - a')) / 10 ^ 11 - ((a : ℝ) + s * ((h : ℝ) - a)) / 10 ^ 11 =
        (((a' : ℝ) - a) + s * ((h' : ℝ) - a' - ((h : ℝ) - a))) / 10 ^ 11 := by ring
    have := affine_mid ((a' : ℝ) - a) ((h' : ℝ) - a' - ((h : ℝ) - a)) (-B') B' s (by exact_mod_cast g1) (by exact_mod_cast g3)
        (by exact_mod_cast g2) (by exact_mod_cast g4) hs0.1 hs0.2
    have hB2 : B' ≤ 169400000000 := by rw [hB']; split_ifs <;> norm_num
    have hB2' : (B' : ℝ) ≤ 169400000000 := by exact_mod_cast hB2
    rw [ed, abs_le]
    constructor
    · rw [le_div_iff₀ (by norm_num)]; linarith [this.1]
    · rw [div_le_iff₀ (by norm_num)]; linarith [this.2]
  have q3 := abs_le.mp hlip
  generalize (B : ℝ) / 10 ^ 11 = W at *
  rw [abs_le]
  norm_num at ht0 ⊢
  constructor <;> rcases le_total 0 θ with h | h <;> nlinarith [t1.1, t1.2, t2.1, t2.2, q3.1, q3.2]

theorem lsRow_proton : lsRowNear 1000000000 (ls_coefficients_a[0]'(by rw [ls_lengths.1]; norm_num))
    (ls_coefficients_ahi[0]'(by rw [ls_lengths.2.1]; norm_num)) = true := by decide +kernel

theorem shellPoly_nonneg (t y : ℝ) (ht : 0 ≤ t) (ht' : t ≤ 1.17) (hy : 0 ≤ y) (hy' : y ≤ 46.6) : 0 ≤ shellPoly t y := by
  have hP : 0 ≤ shellPoly 0 y := by
    unfold shellPoly
    have : 0 ≤ y * (46.6 - y) := mul_nonneg hy (by linarith)
    have : 0 ≤ y ^ 2 * (46.6 - y) := mul_nonneg (by positivity) (by linarith)
    norm_num at *
    nlinarith
  have hQ : 0 ≤ shellPoly 1.17 y := by
    unfold shellPoly
    have e : 0.422377 * y + 0.0304043 * y ^ 2 - 0.00038106 * y ^ 3 + 1.17 * (3.858019 * y - 0.1667989 * y ^ 2 + 0.00157955 * y ^ 3) =
        y * (4.93625923 - 0.164750413 * y + 0.0014670135 * y ^ 2) := by norm_num; ring
    rw [e]
    refine mul_nonneg hy ?_
    norm_num
    nlinarith [sq_nonneg (y - 56)]
  have e : shellPoly t y = (1 - t / 1.17) * shellPoly 0 y + t / 1.17 * shellPoly 1.17 y := by
    unfold shellPoly; norm_num; ring
  have w1 : t / 1.17 ≤ 1 := by rw [div_le_one (by norm_num)]; exact ht'
  rw [e]
  have : 0 ≤ t / 1.17 := by positivity
  exact add_nonneg (mul_nonneg (by linarith) hP) (mul_nonneg this hQ)

/-- `eta²` between 10 and 32.5 MeV/u. -/
theorem etaSq_mid (x : ℝ) (h0 : 10 ≤ x) (h1 : x ≤ 32.5) : 0 < etaSq x ∧ (etaSq x)⁻¹ ≤ 46.6 ∧ etaSq x ≤ 0.0711 ∧
    (etaSq x ≤ 0.0365 ∨ (etaSq x)⁻¹ ≤ 28.95) := by
  obtain ⟨s0, -, -, -, -, -, -, k4, k5, -⟩ := kinematics x 1.039 h0 (by norm_num) (by norm_num)
  refine ⟨s0, k4, ?_, ?_⟩
  · unfold etaSq
    have y1 : 1 + x / 931.4940954 ≤ 1.034891 := by
      have : x / 931.4940954 ≤ 32.5 / 931.4940954 := by gcongr
      norm_num at this ⊢; linarith
    have y0 : 0 ≤ 1 + x / 931.4940954 := by positivity
    generalize 1 + x / 931.4940954 = w at *
    norm_num at *
    nlinarith
  · rcases le_total x 16 with h | h
    · left
      have y1 : 1 + x / 931.4940954 ≤ 1.01718 := by
        have : x / 931.4940954 ≤ 16 / 931.4940954 := by gcongr
        norm_num at this ⊢; linarith
      have y0 : 0 ≤ 1 + x / 931.4940954 := by positivity
      unfold etaSq
      generalize 1 + x / 931.4940954 = w at *
      norm_num at *
      nlinarith
    · right; exact k5 h

/-- The logarithm of the Bethe formula between 10 and 32.5 MeV/u. -/
theorem betheLog_mid (c I x : ℝ) (hc : 0 ≤ c) (hc' : c ≤ 0.0115) (hI : 10 ≤ I) (hI' : I ≤ 1170) (h0 : 10 ≤ x) (h1 : x ≤ 32.5) :
    2.64 ≤ betheLog c I (etaSq x) ∧ betheLog c I (etaSq x) ≤ 9 ∧ (I ≤ 340 → 3.4 ≤ betheLog c I (etaSq x)) := by
  obtain ⟨s0, y1, s1, hh⟩ := etaSq_mid x h0 h1
  have I0 : 0 < I := by linarith
  have y0 : 0 < (etaSq x)⁻¹ := by positivity
  have t1 : I / 1000 ≤ 1.17 := by norm_num; linarith
  have p0 := shellPoly_nonneg (I / 1000) _ (by positivity) t1 y0.le y1
  have p1 := shellPoly_le (I / 1000) _ (by positivity) t1 y0.le y1
  have hb : etaSq x / (1 + etaSq x) ≤ 0.0711 := by
    rw [div_le_iff₀ (by positivity)]; norm_num at s1 ⊢; nlinarith
  have hb0 : 0 ≤ etaSq x / (1 + etaSq x) := by positivity
  have e1 := Real.exp_one_gt_d9
  have e2 := Real.exp_one_lt_d9
  refine ⟨?_, ?_, fun h340 => ?_⟩
  · rcases hh with h | h
    · exact betheLog_low c I _ hc hc' I0 hI' s0 y1 h
    · exact le_trans (by norm_num) (betheLog_low' c I _ hc hc' I0 hI' s0 h)
  · have a1 : Real.log (1021997.856 / I) ≤ 11.6 := by
      rw [Real.log_le_iff_le_exp (by positivity)]
      have q := Real.quadratic_le_exp_of_nonneg (show (0 : ℝ) ≤ 0.6 by norm_num)
      have q2 : Real.exp 11.6 = Real.exp 1 ^ 11 * Real.exp 0.6 := by
        rw [← Real.exp_nat_mul, ← Real.exp_add]; norm_num
      have q3 : (59800 : ℝ) ≤ Real.exp 1 ^ 11 := le_trans (by norm_num) (pow_le_pow_left₀ (by norm_num) e1.le 11)
      rw [q2]
      calc 1021997.856 / I ≤ 1021997.856 / 10 := by gcongr
        _ ≤ 59800 * (1 + 0.6 + 0.6 ^ 2 / 2) := by norm_num
        _ ≤ _ := mul_le_mul q3 q (by norm_num) (by positivity)
    have a2 : Real.log (etaSq x) ≤ -2.6 := by
      rw [Real.log_le_iff_le_exp s0]
      have q := Real.quadratic_le_exp_of_nonneg (show (0 : ℝ) ≤ 0.4 by norm_num)
      have q2 : Real.exp (-2.6) = Real.exp 0.4 / Real.exp 1 ^ 3 := by
        rw [← Real.exp_nat_mul, ← Real.exp_sub]; norm_num
      have q3 : Real.exp 1 ^ 3 ≤ 20.1 := le_trans (pow_le_pow_left₀ (by positivity) e2.le 3) (by norm_num)
      rw [q2, le_div_iff₀ (by positivity)]
      calc etaSq x * Real.exp 1 ^ 3 ≤ 0.0711 * 20.1 := mul_le_mul s1 q3 (by positivity) (by norm_num)
        _ ≤ 1 + 0.4 + 0.4 ^ 2 / 2 := by norm_num
        _ ≤ _ := q
    have a3 := mul_nonneg hc p0
    unfold betheLog
    norm_num at a1 a2 ⊢
    linarith
  · have a1 : 8 ≤ Real.log (1021997.856 / I) := by
      rw [Real.le_log_iff_exp_le (by positivity)]
      have q2 : Real.exp 8 = Real.exp 1 ^ 8 := by rw [← Real.exp_nat_mul]; norm_num
      have q3 : Real.exp 1 ^ 8 ≤ 2981 := le_trans (pow_le_pow_left₀ (by positivity) e2.le 8) (by norm_num)
      rw [q2]
      refine q3.trans ?_
      rw [le_div_iff₀ I0]
      norm_num
      linarith
    have a2 : -3.9 ≤ Real.log (etaSq x) := by
      have : Real.log (etaSq x)⁻¹ ≤ 3.9 := by
        rw [Real.log_le_iff_le_exp y0]
        refine y1.trans ?_
        have q := Real.quadratic_le_exp_of_nonneg (show (0 : ℝ) ≤ 0.9 by norm_num)
        have q2 : Real.exp 3.9 = Real.exp 1 ^ 3 * Real.exp 0.9 := by
          rw [← Real.exp_nat_mul, ← Real.exp_add]; norm_num
        have q3 : (20 : ℝ) ≤ Real.exp 1 ^ 3 := le_trans (by norm_num) (pow_le_pow_left₀ (by norm_num) e1.le 3)
        rw [q2]
        calc (46.6 : ℝ) ≤ 20 * (1 + 0.9 + 0.9 ^ 2 / 2 + 0.03) := by norm_num
          _ ≤ _ := mul_le_mul q3 (by
            have e3 : Real.exp 0.9 = Real.exp 1 / Real.exp 0.1 := by rw [← Real.exp_sub]; norm_num
            have e4 := exp_le_quartic' 0.1 (by norm_num) (by norm_num)
            rw [e3, le_div_iff₀ (Real.exp_pos _)]
            have := Real.exp_pos (0.1 : ℝ)
            norm_num at *
            nlinarith) (by norm_num) (by positivity)
      rw [Real.log_inv] at this
      linarith
    have a3 : c * shellPoly (I / 1000) (etaSq x)⁻¹ ≤ 0.0115 * 47.3 := mul_le_mul hc' p1 p0 (by norm_num)
    unfold betheLog
    norm_num at a1 a2 a3 hb ⊢
    linarith

/-- The Barkas correction from 10 MeV/u on. -/
theorem barkas_le (z s zt : ℝ) (hy : s⁻¹ ≤ 46.6) (h0 : 0 < s) (hz : 0 ≤ z) (hzt : 1 ≤ zt) (hzt' : zt ≤ 120) :
    0 ≤ bethek_barkas z (√s) zt - 1 ∧ bethek_barkas z (√s) zt - 1 ≤ 0.018 * z := by
  have ha : (0 : ℝ) < fine_structure := by norm_num [fine_structure]
  have w0 : 0 < √zt := Real.sqrt_pos.mpr (by linarith)
  have w2 : √zt * √zt = zt := Real.mul_self_sqrt (by linarith)
  have g0 : 0 < √s := Real.sqrt_pos.mpr h0
  have g2 : √s * √s = s := Real.mul_self_sqrt h0.le
  have s1 : 1 / 46.6 ≤ s := by rw [one_div]; exact (inv_le_comm₀ h0 (by norm_num)).mp hy
  have w11 : √zt ≤ 10.9545 := by
    rw [Real.sqrt_le_left (by norm_num)]; norm_num; linarith
  have hv : 1.8 ≤ √s / (fine_structure * √zt) := by
    rw [le_div_iff₀ (by positivity)]
    have : (0.1463 : ℝ) ≤ √s := by apply Real.le_sqrt_of_sq_le; norm_num at s1 ⊢; linarith
    calc 1.8 * (fine_structure * √zt) ≤ 1.8 * (fine_structure * 10.9545) := by gcongr
      _ ≤ 0.1463 := by norm_num [fine_structure]
      _ ≤ _ := this
  have hv1 : 1 ≤ √s / (fine_structure * √zt) := le_trans (by norm_num) hv
  have den : √s / (fine_structure * √zt) * (√s / (fine_structure * √zt)) * √zt = s / (fine_structure ^ 2 * √zt) := by
    field_simp
    rw [sq, g2]
  have b := (barkasF_step 1 _ le_rfl hv1)
  have bF : barkasF (√s / (fine_structure * √zt)) ≤ 0.33 := by
    refine b.2.1.trans ?_
    unfold barkasF
    norm_num
  rw [barkas_eq z _ zt hv1, den]
  generalize barkasF (√s / (fine_structure * √zt)) = B at *
  have d0 : 36.7 ≤ s / (fine_structure ^ 2 * √zt) := by
    rw [le_div_iff₀ (by positivity)]
    refine le_trans ?_ s1
    calc 36.7 * (fine_structure ^ 2 * √zt) ≤ 36.7 * (fine_structure ^ 2 * 10.9545) := by gcongr
      _ ≤ _ := by norm_num [fine_structure]
  generalize s / (fine_structure ^ 2 * √zt) = d at *
  have dp : 0 < d := by norm_num at d0; linarith
  have hB := b.1
  rw [add_sub_cancel_left]
  refine ⟨by positivity, ?_⟩
  rw [div_le_iff₀ dp]
  calc 2 * z * B ≤ 2 * z * 0.33 := by gcongr
    _ ≤ 0.018 * z * 36.7 := by norm_num; linarith
    _ ≤ _ := by gcongr

theorem ipot_ten (z : Int) (h1 : 1 ≤ z) (h2 : z ≤ 120) : 10 ≤ (ipot z : ℝ) := by
  have h : (List.range 120).all (fun k => match ionisation_potentials_z[k + 1]? with
      | some d => decide (10 ≤ d.rat)
      | none => false) = true := by decide +kernel
  obtain ⟨k, hk⟩ := Int.eq_ofNat_of_zero_le (show 0 ≤ z - 1 by omega)
  have hz : z.toNat = k + 1 := by omega
  rw [List.all_eq_true] at h
  have hh := h k (List.mem_range.mpr (by omega))
  unfold ipot
  rw [if_neg (by omega), hz]
  have hl : k + 1 < ionisation_potentials_z.length := by rw [ipot_len.1]; omega
  rw [List.getElem?_eq_getElem hl] at hh ⊢
  have hh := of_decide_eq_true hh
  have := (Rat.cast_le (K := ℝ)).mpr hh
  rw [Dec.rat_cast] at this
  show (10 : ℝ) ≤ (ionisation_potentials_z[k + 1]).toScalar
  exact_mod_cast this

/-- The density effect between 10 and 32.5 MeV/u. -/
theorem density_mid (zt : Int) (h : 1 ≤ zt) (n1 : zt ≠ 85) (n2 : zt ≠ 87) (f : ℝ → ℝ)
    (hf1 : ∀ b, bethek_density_effect b zt = .ok (f (Real.log (b * (1 / √(1 - b * b))) / 2.3025851)))
    (hf2 : ∀ x x', x ≤ x' → -(3 * (x' - x)) - 0.002 ≤ f x' - f x ∧ f x' - f x ≤ 4.6052 * (x' - x) + 0.002)
    (hf3 : ∀ x, x ≤ -0.71 → 0 ≤ f x ∧ f x ≤ 0.0075) (q : ℝ) (q0 : 0 < q) (q1 : q ≤ 0.0711) :
    -0.46 ≤ f (Real.log (√q) / 2.3025851) ∧ f (Real.log (√q) / 2.3025851) ≤ 0.14 := by
  have lq : Real.log (√q) / 2.3025851 ≤ -0.56 := by
    rw [div_le_iff₀ (by norm_num), Real.log_sqrt q0.le]
    have : Real.log q ≤ -2.6 := by
      rw [Real.log_le_iff_le_exp q0]
      have e2 := Real.exp_one_lt_d9
      have q := Real.quadratic_le_exp_of_nonneg (show (0 : ℝ) ≤ 0.4 by norm_num)
      have q2 : Real.exp (-2.6) = Real.exp 0.4 / Real.exp 1 ^ 3 := by
        rw [← Real.exp_nat_mul, ← Real.exp_sub]; norm_num
      have q3 : Real.exp 1 ^ 3 ≤ 20.1 := le_trans (pow_le_pow_left₀ (by positivity) e2.le 3) (by norm_num)
      rw [q2, le_div_iff₀ (by positivity)]
      refine (mul_le_mul q1 q3 (by positivity) (by norm_num)).trans (le_trans ?_ q)
      norm_num
    norm_num at this ⊢
    linarith
  constructor
  · rcases le_total (Real.log (√q) / 2.3025851) (-0.71) with g | g
    · exact le_trans (by norm_num) (hf3 _ g).1
    · have a := (hf2 _ _ g).1
      have b := (hf3 (-0.71) le_rfl).1
      norm_num at lq g a b ⊢
      linarith
  · obtain ⟨v, hv, hb⟩ := density_le (√(q / (1 + q))) zt h
    rw [hf1] at hv
    injection hv with hv
    have e3 : √(q / (1 + q)) * (1 / √(1 - √(q / (1 + q)) * √(q / (1 + q)))) = √q := by
      rw [Real.mul_self_sqrt (by positivity), show 1 - q / (1 + q) = 1 / (1 + q) by field_simp; ring, Real.sqrt_div q0.le,
        Real.sqrt_div zero_le_one, Real.sqrt_one]
      have : √(1 + q) ≠ 0 := (Real.sqrt_pos.mpr (by linarith)).ne'
      field_simp
    rw [e3] at hv hb
    rw [hv]
    rcases hb with hb | hb
    · exact hb.2
    · have := hb.1
      norm_num at this lq
      linarith

/-- Protons are nearly bare from 10 MeV/u on. -/
theorem proton_charge (debug : Bool) (p : Projectile ℝ) (hZ : p.Z = 1) (t : Target ℝ) (c : Config ℝ) (hc : c.z_effective = 1)
    (x : ℝ) (hx : 10 ≤ x) : ∃ z, z_effective debug (p.withT x) t c = .ok z ∧ 0.99 ≤ z ∧ z ≤ 1 := by
  obtain ⟨s0, -, -, -, -, -, -, k4, -, -⟩ := kinematics x 1.039 hx (by norm_num) (by norm_num)
  have s0 : 0 < etaSq x := s0
  have k4 : (etaSq x)⁻¹ ≤ 46.6 := k4
  have s1 : 1 / 46.6 ≤ etaSq x := by rw [one_div]; exact (inv_le_comm₀ s0 (by norm_num)).mp k4
  have val : z_effective debug (p.withT x) t c = .ok (z_eff_Pierce_Blann 1 (√(etaSq x / (1 + etaSq x)))) := by
    unfold z_effective
    simp only [hc, sqrt_real]
    rw [if_neg (by decide), if_pos trivial]
    show Except.ok (z_eff_Pierce_Blann p.Z (√(1.0 - 1.0 / ((1.0 + x / atomic_mass_unit) * (1.0 + x / atomic_mass_unit))))) = _
    rw [beta_etaSq x (by linarith), hZ]
  have hb : 0.14 ≤ √(etaSq x / (1 + etaSq x)) := by
    apply Real.le_sqrt_of_sq_le
    rw [le_div_iff₀ (by positivity)]
    norm_num at s1 ⊢
    linarith
  refine ⟨_, val, ?_, (pierce_blann_bounds 1 _ one_pos (Real.sqrt_nonneg _)).2.le⟩
  rw [pierce_blann_eq, Real.one_rpow, div_one, one_mul]
  have k0 : (130 : ℝ) ≤ 0.95 * fine_structure_inverted := by norm_num [fine_structure_inverted, fine_structure]
  generalize 0.95 * (fine_structure_inverted : ℝ) = k at *
  generalize √(etaSq x / (1 + etaSq x)) = b at *
  have kb : 18.2 ≤ k * b := by
    calc (18.2 : ℝ) = 130 * 0.14 := by norm_num
      _ ≤ _ := mul_le_mul k0 hb (by norm_num) (by linarith)
  have hq := Real.quadratic_le_exp_of_nonneg (show 0 ≤ k * b by norm_num at kb; linarith)
  have he : Real.exp (-(k * b)) ≤ 0.01 := by
    rw [Real.exp_neg, inv_le_comm₀ (Real.exp_pos _) (by norm_num)]
    refine le_trans ?_ hq
    norm_num at kb ⊢
    nlinarith
  norm_num at he ⊢
  linarith

theorem ratio_core (z2 Z Br P q A s v : ℝ) (eV : v = 0.3070749187 * (z2 * Z * Br) / (q * A)) (q0 : 0 < q) (hA : 0 < A) (hZ : 1 ≤ Z)
    (hP : P = 1961.13 * s * q) (z0 : 0.98 ≤ z2) (z1 : z2 ≤ 1) (B1 : Br ≤ 9.5) (p0 : 2 * Z ≤ P)
    (hh : (3.2 ≤ Br ∧ P ≤ 9 * Z) ∨ (2.5 ≤ Br ∧ P ≤ 7 * Z)) :
    v ≤ 5 * (602.2140857 * s / A) ∧ 602.2140857 * s / A ≤ 3.3 * v := by
  have eS : 602.2140857 * s / A = 602.2140857 / 1961.13 * P / (q * A) := by
    rw [hP, mul_comm q A]
    field_simp
  have B0 : 0 ≤ Br := by rcases hh with h | h <;> [have := h.1; have := h.1] <;> norm_num at this <;> linarith
  have k1 : z2 * Z * Br ≤ Z * 9.5 := by
    have : z2 * Z ≤ Z := by nlinarith
    exact mul_le_mul this B1 B0 (by linarith)
  have k0 : 0.98 * Z * Br ≤ z2 * Z * Br := by gcongr
  rw [eV, eS, ← mul_div_assoc, ← mul_div_assoc, div_le_div_iff_of_pos_right (by positivity), div_le_div_iff_of_pos_right (by positivity)]
  generalize z2 * Z * Br = W at *
  have k2 : P ≤ 3.29 * W := by
    rcases hh with ⟨b, c⟩ | ⟨b, c⟩
    · have : 0.98 * Z * 3.2 ≤ 0.98 * Z * Br := by gcongr
      norm_num at *; linarith
    · have : 0.98 * Z * 2.5 ≤ 0.98 * Z * Br := by gcongr
      norm_num at *; linarith
  constructor
  · norm_num at *; linarith
  · norm_num at *; linarith

/-- Between 10 and 32.5 MeV/u the Bethe formula for protons gives between a third and five times the value of the
low-energy model. -/
theorem proton_ratio (env : Env ℝ) {p : Projectile ℝ} (hp : p.Ion 1)
    (hA : p.A ≤ 3 * element_atomic_weight 1) (t : Target ℝ) (tZ : 1 ≤ t.Z) (tZ' : t.Z ≤ 120) (t85 : t.Z ≠ 85) (t87 : t.Z ≠ 87)
    (tA : 0 < t.A) (c : Config ℝ) (hc : c.z_effective = 1) (I : ℝ) (hI : TypicalI I t.Z) (hI' : 0 < I → 10 ≤ I) (x : ℝ) (h0 : 10 ≤ x)
    (h1 : x ≤ 32.5) (hT : LindhardReadable x) (b : Bool) (s v : ℝ)
    (hs : (if b then p_se t.Z else p_se85 t.Z : ℝ → M ℝ) x = .ok s)
    (hv : bethek_dedx_e_target env (p.withT x) t c I = .ok v) :
    v ≤ 5 * (602.2140857 * s / t.A) ∧ 602.2140857 * s / t.A ≤ 3.3 * v := by
  have ionT : (p.withT x).Ion 1 := ⟨hp.Z, hp.pos, hp.int, hp.A⟩
  obtain ⟨z, hz, z0, z1⟩ := proton_charge env.debug p (by rw [hp.Z]; norm_num) t c hc x h0
  have zp : 0 < z := by norm_num at z0; linarith
  obtain ⟨f, hf1, hf2, hf3⟩ := density_step t.Z tZ t85 t87
  obtain ⟨s0, y1, s1, -⟩ := etaSq_mid x h0 h1
  obtain ⟨D0, D1⟩ := density_mid t.Z tZ t85 t87 f hf1 hf2 hf3 (etaSq x) s0 s1
  obtain ⟨l, el, hl⟩ : ∃ l, (if c.corrections.testBit 1 = true then .ok 0 else precalculated_lindhard env.calcIndex (p.withT x)) = .ok l ∧
      |l| ≤ 0.011 := by
    split
    · exact ⟨0, rfl, by norm_num⟩
    · obtain ⟨l, e, hl⟩ := lindhard_near env.calcIndex ionT (by norm_num) hA 1000000000 (fun r hr hr' => by
        have : r = 0 := by omega
        subst this
        exact lsRow_proton) h0 h1 hT
      refine ⟨l, e, hl.trans ?_⟩
      norm_num
  have hl := abs_le.mp hl
  have e1 := bethe_value env ionT t tZ tA c I h0 z hz zp.le hI f hf1 l el
  have rad : radiative (p.withT x) t c = 0 := by
    unfold radiative
    rw [if_neg]
    rintro ⟨h, -⟩
    have : (p.withT x).T = x := rfl
    rw [this] at h
    norm_num at h1
    linarith
  rw [hv, rad, add_zero] at e1
  injection e1 with e1
  have ex : (p.withT x).T = x := rfl
  rw [ex] at e1
  obtain ⟨I0, I1, I2⟩ := usedI_bounds I t.Z tZ hI
  have I10 : 10 ≤ usedI I t.Z := by
    unfold usedI
    split
    · exact hI' ‹_›
    · exact ipot_ten _ tZ tZ'
  have htz : (1 : ℝ) ≤ (t.Z : ℝ) := by exact_mod_cast tZ
  have htz' : (t.Z : ℝ) ≤ 120 := by exact_mod_cast tZ'
  have sf : 0 ≤ shellFactor c (usedI I t.Z) t.Z ∧ shellFactor c (usedI I t.Z) t.Z ≤ 0.0115 := by
    unfold shellFactor
    split
    · norm_num
    · refine ⟨by positivity, ?_⟩
      rw [div_div, div_le_iff₀ (by positivity)]
      norm_num
      linarith
  obtain ⟨F0, F1, F2⟩ := betheLog_mid _ (usedI I t.Z) x sf.1 sf.2 I10 I1 h0 h1
  have F3 : t.Z ≤ 10 → 3.4 ≤ betheLog (shellFactor c (usedI I t.Z) t.Z) (usedI I t.Z) (etaSq x) := fun h => F2 (by
    have : (t.Z : ℝ) ≤ 10 := by exact_mod_cast h
    have h2 : usedI I t.Z ^ 2 ≤ 340 ^ 2 := by norm_num; linarith
    exact le_of_sq_le_sq h2 (by norm_num))
  have hK : 0 ≤ barkasTerm c z (etaSq x) t.Z ∧ barkasTerm c z (etaSq x) t.Z ≤ 0.018 := by
    unfold barkasTerm
    split
    · norm_num
    · obtain ⟨a, b⟩ := barkas_le z (etaSq x) t.Z y1 s0 zp.le htz htz'
      exact ⟨a, b.trans (by norm_num at *; linarith)⟩
  obtain ⟨s', es, p0, p1, p2⟩ := proton_value b t.Z tZ tZ' x h0 h1
  rw [hs] at es
  injection es with es
  subst es
  have q0 : 0 < etaSq x / (1 + etaSq x) := by positivity
  generalize f _ = D at *
  generalize betheLog _ _ _ = F at *
  generalize barkasTerm _ _ _ _ = K at *
  -- the bracket
  have B1 : F * (1 + K) + l - D / 2 ≤ 9.5 := by
    have : F * (1 + K) ≤ 9 * (1 + 0.018) := mul_le_mul F1 (by linarith [hK.2]) (by linarith [hK.1]) (by norm_num)
    have := hl.2
    norm_num at *
    linarith
  have B0 : 2.5 ≤ F * (1 + K) + l - D / 2 := by
    have : F ≤ F * (1 + K) := by norm_num at F0; nlinarith [hK.1]
    have := hl.1
    norm_num at *
    linarith
  have B2 : t.Z ≤ 10 → 3.2 ≤ F * (1 + K) + l - D / 2 := fun h => by
    have : F ≤ F * (1 + K) := by norm_num at F0; nlinarith [hK.1]
    have := F3 h
    have := hl.1
    norm_num at *
    linarith
  generalize F * (1 + K) + l - D / 2 = Br at *
  clear el hl hf1 hf2 hf3 D0 D1 F0 F1 F2 F3 hK hs hv rad
  generalize etaSq x / (1 + etaSq x) = q at *
  have z2 : 0.98 ≤ z ^ 2 ∧ z ^ 2 ≤ 1 := by
    have := z0
    norm_num at this
    constructor
    · norm_num; nlinarith
    · nlinarith
  refine ratio_core (z ^ 2) t.Z Br _ q t.A s v ?_ q0 tA htz rfl z2.1 z2.2 B1 p0 ?_
  · rw [e1]; unfold dedx_constant; generalize (0.3070749187 : ℝ) = k; ring
  · rcases le_or_gt t.Z 10 with h | h
    · exact Or.inl ⟨B2 h, p1⟩
    · exact Or.inr ⟨B0, p2 (by omega)⟩

/-- A blend of two functions that change little, with weights that change little. -/
theorem blend_step (b b' s s' F F' : ℝ) (hb : Step 1.223 1.172 b b') (hs : Step 1.223 1.172 s s') (F0 : 0 ≤ F) (FF : F ≤ F') (F1 : F' ≤ 1)
    (hF : F' - F ≤ 0.0393 * (F + 0.5)) (h1 : b ≤ 5 * s) (h2 : s' ≤ 3.3 * b') :
    Step 1.36 1.36 ((1 - F) * s + F * b) ((1 - F') * s' + F' * b') := by
  obtain ⟨b0, b0', bu, bd⟩ := hb
  obtain ⟨s0, s0', su, sd⟩ := hs
  have pos : 0 < (1 - F) * s + F * b := by
    rcases F0.eq_or_lt with h | h
    · rw [← h]; linarith
    · have := mul_pos h b0
      have := mul_nonneg (show 0 ≤ 1 - F by linarith) s0.le
      linarith
  have pos' : 0 < (1 - F') * s' + F' * b' := by
    rcases F1.eq_or_lt with h | h
    · rw [h]; linarith
    · have := mul_pos (show 0 < 1 - F' by linarith) s0'
      have := mul_nonneg (show 0 ≤ F' by linarith) b0'.le
      linarith
  have d0 : 0 ≤ F' - F := by linarith
  refine ⟨pos, pos', ?_, ?_⟩
  · -- the new blend is at most 1.223 times the old values with the new weight
    have a1 : (1 - F') * s' + F' * b' ≤ 1.223 * ((1 - F') * s + F' * b) := by
      have := mul_le_mul_of_nonneg_left su (show 0 ≤ 1 - F' by linarith)
      have := mul_le_mul_of_nonneg_left bu (show 0 ≤ F' by linarith)
      norm_num at *; linarith
    have a2 : (1 - F') * s + F' * b ≤ 1.112 * ((1 - F) * s + F * b) := by
      have e : (1 - F') * s + F' * b = ((1 - F) * s + F * b) + (F' - F) * (b - s) := by ring
      rw [e]
      have : (F' - F) * (b - s) ≤ 0.112 * ((1 - F) * s + F * b) := by
        rcases le_total b s with h | h
        · have := mul_nonneg d0 (show 0 ≤ s - b by linarith)
          norm_num; linarith
        · have q1 : (F' - F) * (b - s) ≤ 0.0393 * (F + 0.5) * (b - s) := mul_le_mul_of_nonneg_right hF (by linarith)
          refine q1.trans ?_
          norm_num
          nlinarith [mul_nonneg F0 (show 0 ≤ b - s by linarith), mul_nonneg (show 0 ≤ 1 - F by linarith) (show 0 ≤ 5 * s - b by linarith),
            mul_nonneg F0 s0.le, mul_nonneg F0 (show 0 ≤ 5 * s - b by linarith)]
      linarith
    norm_num at *
    linarith
  · have a1 : (1 - F) * s + F * b ≤ 1.172 * ((1 - F) * s' + F * b') := by
      have := mul_le_mul_of_nonneg_left sd (show 0 ≤ 1 - F by linarith)
      have := mul_le_mul_of_nonneg_left bd F0
      norm_num at *; linarith
    have a2 : (1 - F) * s' + F * b' ≤ 1.159 * ((1 - F') * s' + F' * b') := by
      have e : (1 - F) * s' + F * b' = ((1 - F') * s' + F' * b') + (F' - F) * (s' - b') := by ring
      rw [e]
      have : (F' - F) * (s' - b') ≤ 0.159 * ((1 - F') * s' + F' * b') := by
        rcases le_total s' b' with h | h
        · have := mul_nonneg d0 (show 0 ≤ b' - s' by linarith)
          norm_num; linarith
        · have q1 : (F' - F) * (s' - b') ≤ 0.0393 * (F' + 0.5) * (s' - b') :=
            mul_le_mul_of_nonneg_right (by norm_num at *; linarith) (by linarith)
          refine q1.trans ?_
          norm_num
          nlinarith [mul_nonneg (show 0 ≤ F' by linarith) (show 0 ≤ s' - b' by linarith), mul_nonneg (show 0 ≤ 1 - F' by linarith) (show 0 ≤ s' - b' by linarith),
            mul_nonneg (show 0 ≤ F' by linarith) (show 0 ≤ 3.3 * b' - s' by linarith), mul_nonneg (show 0 ≤ 1 - F' by linarith) (show 0 ≤ 3.3 * b' - s' by linarith)]
      linarith
    norm_num at *
    linarith

end Catima
