import Verif.Lemmas.LogTables
import Verif.Lemmas.ExpBounds
import Verif.Model.LindhardExact
import Verif.Lemmas.Complex

/-!
# The generated Lindhard-Sørensen tables against the calculation, at ultrarelativistic energies
-/

namespace Catima

/-- The closed formula of the calculation at high energies, as a sum of logarithms. -/
noncomputable def ultra (A T : ℝ) : ℝ :=
  -Real.log T + Real.log (atomic_mass_unit / 3.05573356675e-3) - Real.log A / 3 + 0.3 -
    Real.log (1 + 2 * (atomic_mass_unit / T)) / 2 - (atomic_mass_unit / T) ^ 2 / (1 + atomic_mass_unit / T) ^ 2 / 2

theorem bethek_ultra (fuel : Nat) (p : Projectile ℝ) (hA : 0 < p.A) (hT : 0 < p.T)
    (h : 10 ≤ (1 + p.T / atomic_mass_unit) * (Real.exp (Real.log p.A / 3) * 3.05573356675e-3)) :
    bethek_lindhard fuel p = some (ultra p.A p.T) := by
  have hu : (0 : ℝ) < atomic_mass_unit := by norm_num [atomic_mass_unit]
  unfold bethek_lindhard lsInput
  simp only [lt_real, exp_real, log_real, sqrt_real]
  have hρ : (0 : ℝ) < Real.exp (Real.log p.A / 3.0) * 3.05573356675e-3 :=
    mul_pos (Real.exp_pos _) (by norm_num)
  rw [if_neg (by
    rw [not_lt, div_le_iff₀ hρ]
    norm_num at h ⊢
    linarith)]
  refine congrArg some ?_
  have hγ : (1 : ℝ) < 1 + p.T / atomic_mass_unit := by
    have := div_pos hT hu
    linarith
  obtain ⟨g, hg⟩ : ∃ g : ℝ, g = 1 + p.T / atomic_mass_unit := ⟨_, rfl⟩
  have e1 : (1.0 : ℝ) + p.T / atomic_mass_unit = g := by rw [hg]; norm_num
  rw [e1]
  have hg1 : 1 < g := by rw [hg]; exact hγ
  obtain ⟨x, hx⟩ : ∃ x : ℝ, x = atomic_mass_unit / p.T := ⟨_, rfl⟩
  have hx0 : 0 < x := by rw [hx]; exact div_pos hu hT
  have hgx : g = (1 + x) / x := by
    rw [hg, hx]
    field_simp
    ring
  have hb : (1.0 : ℝ) - 1.0 / (g * g) = (1 + 2 * x) / (1 + x) ^ 2 := by
    rw [hgx]
    norm_num
    field_simp
    ring
  rw [hb]
  have hb0 : 0 < (1 + 2 * x) / (1 + x) ^ 2 := by positivity
  have hlog : Real.log (Real.sqrt ((1 + 2 * x) / (1 + x) ^ 2) * g *
      (Real.exp (Real.log p.A / 3.0) * 3.05573356675e-3)) =
      Real.log (1 + 2 * x) / 2 - Real.log x + Real.log p.A / 3 + Real.log 3.05573356675e-3 := by
    rw [Real.log_mul (by positivity) hρ.ne', Real.log_mul (by positivity) (by linarith),
      Real.log_mul (Real.exp_pos _).ne' (by norm_num), Real.log_exp, Real.log_sqrt hb0.le,
      Real.log_div (by positivity) (by positivity), hgx, Real.log_div (by positivity) hx0.ne', Real.log_pow]
    norm_num
    ring
  rw [hlog]
  unfold ultra
  rw [← hx]
  have hlx : Real.log x = Real.log atomic_mass_unit - Real.log p.T := by
    rw [hx, Real.log_div hu.ne' hT.ne']
  rw [hlx, Real.log_div hu.ne' (by norm_num)]
  have hsq : (1 + 2 * x) / (1 + x) ^ 2 = 1 - x ^ 2 / (1 + x) ^ 2 := by
    field_simp
    ring
  rw [hsq]
  norm_num
  ring

/-- The part of the formula that vanishes at high energies. -/
theorem ultra_tail (x : ℝ) (h0 : 0 < x) (h1 : x ≤ 2.3e-3) :
    |-Real.log (1 + 2 * x) / 2 - x ^ 2 / (1 + x) ^ 2 / 2 - (-x + x ^ 2 / 2)| ≤ 2e-8 := by
  have hl := Real.abs_log_sub_add_sum_range_le (x := -(2 * x)) (by
    rw [abs_neg, abs_of_pos (by linarith)]; norm_num at h1; linarith) 3
  rw [abs_neg, abs_of_pos (show 0 < 2 * x by linarith), sub_neg_eq_add] at hl
  have hr : (2 * x) ^ (3 + 1) / (1 - 2 * x) ≤ 1e-9 := by
    rw [div_le_iff₀ (by norm_num at h1; linarith)]
    have : (2 * x) ^ (3 + 1) ≤ (4.6e-3 : ℝ) ^ (3 + 1) := pow_le_pow_left₀ (by linarith) (by norm_num at h1 ⊢; linarith) _
    norm_num at this h1 ⊢
    linarith
  have hl := abs_le.mp (hl.trans hr)
  simp only [Finset.sum_range_succ, Finset.sum_range_zero] at hl
  have hq : x ^ 2 - 2 * x ^ 3 ≤ x ^ 2 / (1 + x) ^ 2 ∧ x ^ 2 / (1 + x) ^ 2 ≤ x ^ 2 := by
    constructor
    · rw [le_div_iff₀ (by positivity)]
      nlinarith [pow_pos h0 3, pow_pos h0 4, pow_pos h0 5]
    · rw [div_le_iff₀ (by positivity)]
      nlinarith [pow_pos h0 2, pow_pos h0 3, pow_pos h0 4]
  have hc : x ^ 3 ≤ 1.22e-8 := by
    calc x ^ 3 ≤ (2.3e-3 : ℝ) ^ 3 := pow_le_pow_left₀ h0.le h1 3
      _ ≤ 1.22e-8 := by norm_num
  have hc0 := pow_pos h0 3
  generalize Real.log (1 + 2 * x) = l at *
  generalize x ^ 2 / (1 + x) ^ 2 = q at *
  rw [abs_le]
  norm_num at hc hl ⊢
  ring_nf at hl hq ⊢
  constructor <;> linarith [hl.1, hl.2, hq.1, hq.2]

/-- The closed formula at the energies of the table, in terms of the lists of integers. -/
theorem ultra_values (j : Nat) (hj : j < 40) : ∃ G : Int, ultraValues[j]? = some G ∧ ∀ A,
    |ultra A ((ls_energy_table : EnergyTable ℝ).val (160 + j)) - ((G : ℝ) / 10 ^ 11 - Real.log A / 3)| ≤ 3e-8 := by
  obtain ⟨G, hG, x, hx, hx0, hx1, h⟩ := ultra_good j hj
  have hx1 : x ≤ 2.3e-3 := hx1.trans (by norm_num)
  refine ⟨G, hG, fun A => ?_⟩
  have ht := abs_le.mp (ultra_tail x hx0 hx1)
  have h := abs_le.mp h
  unfold ultra
  rw [← hx]
  rw [abs_le]
  norm_num at h ht ⊢
  constructor <;> linarith [h.1, h.2, ht.1, ht.2]

/-- Where the limit of the closed formula is reached, the formula is below -2.00258. -/
theorem ultra_limit (A T : ℝ) (hA : 0 < A) (hT : 0 < T) (hx : atomic_mass_unit / T ≤ 2.3e-3)
    (h : 10 ≤ (1 + T / atomic_mass_unit) * (Real.exp (Real.log A / 3) * 3.05573356675e-3)) :
    ultra A T ≤ -2.0025802 := by
  have hu : (0 : ℝ) < atomic_mass_unit := by norm_num [atomic_mass_unit]
  obtain ⟨x, hxe⟩ : ∃ x : ℝ, x = atomic_mass_unit / T := ⟨_, rfl⟩
  have hx0 : 0 < x := by rw [hxe]; exact div_pos hu hT
  have hg : 1 + T / atomic_mass_unit = (1 + x) / x := by rw [hxe]; field_simp; ring
  rw [hg] at h
  have hl := Real.log_le_log (by norm_num) h
  rw [Real.log_mul (by positivity) (by positivity), Real.log_mul (Real.exp_pos _).ne' (by norm_num), Real.log_exp,
    Real.log_div (by positivity) hx0.ne'] at hl
  have hlx : Real.log x = Real.log atomic_mass_unit - Real.log T := by rw [hxe, Real.log_div hu.ne' hT.ne']
  have h10 := abs_le.mp LN10_near
  have h10' : (LN10 : ℝ) = 2.30258509299404568401799145468 := rfl
  have hlog : Real.log (1 + x) ≤ x := by
    have := Real.log_le_sub_one_of_pos (show 0 < 1 + x by linarith)
    linarith
  rw [← hxe] at hx
  have ht := abs_le.mp (ultra_tail x hx0 hx)
  have hx2 : x ^ 2 ≤ 5.3e-6 := by
    calc x ^ 2 ≤ (2.3e-3 : ℝ) ^ 2 := pow_le_pow_left₀ hx0.le hx 2
      _ ≤ 5.3e-6 := by norm_num
  unfold ultra
  rw [← hxe, Real.log_div hu.ne' (by norm_num)]
  rw [hlx] at hl
  rw [h10'] at h10
  norm_num at *
  linarith [h10.1, h10.2, ht.1, ht.2]

/-- The quantity that decides whether the calculation uses the closed formula: `gamma * rho`, the limit is 10. -/
noncomputable def gammaRho (A T : ℝ) : ℝ :=
  (1 + T / atomic_mass_unit) * (Real.exp (Real.log A / 3) * 3.05573356675e-3)

theorem gammaRho_mono {A T T' : ℝ} (h : T ≤ T') : gammaRho A T ≤ gammaRho A T' := by
  have hu : (0 : ℝ) < atomic_mass_unit := by norm_num [atomic_mass_unit]
  unfold gammaRho
  gcongr

theorem gammaRho_mass {A A' T : ℝ} (hA : 0 < A) (hT : 0 < T) (h : A ≤ A') : gammaRho A T ≤ gammaRho A' T := by
  have hu : (0 : ℝ) < atomic_mass_unit := by norm_num [atomic_mass_unit]
  have : 0 < T / atomic_mass_unit := div_pos hT hu
  unfold gammaRho
  gcongr

/-- The limit is not reached below the energy 160 of the table. -/
theorem ultra_index (r i : Nat) (hr : r < 108)
    (hge : 10 ≤ gammaRho (1.05 * element_atomic_weight ((r : Int) + 1)) ((ls_energy_table : EnergyTable ℝ).val i)) :
    160 ≤ i := by
  by_contra h
  rw [not_le] at h
  have hw := atomic_weight_pos ((r : Int) + 1) (by omega) (by omega)
  obtain ⟨L, hL, hlog⟩ := logWeights_good r hr
  have hb := ls_energy_table_bounds
  have h105 := abs_le.mp log_105
  have hlog := abs_le.mp hlog
  generalize (element_atomic_weight ((r : Int) + 1) : ℝ) = w at *
  have hlw : Real.log (1.05 * w) = Real.log 1.05 + Real.log w := Real.log_mul (by norm_num) hw.ne'
  have hmono := (EnergyTable.val_le_iff (ls_energy_table : EnergyTable ℝ) hb.1 hb.2.1 i 160).mpr h.le
  have hge := hge.trans (gammaRho_mono hmono)
  obtain ⟨G, hG, hval⟩ := ultra_values 0 (by norm_num)
  obtain ⟨G', hG', x, hx, hx0, hx1, -⟩ := ultra_good 0 (by norm_num)
  have hx1 : x ≤ 2.3e-3 := hx1.trans (by norm_num)
  have hlim := ultra_limit (1.05 * w) _ (by positivity) (EnergyTable.val_pos _ 160) (by rw [← hx]; exact hx1) hge
  have hval := abs_le.mp (hval (1.05 * w))
  have hbelow := ultra_below
  rw [List.all_eq_true] at hbelow
  have hbelow := hbelow L (List.mem_of_getElem? hL)
  rw [decide_eq_true_eq] at hbelow
  have hg0 : ultraValues.getD 0 0 = G := by
    rw [List.getD_eq_getElem?_getD, hG]; rfl
  rw [hg0] at hbelow
  have hbelow : (-200258000000 : ℝ) < G - L - 1626338806 := by exact_mod_cast hbelow
  rw [hlw] at hval
  norm_num at hval hlim h105 hlog hbelow
  linarith [hval.1, hval.2, h105.1, h105.2, hlog.1, hlog.2]

/-- The tables agree with the closed formula to the printed digits. -/
theorem ultra_entry (r i : Nat) (hr : r < 108) (hi : i < 200) :
    (10 ≤ gammaRho (element_atomic_weight ((r : Int) + 1)) ((ls_energy_table : EnergyTable ℝ).val i) →
      |(lsField (ls_coefficients_a[r]'(by rw [ls_lengths.1]; exact hr)) i : ℝ) / 10 ^ 11 -
        ultra (element_atomic_weight ((r : Int) + 1)) ((ls_energy_table : EnergyTable ℝ).val i)| ≤ 5.1e-6) ∧
    (10 ≤ gammaRho (1.05 * element_atomic_weight ((r : Int) + 1)) ((ls_energy_table : EnergyTable ℝ).val i) →
      |(lsField (ls_coefficients_ahi[r]'(by rw [ls_lengths.2.1]; exact hr)) i : ℝ) / 10 ^ 11 -
        ultra (1.05 * element_atomic_weight ((r : Int) + 1)) ((ls_energy_table : EnergyTable ℝ).val i)| ≤ 5.1e-6) := by
  have hw := atomic_weight_pos ((r : Int) + 1) (by omega) (by omega)
  obtain ⟨L, hL, hlog⟩ := logWeights_good r hr
  have hb := ls_energy_table_bounds
  have h105 := abs_le.mp log_105
  have hlog := abs_le.mp hlog
  have hidx := ultra_index r i hr
  generalize (element_atomic_weight ((r : Int) + 1) : ℝ) = w at *
  have hlw : Real.log (1.05 * w) = Real.log 1.05 + Real.log w := Real.log_mul (by norm_num) hw.ne'
  rcases Nat.lt_or_ge i 160 with h | h
  · have hcontra : gammaRho (1.05 * w) ((ls_energy_table : EnergyTable ℝ).val i) < 10 := by
      by_contra hge
      exact absurd (hidx (not_lt.mp hge)) (by omega)
    have hm := gammaRho_mass hw (EnergyTable.val_pos (ls_energy_table : EnergyTable ℝ) i) (show w ≤ 1.05 * w by norm_num; linarith)
    exact ⟨fun hc => by linarith, fun hc => by linarith⟩
  · obtain ⟨j, rfl⟩ := Nat.exists_eq_add_of_le h
    have hj : j < 40 := by omega
    obtain ⟨G, hG, hval⟩ := ultra_values j hj
    obtain ⟨G', hG', x, hx, hx0, hx1, -⟩ := ultra_good j hj
    have hx1 : x ≤ 2.3e-3 := hx1.trans (by norm_num)
    have htab := ultraTables
    rw [List.all_eq_true] at htab
    obtain ⟨hrl, hLe⟩ := List.getElem?_eq_some_iff.mp hL
    have hz : r < ((ls_coefficients_a.zip ls_coefficients_ahi).zip logWeights).length := by
      rw [List.length_zip, List.length_zip, ls_lengths.1, ls_lengths.2.1]
      omega
    have hrow := htab _ (List.getElem_mem hz)
    simp only [List.getElem_zip, hLe] at hrow
    unfold ultraRow at hrow
    rw [List.all_eq_true] at hrow
    obtain ⟨hjl, hGe⟩ := List.getElem?_eq_some_iff.mp hG
    have hzi : j < ultraValues.zipIdx.length := by rw [List.length_zipIdx]; exact hjl
    have hcell := hrow _ (List.getElem_mem hzi)
    simp only [List.getElem_zipIdx, hGe, Nat.zero_add, Bool.and_eq_true, Bool.or_eq_true, decide_eq_true_eq] at hcell
    obtain ⟨hc1, hc2⟩ := hcell
    have hT := EnergyTable.val_pos (ls_energy_table : EnergyTable ℝ) (160 + j)
    refine ⟨fun hlim => ?_, fun hlim => ?_⟩
    · have hlim := ultra_limit w _ hw hT (by rw [← hx]; exact hx1) hlim
      have hval := abs_le.mp (hval w)
      generalize ultra w ((ls_energy_table : EnergyTable ℝ).val (160 + j)) = v at *
      generalize lsField (ls_coefficients_a[r]'(by rw [ls_lengths.1]; exact hr)) (160 + j) = f at *
      rcases hc1 with hc | ⟨hc, hc'⟩
      · have hc : (-200258000000 : ℝ) < G - L := by exact_mod_cast hc
        exfalso
        norm_num at hval hlim hlog hc
        linarith [hval.1, hval.2, hlog.1, hlog.2]
      · have hc : (-500500 : ℝ) ≤ f - (G - L) := by exact_mod_cast hc
        have hc' : (f : ℝ) - (G - L) ≤ 500500 := by exact_mod_cast hc'
        rw [abs_le]
        norm_num at hval hlog hc hc' ⊢
        constructor <;> linarith [hval.1, hval.2, hlog.1, hlog.2]
    · have hlim := ultra_limit (1.05 * w) _ (by positivity) hT (by rw [← hx]; exact hx1) hlim
      have hval := abs_le.mp (hval (1.05 * w))
      rw [hlw] at hval
      generalize ultra (1.05 * w) ((ls_energy_table : EnergyTable ℝ).val (160 + j)) = v at *
      generalize lsField (ls_coefficients_ahi[r]'(by rw [ls_lengths.2.1]; exact hr)) (160 + j) = f at *
      rcases hc2 with hc | ⟨hc, hc'⟩
      · have hc : (-200258000000 : ℝ) < G - L - 1626338806 := by exact_mod_cast hc
        exfalso
        norm_num at hval hlim hlog hc h105
        linarith [hval.1, hval.2, hlog.1, hlog.2, h105.1, h105.2]
      · have hc : (-500500 : ℝ) ≤ f - (G - L - 1626338806) := by exact_mod_cast hc
        have hc' : (f : ℝ) - (G - L - 1626338806) ≤ 500500 := by exact_mod_cast hc'
        rw [abs_le]
        norm_num at hval hlog hc hc' h105 ⊢
        constructor <;> linarith [hval.1, hval.2, hlog.1, hlog.2, h105.1, h105.2]

theorem ls_table_le (i : Nat) (hi : i < 200) : (ls_energy_table : EnergyTable ℝ).val i ≤ (ls_energy_table : EnergyTable ℝ).val 199 := by
  have hb := ls_energy_table_bounds
  exact (EnergyTable.val_le_iff (ls_energy_table : EnergyTable ℝ) hb.1 hb.2.1 i 199).mpr (by omega)

theorem ls_table_readable (i : Nat) (hi : i < 200) : LindhardReadable ((ls_energy_table : EnergyTable ℝ).val i) := by
  have hb := ls_energy_table_bounds
  unfold LindhardReadable
  rcases Nat.lt_or_ge i 199 with h | h
  · left
    have h1 := ls_gap i
    have h2 := (EnergyTable.val_le_iff (ls_energy_table : EnergyTable ℝ) hb.1 hb.2.1 (i + 1) 199).mpr (by omega)
    norm_num at h1 h2 ⊢
    linarith
  · right
    rw [show i = 199 by omega]

/-- C105, at the tabulated energies and masses: for every element up to 108, where the calculation of the
Lindhard-Sørensen correction uses its closed formula, the lookup returns the calculated value to the printed digits. -/
theorem lindhard_table_ultra (ci : Bool) (fuel : Nat) (p : Projectile ℝ) (n : Int) (hp : p.Ion n) (hn : n ≤ 108) (i : Nat)
    (hi : i < 200) (hT : p.T = (ls_energy_table : EnergyTable ℝ).val i)
    (hA : p.A = element_atomic_weight n ∨ p.A = 1.05 * element_atomic_weight n)
    (h : 10 ≤ (1 + p.T / atomic_mass_unit) * (Real.exp (Real.log p.A / 3) * 3.05573356675e-3)) :
    ∃ v e, precalculated_lindhard ci p = .ok v ∧ bethek_lindhard fuel p = some e ∧ |v - e| ≤ 5.1e-6 := by
  have hb := ls_energy_table_bounds
  have hval := EnergyTable.val_le_iff (ls_energy_table : EnergyTable ℝ) hb.1 hb.2.1
  have hvallt := EnergyTable.val_lt_iff (ls_energy_table : EnergyTable ℝ) hb.1 hb.2.1
  have hwp := atomic_weight_pos n hp.pos (by omega)
  have hT0 : 0 < p.T := by rw [hT]; exact EnergyTable.val_pos _ i
  obtain ⟨k, θ, s, r, hr, hrn, hk, ht0, ht1, hs, hb0, hb1, hθ, c, hc, hX⟩ := lindhard_affine ci hp hn
    (by rw [hT, ← ls_first]; exact (hval 0 i).mpr (Nat.zero_le i)) (by rw [hT]; exact ls_table_le i hi)
    (by rw [hT]; exact ls_table_readable i hi)
  have hrn' : n = (r : Int) + 1 := by omega
  refine ⟨_, _, hX, bethek_ultra fuel p hp.A hT0 h, ?_⟩
  have hik : i ≤ k + 1 := (hval i (k + 1)).mp (by rw [← hT]; exact hb1)
  have hki : k ≤ i := by
    by_contra hlt
    have h1 := (hval (i + 1) k).mpr (by omega)
    have h2 := ls_gap i
    rw [← hT] at h2
    norm_num at h1 h2 hb0
    linarith
  have hgap := (hvallt k (k + 1)).mpr (by omega)
  have hci : c k + θ * (c (k + 1) - c k) = c i := by
    rcases Nat.lt_or_ge k i with hlt | hge
    · have hi' : i = k + 1 := by omega
      have : θ = 1 := by
        rw [hT, hi'] at hθ
        have h0 : (θ - 1) * ((ls_energy_table : EnergyTable ℝ).val (k + 1) - (ls_energy_table : EnergyTable ℝ).val k) = 0 := by
          linarith
        rcases mul_eq_zero.mp h0 with h | h <;> linarith
      rw [this, hi']; ring
    · have hi' : i = k := by omega
      have : θ = 0 := by
        rw [hT, hi', sub_self] at hθ
        rcases mul_eq_zero.mp hθ.symm with h | h
        · exact h
        · linarith
      rw [this, hi']; ring
  rw [hci, hc i]
  have hent := ultra_entry r i hr hi
  rw [← hrn'] at hent
  rw [hT] at h ⊢
  rcases hA with hA | hA
  · have hs0 : s = 0 := by rw [hs, hA]; simp
    rw [hA] at h ⊢
    rw [hs0, zero_mul, add_zero]
    exact hent.1 h
  · have hs0 : s = 1 := by
      rw [hs, hA]
      field_simp
      norm_num
    rw [hA] at h ⊢
    rw [hs0, one_mul, add_sub_cancel]
    exact hent.2 h

/-- The logarithm near 1. -/
theorem log_near (y b : ℝ) (hb : |y| ≤ b) (hb1 : b < 1) :
    |Real.log (1 + y) - (y - y ^ 2 / 2 + y ^ 3 / 3)| ≤ b ^ 4 / (1 - b) := by
  have h := Real.abs_log_sub_add_sum_range_le (x := -y) (by rw [abs_neg]; linarith) 3
  rw [abs_neg, sub_neg_eq_add] at h
  simp only [Finset.sum_range_succ, Finset.sum_range_zero] at h
  have e : (0 + (-y) ^ (0 + 1) / ((0 : ℕ) + 1) + (-y) ^ (1 + 1) / ((1 : ℕ) + 1) + (-y) ^ (2 + 1) / ((2 : ℕ) + 1) + Real.log (1 + y) : ℝ) =
      Real.log (1 + y) - (y - y ^ 2 / 2 + y ^ 3 / 3) := by
    push_cast; ring
  rw [e] at h
  refine h.trans ?_
  have h0 := abs_nonneg y
  apply div_le_div₀ (by have := h0.trans hb; positivity) (pow_le_pow_left₀ h0 hb _) (by linarith) (by linarith)

/-- The error of linear interpolation of the logarithm over an interval whose ends have the ratio `1 + d`. -/
theorem log_interpolation (d θ : ℝ) (hd0 : 0 < d) (hd : d ≤ 0.0845) (h0 : -1e-12 ≤ θ) (h1 : θ ≤ 1) :
    |Real.log (1 + θ * d) - θ * Real.log (1 + d)| ≤ 1.01e-3 := by
  have hθ : |θ| ≤ 1 := abs_le.mpr ⟨by norm_num at h0 ⊢; linarith, h1⟩
  have a1 := abs_le.mp (log_near d 0.0845 (by rw [abs_of_pos hd0]; exact hd) (by norm_num))
  have a2 := abs_le.mp (log_near (θ * d) 0.0845 (by
    rw [abs_mul, abs_of_pos hd0]
    calc |θ| * d ≤ 1 * 0.0845 := mul_le_mul hθ hd hd0.le (by norm_num)
      _ = 0.0845 := by norm_num) (by norm_num))
  have a3 : |θ * (Real.log (1 + d) - (d - d ^ 2 / 2 + d ^ 3 / 3))| ≤ 5.57e-5 := by
    rw [abs_mul]
    calc |θ| * _ ≤ 1 * 5.57e-5 := mul_le_mul hθ (by
          refine (abs_le.mpr a1).trans ?_
          norm_num) (abs_nonneg _) (by norm_num)
      _ = 5.57e-5 := by norm_num
  have a3 := abs_le.mp a3
  have key : |θ * d - (θ * d) ^ 2 / 2 + (θ * d) ^ 3 / 3 - θ * (d - d ^ 2 / 2 + d ^ 3 / 3)| ≤ 8.95e-4 := by
    have e : θ * d - (θ * d) ^ 2 / 2 + (θ * d) ^ 3 / 3 - θ * (d - d ^ 2 / 2 + d ^ 3 / 3) =
        θ * (1 - θ) * (d ^ 2 * (1 / 2 - (1 + θ) * d / 3)) := by ring
    rw [e, abs_mul]
    have b1 : |θ * (1 - θ)| ≤ 1 / 4 := by
      rw [abs_le]
      norm_num at h0
      constructor <;> nlinarith [sq_nonneg (θ - 1 / 2)]
    have b2 : |d ^ 2 * (1 / 2 - (1 + θ) * d / 3)| ≤ 0.0845 ^ 2 / 2 := by
      rw [abs_mul, abs_of_pos (by positivity)]
      have b3 : |1 / 2 - (1 + θ) * d / 3| ≤ 1 / 2 := by
        norm_num at h0 hd
        have : 0 ≤ (1 + θ) * d := mul_nonneg (by linarith) hd0.le
        have : (1 + θ) * d ≤ 2 * d := by nlinarith
        rw [abs_le]
        constructor <;> linarith
      calc d ^ 2 * _ ≤ 0.0845 ^ 2 * (1 / 2) := mul_le_mul (pow_le_pow_left₀ hd0.le hd 2) b3 (abs_nonneg _) (by norm_num)
        _ = 0.0845 ^ 2 / 2 := by ring
    calc _ ≤ 1 / 4 * ((0.0845 : ℝ) ^ 2 / 2) := mul_le_mul b1 b2 (abs_nonneg _) (by norm_num)
      _ ≤ 8.95e-4 := by norm_num
  have key := abs_le.mp key
  generalize Real.log (1 + d) = l at *
  generalize Real.log (1 + θ * d) = l' at *
  rw [abs_le]
  have n1 : (0.0845 : ℝ) ^ 4 / (1 - 0.0845) ≤ 5.57e-5 := by norm_num
  norm_num at *
  constructor <;> linarith [a2.1, a2.2, a3.1, a3.2, key.1, key.2]

/-- The ratio of neighbouring energies of the table. -/
theorem ls_ratio (i : Nat) : ∃ d : ℝ, 0 < d ∧ d ≤ 0.0845 ∧
    (ls_energy_table : EnergyTable ℝ).val (i + 1) = (1 + d) * (ls_energy_table : EnergyTable ℝ).val i := by
  refine ⟨Real.exp (LN10 * (7 / 199)) - 1, ?_, ?_, ?_⟩
  · have := Real.add_one_lt_exp (show (LN10 : ℝ) * (7 / 199) ≠ 0 by have := LN10_pos; positivity)
    have h2 : (0 : ℝ) < LN10 * (7 / 199) := by have := LN10_pos; positivity
    linarith
  · have h4 : (LN10 : ℝ) = 2.30258509299404568401799145468 := rfl
    have h := exp_le 1 (LN10 * (7 / 199)) 1.0845 (by norm_num) (by rw [h4]; norm_num) (by rw [h4]; norm_num)
      (by
        rw [h4]
        norm_num [Finset.sum_range_succ, Nat.factorial])
    norm_num at h ⊢
    linarith
  · rw [EnergyTable.val_eq, EnergyTable.val_eq, add_sub_cancel, ← Real.exp_add, ls_step]
    congr 1
    push_cast
    ring

theorem tail_diff (x y : ℝ) (hx0 : 0 < x) (hx : x ≤ 2.3e-3) (hy0 : 0 < y) (hy : y ≤ 2.3e-3) (h : |x - y| ≤ 1.77e-4) :
    |(-Real.log (1 + 2 * x) / 2 - x ^ 2 / (1 + x) ^ 2 / 2) - (-Real.log (1 + 2 * y) / 2 - y ^ 2 / (1 + y) ^ 2 / 2)| ≤
      1.78e-4 := by
  have tx := abs_le.mp (ultra_tail x hx0 hx)
  have ty := abs_le.mp (ultra_tail y hy0 hy)
  generalize -Real.log (1 + 2 * x) / 2 - x ^ 2 / (1 + x) ^ 2 / 2 = p at *
  generalize -Real.log (1 + 2 * y) / 2 - y ^ 2 / (1 + y) ^ 2 / 2 = q at *
  have e : x ^ 2 / 2 - y ^ 2 / 2 = (x - y) * ((x + y) / 2) := by ring
  have hsq : |x ^ 2 / 2 - y ^ 2 / 2| ≤ 4.1e-7 := by
    rw [e, abs_mul, abs_of_pos (show 0 < (x + y) / 2 by linarith)]
    calc _ ≤ 1.77e-4 * (2.3e-3 : ℝ) := mul_le_mul h (by linarith) (by linarith) (by norm_num)
      _ ≤ 4.1e-7 := by norm_num
  have hsq := abs_le.mp hsq
  have h := abs_le.mp h
  rw [abs_le]
  norm_num at tx ty hsq h ⊢
  constructor <;> linarith [tx.1, tx.2, ty.1, ty.2, hsq.1, hsq.2, h.1, h.2]

/-- The error of linear interpolation of the closed formula between neighbouring energies. -/
theorem ultra_interpolation (A a d θ : ℝ) (ha : 0 < a) (hd0 : 0 < d) (hd : d ≤ 0.0845) (h0 : -1e-12 ≤ θ) (h1 : θ ≤ 1)
    (hx : atomic_mass_unit / a ≤ 2.25e-3) :
    |ultra A ((1 + θ * d) * a) - (ultra A a + θ * (ultra A ((1 + d) * a) - ultra A a))| ≤ 1.4e-3 := by
  have hu : (0 : ℝ) < atomic_mass_unit := by norm_num [atomic_mass_unit]
  obtain ⟨x, hxe⟩ : ∃ x : ℝ, x = atomic_mass_unit / a := ⟨_, rfl⟩
  rw [← hxe] at hx
  have hx0 : 0 < x := by rw [hxe]; exact div_pos hu ha
  have hθd : -1e-12 ≤ θ * d := by norm_num at h0 hd ⊢; nlinarith
  have hθd1 : θ * d ≤ 0.0845 := by nlinarith
  have hp : 0 < 1 + θ * d := by norm_num at hθd; linarith
  have hp' : 0 < 1 + d := by linarith
  have e1 : atomic_mass_unit / ((1 + θ * d) * a) = x / (1 + θ * d) := by rw [hxe]; field_simp
  have e2 : atomic_mass_unit / ((1 + d) * a) = x / (1 + d) := by rw [hxe]; field_simp
  have hl := abs_le.mp (log_interpolation d θ hd0 hd h0 h1)
  have hy0 : 0 < x / (1 + θ * d) := div_pos hx0 hp
  have hz0 : 0 < x / (1 + d) := div_pos hx0 hp'
  have hy1 : x / (1 + θ * d) ≤ x + 1e-14 := by
    rw [div_le_iff₀ hp]
    norm_num at hθd hx ⊢
    nlinarith
  have hyz : x / (1 + d) ≤ x / (1 + θ * d) := by
    apply div_le_div_of_nonneg_left hx0.le hp
    nlinarith
  have hzx : x - x / (1 + d) ≤ 1.76e-4 := by
    have : x - x / (1 + d) = x * (d / (1 + d)) := by field_simp; ring
    rw [this]
    have h2 : d / (1 + d) ≤ 0.078 := by
      rw [div_le_iff₀ hp']
      norm_num at hd ⊢
      linarith
    calc x * (d / (1 + d)) ≤ 2.25e-3 * 0.078 := mul_le_mul hx h2 (by positivity) (by norm_num)
      _ ≤ 1.76e-4 := by norm_num
  generalize hye : x / (1 + θ * d) = y at *
  generalize hze : x / (1 + d) = z at *
  have hyb : y ≤ 2.3e-3 := by norm_num at hx hy1 ⊢; linarith
  have hxb : x ≤ 2.3e-3 := by norm_num at hx ⊢; linarith
  have hzb : z ≤ 2.3e-3 := hyz.trans hyb
  have q1 := abs_le.mp (tail_diff y x hy0 hyb hx0 hxb (by
    rw [abs_le]; norm_num at hy1 hzx ⊢; constructor <;> linarith))
  have q2 : |θ * ((-Real.log (1 + 2 * z) / 2 - z ^ 2 / (1 + z) ^ 2 / 2) -
      (-Real.log (1 + 2 * x) / 2 - x ^ 2 / (1 + x) ^ 2 / 2))| ≤ 1.78e-4 := by
    rw [abs_mul]
    calc |θ| * _ ≤ 1 * 1.78e-4 := mul_le_mul (abs_le.mpr ⟨by norm_num at h0 ⊢; linarith, h1⟩)
          (tail_diff z x hz0 hzb hx0 hxb (by
            rw [abs_le]; norm_num at hy1 hzx ⊢; constructor <;> linarith)) (abs_nonneg _) (by norm_num)
      _ = 1.78e-4 := by norm_num
  have q2 := abs_le.mp q2
  unfold ultra
  rw [e1, e2, ← hxe, Real.log_mul hp.ne' ha.ne', Real.log_mul hp'.ne' ha.ne']
  clear hθd hθd1 hy1 hyz hzx hyb hxb hzb hye hze
  generalize Real.log (1 + θ * d) = l1 at *
  generalize Real.log (1 + d) = l2 at *
  generalize Real.log a = la at *
  generalize Real.log A = lA at *
  generalize Real.log (atomic_mass_unit / 3.05573356675e-3) = K at *
  generalize Real.log (1 + 2 * x) = m1 at *
  generalize Real.log (1 + 2 * y) = m2 at *
  generalize Real.log (1 + 2 * z) = m3 at *
  generalize x ^ 2 / (1 + x) ^ 2 = n1 at *
  generalize y ^ 2 / (1 + y) ^ 2 = n2 at *
  generalize z ^ 2 / (1 + z) ^ 2 = n3 at *
  rw [abs_le]
  norm_num at hl q1 q2 ⊢
  constructor <;> linarith [hl.1, hl.2, q1.1, q1.2, q2.1, q2.2]

/-- The error of linear interpolation in mass. -/
theorem log_mass (y : ℝ) (hy : |y| ≤ 0.1) : |20 * y * Real.log 1.05 - Real.log (1 + y)| / 3 ≤ 2.63e-3 := by
  have a1 := abs_le.mp (log_near y 0.1 hy (by norm_num))
  have h105 := abs_le.mp log_105
  have hy := abs_le.mp hy
  have e : |20 * y * (Real.log 1.05 - 0.04879016418)| ≤ 1e-9 := by
    rw [abs_mul]
    have h1 : |20 * y| ≤ 2 := by rw [abs_le]; norm_num at hy ⊢; constructor <;> linarith [hy.1, hy.2]
    have h2 : |Real.log 1.05 - 0.04879016418| ≤ 3e-10 := by
      rw [abs_le]; norm_num at h105 ⊢; constructor <;> linarith [h105.1, h105.2]
    calc _ ≤ 2 * (3e-10 : ℝ) := mul_le_mul h1 h2 (abs_nonneg _) (by norm_num)
      _ ≤ 1e-9 := by norm_num
  have e := abs_le.mp e
  rw [div_le_iff₀ (by norm_num), abs_le]
  generalize Real.log 1.05 = l at *
  generalize Real.log (1 + y) = m at *
  norm_num at a1 e hy ⊢
  have b1 : y ^ 2 ≤ 1 / 100 := by nlinarith [hy.1, hy.2]
  have b2 : |y ^ 3| ≤ 1 / 1000 := by
    rw [abs_pow]
    calc |y| ^ 3 ≤ (1 / 10) ^ 3 := pow_le_pow_left₀ (abs_nonneg y) (abs_le.mpr (by constructor <;> linarith [hy.1, hy.2])) 3
      _ = 1 / 1000 := by norm_num
  have b2 := abs_le.mp b2
  have b0 := sq_nonneg y
  constructor <;> linarith [a1.1, a1.2, e.1, e.2, hy.1, hy.2, b2.1, b2.2]

/-- Sum of the errors. -/
theorem ultra_combine (C1 C2 U1 U2 U θ S M : ℝ) (P : Prop) (ht0 : -1e-12 ≤ θ) (ht1 : θ ≤ 1)
    (d1 : -2.56e-5 ≤ C1 - (U1 - S) ∧ C1 - (U1 - S) ≤ 2.56e-5) (d2 : -2.56e-5 ≤ C2 - (U2 - S) ∧ C2 - (U2 - S) ≤ 2.56e-5)
    (hin : -1.4e-3 ≤ U - (U1 + θ * (U2 - U1)) ∧ U - (U1 + θ * (U2 - U1)) ≤ 1.4e-3) (hm : |S - M| ≤ 2.63e-3)
    (hP : P → S = M) :
    |C1 + θ * (C2 - C1) - (U - M)| ≤ 4.1e-3 ∧ (P → |C1 + θ * (C2 - C1) - (U - M)| ≤ 1.5e-3) := by
  have key : |C1 + θ * (C2 - C1) - (U1 + θ * (U2 - U1) - S)| ≤ 2.57e-5 := by
    have e : C1 + θ * (C2 - C1) - (U1 + θ * (U2 - U1) - S) = (1 - θ) * (C1 - (U1 - S)) + θ * (C2 - (U2 - S)) := by ring
    rw [e]
    generalize C1 - (U1 - S) = p at *
    generalize C2 - (U2 - S) = q at *
    rw [abs_le]
    norm_num at *
    constructor <;> nlinarith [d1.1, d1.2, d2.1, d2.2]
  have key := abs_le.mp key
  have hm := abs_le.mp hm
  refine ⟨?_, fun h => ?_⟩
  · rw [abs_le]
    norm_num at *
    constructor <;> linarith [key.1, key.2, hm.1, hm.2, hin.1, hin.2]
  · rw [← hP h, abs_le]
    norm_num at *
    constructor <;> linarith [key.1, key.2, hin.1, hin.2]

/-- C105, between the tabulated energies and masses: for every element up to 108 and every mass that differs from the
natural one by at most 10 %, above 1.15 times the limit of the closed formula and up to 10 TeV/u, the lookup differs from the
calculated value by at most 0.0041, for the natural mass by at most 0.0015. -/
theorem lindhard_lookup_ultra (ci : Bool) (fuel : Nat) (p : Projectile ℝ) (n : Int) (hp : p.Ion n) (hn : n ≤ 108)
    (h9 : p.T ≤ (ls_energy_table : EnergyTable ℝ).val 199) (hT : LindhardReadable p.T)
    (hA : |p.A - element_atomic_weight n| ≤ 0.1 * element_atomic_weight n)
    (h : 11.5 ≤ (1 + p.T / atomic_mass_unit) * (Real.exp (Real.log p.A / 3) * 3.05573356675e-3)) :
    ∃ v e, precalculated_lindhard ci p = .ok v ∧ bethek_lindhard fuel p = some e ∧ |v - e| ≤ 4.1e-3 ∧
      (p.A = element_atomic_weight n → |v - e| ≤ 1.5e-3) := by
  have hu : (0 : ℝ) < atomic_mass_unit := by norm_num [atomic_mass_unit]
  have hwp := atomic_weight_pos n hp.pos (by omega)
  have hA' := abs_le.mp hA
  have hA1 : p.A ≤ 1.1 * element_atomic_weight n := by norm_num at hA' ⊢; linarith [hA'.2]
  -- the cube root of the mass
  have hroot : ∀ a : ℝ, 0 < a → Real.exp (Real.log (1.1 * a) / 3) ≤ 1.0334 * Real.exp (Real.log a / 3) := by
    intro a ha
    rw [Real.log_mul (by norm_num) ha.ne', add_div, Real.exp_add]
    refine mul_le_mul_of_nonneg_right ?_ (Real.exp_pos _).le
    rw [← Real.le_log_iff_exp_le (by norm_num), div_le_iff₀ (by norm_num)]
    have : Real.log 1.0334 * 3 = Real.log (1.0334 ^ 3) := by rw [Real.log_pow]; push_cast; ring
    rw [this]
    exact Real.log_le_log (by norm_num) (by norm_num)
  have hρ : Real.exp (Real.log p.A / 3) ≤ 1.0334 * Real.exp (Real.log (element_atomic_weight n) / 3) := by
    refine le_trans ?_ (hroot _ hwp)
    exact Real.exp_le_exp.mpr (by
      have := Real.log_le_log hp.A hA1
      linarith)
  have hT1 : 1 ≤ p.T := by
    by_contra hlt
    rw [not_le] at hlt
    obtain ⟨r, hr⟩ := Int.eq_ofNat_of_zero_le (show 0 ≤ n - 1 by linarith [hp.pos])
    have hrn : n = (r : Int) + 1 := by omega
    have g0 : 0 < Real.exp (Real.log p.A / 3) * 3.05573356675e-3 := by positivity
    have g1 : 10 ≤ gammaRho (1.05 * element_atomic_weight n) ((ls_energy_table : EnergyTable ℝ).val 0) := by
      refine le_trans ?_ (gammaRho_mass hwp (EnergyTable.val_pos _ 0) (show (element_atomic_weight n : ℝ) ≤ _ by norm_num; linarith))
      unfold gammaRho
      rw [ls_first]
      have h1 : 1 + p.T / atomic_mass_unit ≤ 1 + 1 / atomic_mass_unit := by gcongr
      have h2 : 0 < 1 + 1 / (atomic_mass_unit : ℝ) := by positivity
      have h3 := mul_le_mul_of_nonneg_right h1 g0.le
      have h4 := mul_le_mul_of_nonneg_left hρ h2.le
      have h5 : 0 < (1 + 1 / (atomic_mass_unit : ℝ)) * Real.exp (Real.log (element_atomic_weight n) / 3) := by positivity
      generalize (1 + 1 / (atomic_mass_unit : ℝ)) = g at *
      norm_num at h h3 h4 ⊢
      nlinarith
    rw [hrn] at g1
    have := ultra_index r 0 (by omega) g1
    omega
  obtain ⟨i, θ, s, r, hr, hrn, hi, ht0, ht1, hs, hb0, hb1, hθ, c, hc, hX⟩ := lindhard_affine ci hp hn hT1 h9 hT
  have hrn' : n = (r : Int) + 1 := by omega
  obtain ⟨d, hd0, hd, hd1⟩ := ls_ratio i
  obtain ⟨a, ha⟩ : ∃ a, a = (ls_energy_table : EnergyTable ℝ).val i := ⟨_, rfl⟩
  have ha0 : 0 < a := by rw [ha]; exact EnergyTable.val_pos _ i
  rw [← ha] at hb0 hθ hd1
  have hTa : p.T = (1 + θ * d) * a := by rw [hd1] at hθ; linarith
  have hTb : p.T ≤ (1 + d) * a := by rw [hd1] at hb1; exact hb1
  -- the limit at the neighbouring energies
  obtain ⟨w, hw⟩ : ∃ w : ℝ, w = element_atomic_weight n := ⟨_, rfl⟩
  rw [← hw] at hwp hA hA' hA1 hρ hs
  have hlim : 10 ≤ gammaRho w a := by
    unfold gammaRho
    have g0 : 0 < Real.exp (Real.log w / 3) * 3.05573356675e-3 := by positivity
    have g1 : 1 + p.T / atomic_mass_unit ≤ 1.0845 * (1 + a / atomic_mass_unit) := by
      have h1 : p.T / atomic_mass_unit ≤ (1 + d) * (a / atomic_mass_unit) := by
        rw [← mul_div_assoc]; gcongr
      have h2 : 0 < a / atomic_mass_unit := div_pos ha0 hu
      norm_num at hd ⊢
      nlinarith
    have g2 : Real.exp (Real.log p.A / 3) * 3.05573356675e-3 ≤ 1.0334 * (Real.exp (Real.log w / 3) * 3.05573356675e-3) := by
      nlinarith [hρ]
    have g3 : 0 < 1 + a / atomic_mass_unit := by positivity
    have g4 := mul_le_mul g1 g2 (by positivity) (by positivity)
    have g5 := mul_pos g3 g0
    norm_num at h g4 ⊢
    nlinarith
  have hw105 : w ≤ 1.05 * w := by norm_num; linarith
  have hwr : w = element_atomic_weight ((r : Int) + 1) := by rw [hw, hrn']
  have hbpos := EnergyTable.val_pos (ls_energy_table : EnergyTable ℝ) (i + 1)
  have hab : a ≤ (ls_energy_table : EnergyTable ℝ).val (i + 1) := by rw [hd1]; nlinarith
  have l1 : 10 ≤ gammaRho (1.05 * w) a := hlim.trans (gammaRho_mass hwp ha0 hw105)
  have l2 : 10 ≤ gammaRho w ((ls_energy_table : EnergyTable ℝ).val (i + 1)) := hlim.trans (gammaRho_mono hab)
  have l3 : 10 ≤ gammaRho (1.05 * w) ((ls_energy_table : EnergyTable ℝ).val (i + 1)) := l1.trans (gammaRho_mono hab)
  have hi160 : 160 ≤ i := ultra_index r i hr (by rw [← hwr, ← ha]; exact l1)
  have hx : atomic_mass_unit / a ≤ 2.25e-3 := by
    obtain ⟨G, -, x, hx, -, hx1, -⟩ := ultra_good (i - 160) (by omega)
    rw [show 160 + (i - 160) = i by omega, ← ha] at hx
    rw [← hx]; exact hx1
  have e1 := ultra_entry r i hr (by omega)
  have e2 := ultra_entry r (i + 1) hr (by omega)
  rw [← hwr] at e1 e2
  rw [← ha] at e1
  have c1 := e1.1 hlim
  have c2 := e1.2 l1
  have c3 := e2.1 l2
  have c4 := e2.2 l3
  refine ⟨_, _, hX, bethek_ultra fuel p hp.A (by linarith) (le_trans (by norm_num) h), ?_⟩
  have hin := abs_le.mp (ultra_interpolation w a d θ ha0 hd0 hd ht0 ht1 hx)
  have hmul : ∀ T, ultra (1.05 * w) T = ultra w T - Real.log 1.05 / 3 := by
    intro T
    unfold ultra
    rw [Real.log_mul (by norm_num) hwp.ne']
    ring
  rw [hmul] at c2 c4
  obtain ⟨y, hy⟩ : ∃ y, y = (p.A - w) / w := ⟨_, rfl⟩
  have hyb : |y| ≤ 0.1 := by
    rw [hy, abs_div, abs_of_pos hwp, div_le_iff₀ hwp]; exact hA
  have hpA : ultra p.A p.T = ultra w p.T - Real.log (1 + y) / 3 := by
    have : p.A = (1 + y) * w := by rw [hy]; field_simp; ring
    have hy1 : 0 < 1 + y := by have := (abs_le.mp hyb).1; norm_num at this; linarith
    unfold ultra
    rw [this, Real.log_mul hy1.ne' hwp.ne']
    ring
  rw [hpA]
  rw [← hTa, ← hd1] at hin
  rw [← hy] at hs
  have hm := log_mass y hyb
  have hs2 : |s| ≤ 2 := by
    rw [hs, abs_mul, abs_of_pos (by norm_num)]
    norm_num at hyb ⊢; linarith
  rw [hc i, hc (i + 1)]
  have hcomb : ∀ f g U V : ℝ, |f / 10 ^ 11 - U| ≤ 5.1e-6 → |g / 10 ^ 11 - (U - V)| ≤ 5.1e-6 →
      |(f + s * (g - f)) / 10 ^ 11 - (U - s * V)| ≤ 2.56e-5 := by
    intro f g U V h1 h2
    have e : (f + s * (g - f)) / 10 ^ 11 - (U - s * V) = (1 - s) * (f / 10 ^ 11 - U) + s * (g / 10 ^ 11 - (U - V)) := by ring
    have hs3 : |1 - s| ≤ 3 := by
      have := abs_le.mp hs2
      rw [abs_le]; constructor <;> linarith [this.1, this.2]
    rw [e]
    refine (abs_add_le _ _).trans ?_
    rw [abs_mul, abs_mul]
    have q1 := mul_le_mul hs3 h1 (abs_nonneg _) (by norm_num)
    have q2 := mul_le_mul hs2 h2 (abs_nonneg _) (by norm_num)
    norm_num at q1 q2 ⊢
    linarith
  have d1 := abs_le.mp (hcomb _ _ _ _ c1 c2)
  have d2 := abs_le.mp (hcomb _ _ _ _ c3 c4)
  have d3 : y = 0 → s = 0 := by intro h; rw [hs, h, mul_zero]
  have d4 : p.A = w → y = 0 := by intro h; rw [hy, h, sub_self, zero_div]
  have hsl : s * Real.log 1.05 = 20 * y * Real.log 1.05 := by rw [hs]
  generalize (lsField (ls_coefficients_a[r]'(by rw [ls_lengths.1]; exact hr)) i : ℝ) = f1 at *
  generalize (lsField (ls_coefficients_ahi[r]'(by rw [ls_lengths.2.1]; exact hr)) i : ℝ) = g1 at *
  generalize (lsField (ls_coefficients_a[r]'(by rw [ls_lengths.1]; exact hr)) (i + 1) : ℝ) = f2 at *
  generalize (lsField (ls_coefficients_ahi[r]'(by rw [ls_lengths.2.1]; exact hr)) (i + 1) : ℝ) = g2 at *
  exact ultra_combine _ _ _ _ _ _ _ _ _ ht0 ht1 d1 d2 hin (by
    rw [← mul_div_assoc, hsl, ← sub_div, abs_div, abs_of_pos (show (0 : ℝ) < 3 by norm_num)]; exact hm) (fun hAw => by
    rw [← hw] at hAw
    rw [d4 hAw, d3 (d4 hAw)]
    simp)

/-- Uranium at the last energy of the table. -/
example : ∃ v e, precalculated_lindhard true (⟨element_atomic_weight 92, 92, 92, (ls_energy_table : EnergyTable ℝ).val 199⟩) =
      .ok v ∧
    bethek_lindhard 0 (⟨element_atomic_weight 92, 92, 92, (ls_energy_table : EnergyTable ℝ).val 199⟩ : Projectile ℝ) = some e ∧
      |v - e| ≤ 5.1e-6 := by
  have hw : (element_atomic_weight 92 : ℝ) = 238.029 := by
    have : element_atomic_weights[92]? = some ⟨238029, 3⟩ := rfl
    unfold element_atomic_weight
    rw [if_pos (by norm_num), show (92 : Int).toNat = 92 from rfl, this]
    norm_num [Dec.toScalar_real]
  have hv : (6e6 : ℝ) ≤ (ls_energy_table : EnergyTable ℝ).val 199 := by
    rw [EnergyTable.val_eq, ls_step]
    calc (6e6 : ℝ) ≤ 2.718 ^ 16 := by norm_num
      _ ≤ Real.exp 1 ^ 16 := pow_le_pow_left₀ (by norm_num) (by have := Real.exp_one_gt_d9; norm_num at this ⊢; linarith) _
      _ ≤ _ := by
        rw [← Real.exp_nat_mul]
        apply Real.exp_le_exp.mpr
        norm_num [ls_energy_table, LN10]
  have hroot : (6 : ℝ) ≤ Real.exp (Real.log 238.029 / 3) := by
    rw [← Real.log_le_iff_le_exp (by norm_num), le_div_iff₀ (by norm_num)]
    have : Real.log 6 * 3 = Real.log (6 ^ 3) := by rw [Real.log_pow]; push_cast; ring
    rw [this]
    exact Real.log_le_log (by norm_num) (by norm_num)
  refine lindhard_table_ultra true 0 _ 92 ⟨by norm_num, by norm_num, ?_, ?_⟩ (by norm_num) 199 (by norm_num) rfl (Or.inl rfl) ?_
  · norm_num
  · dsimp only
    rw [hw]
    norm_num
  · dsimp only
    rw [hw]
    have h1 : (6000 : ℝ) ≤ 1 + (ls_energy_table : EnergyTable ℝ).val 199 / atomic_mass_unit := by
      have : (6e6 : ℝ) / atomic_mass_unit ≤ (ls_energy_table : EnergyTable ℝ).val 199 / atomic_mass_unit :=
        div_le_div_of_nonneg_right hv (by norm_num [atomic_mass_unit])
      have h2 : (6000 : ℝ) ≤ 6e6 / atomic_mass_unit := by norm_num [atomic_mass_unit]
      linarith
    calc (10 : ℝ) ≤ 6000 * (6 * 3.05573356675e-3) := by norm_num
      _ ≤ _ := mul_le_mul h1 (mul_le_mul_of_nonneg_right hroot (by norm_num)) (by norm_num) (by linarith)

/-- Uranium of 5 TeV/u. -/
example : ∃ v e, precalculated_lindhard true (⟨238.029, 92, 92, 5e6⟩ : Projectile ℝ) = .ok v ∧
    bethek_lindhard 0 (⟨238.029, 92, 92, 5e6⟩ : Projectile ℝ) = some e ∧ |v - e| ≤ 1.5e-3 := by
  have hw : (element_atomic_weight 92 : ℝ) = 238.029 := by
    have : element_atomic_weights[92]? = some ⟨238029, 3⟩ := rfl
    unfold element_atomic_weight
    rw [if_pos (by norm_num), show (92 : Int).toNat = 92 from rfl, this]
    norm_num [Dec.toScalar_real]
  have hv : (6e6 : ℝ) ≤ (ls_energy_table : EnergyTable ℝ).val 199 := by
    rw [EnergyTable.val_eq, ls_step]
    calc (6e6 : ℝ) ≤ 2.718 ^ 16 := by norm_num
      _ ≤ Real.exp 1 ^ 16 := pow_le_pow_left₀ (by norm_num) (by have := Real.exp_one_gt_d9; norm_num at this ⊢; linarith) _
      _ ≤ _ := by
        rw [← Real.exp_nat_mul]
        apply Real.exp_le_exp.mpr
        norm_num [ls_energy_table, LN10]
  have hroot : (6 : ℝ) ≤ Real.exp (Real.log 238.029 / 3) := by
    rw [← Real.log_le_iff_le_exp (by norm_num), le_div_iff₀ (by norm_num)]
    have : Real.log 6 * 3 = Real.log (6 ^ 3) := by rw [Real.log_pow]; push_cast; ring
    rw [this]
    exact Real.log_le_log (by norm_num) (by norm_num)
  obtain ⟨v, e, hv, he, -, h⟩ := lindhard_lookup_ultra true 0 ⟨238.029, 92, 92, 5e6⟩ 92
    ⟨by norm_num, by norm_num, by norm_num, by norm_num⟩ (by norm_num) (by norm_num at hv ⊢; linarith)
    (Or.inl (by norm_num at hv ⊢; linarith)) (by rw [hw]; norm_num) (by
      norm_num [atomic_mass_unit] at hroot ⊢
      linarith)
  exact ⟨v, e, hv, he, h hw.symm⟩

end Catima
