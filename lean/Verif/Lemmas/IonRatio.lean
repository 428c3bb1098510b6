import Verif.Lemmas.IonProton
import Verif.Lemmas.LindhardSteady

/-!
# Helper lemmas: the two models of the stopping power for ions from lithium to cobalt between 10 and 32.5 MeV/u
-/

namespace Catima

/-- The entries of the table of Lindhard and Sørensen from index `j0` to 44 lie between `-B/10^11` and 0.003 for every isotope of at
most three atomic weights. -/
def lsRowIn (B j0 m ra rh : Nat) : Bool :=
  (List.range m).all fun k =>
    Nat.ble (549755813888 + 20 * lsRaw rh (k + j0)) (B + 21 * lsRaw ra (k + j0)) &&
    Nat.ble (549755813888 + 39 * lsRaw ra (k + j0)) (B + 40 * lsRaw rh (k + j0)) &&
    Nat.ble (21 * lsRaw ra (k + j0)) (300000000 + 549755813888 + 20 * lsRaw rh (k + j0)) &&
    Nat.ble (40 * lsRaw rh (k + j0)) (300000000 + 549755813888 + 39 * lsRaw ra (k + j0))

theorem lindhard_range (ci : Bool) {p : Projectile ℝ} {n : Int} (hp : p.Ion n) (hn : n ≤ 108)
    (hA : p.A ≤ 3 * element_atomic_weight n) (B j0 m : Nat) (hj : (j0 = 28 ∧ m = 17) ∨ (j0 = 34 ∧ m = 11 ∧ 16 ≤ p.T)) (hB : ∀ r : Nat, (r : Int) = n - 1 → (hr : r < 108) →
      lsRowIn B j0 m (ls_coefficients_a[r]'(by rw [ls_lengths.1]; exact hr)) (ls_coefficients_ahi[r]'(by rw [ls_lengths.2.1]; exact hr)) = true)
    (h0 : 10 ≤ p.T) (h1 : p.T ≤ 32.5) (hT : LindhardReadable p.T) :
    ∃ v, precalculated_lindhard ci p = .ok v ∧ -((B : ℝ) / 10 ^ 11) - 0.001 ≤ v ∧ v ≤ 0.004 := by
  have hwp := atomic_weight_pos n hp.pos (by omega)
  have hb := ls_energy_table_bounds
  have hvle := (EnergyTable.val_le_iff (ls_energy_table : EnergyTable ℝ) hb.1 hb.2.1)
  have top : p.T ≤ (ls_energy_table : EnergyTable ℝ).val 199 := by
    have := (hvle 43 199).mpr (by norm_num)
    have := ls_val_mid.2.2
    linarith
  obtain ⟨i, θ, s, k, hk, hkn, hi, ht0, ht1, hs, hb0, hb1, hθ, c, hc, hX⟩ := lindhard_affine ci hp hn (by linarith) top hT
  refine ⟨_, hX, ?_⟩
  have i28 : 28 ≤ i := by
    by_contra hlt
    have := (hvle (i + 1) 28).mpr (by omega)
    linarith [ls_val_28]
  have i34 : j0 ≤ i := by
    rcases hj with ⟨rfl, -⟩ | ⟨rfl, -, h16⟩
    · exact i28
    · by_contra hlt
      have := (hvle (i + 1) 34).mpr (by omega)
      linarith [ls_val_mid.1]
  have hjm : j0 + m = 45 := by omega
  have i43 : i ≤ 43 := by
    by_contra hlt
    have h44 := (hvle 44 i).mpr (by omega)
    have := ls_val_44
    norm_num at this h1 hb0
    linarith
  have hs0 : -20 ≤ s ∧ s ≤ 40 := by
    rw [hs]
    have h2 : -1 ≤ (p.A - element_atomic_weight n) / element_atomic_weight n := by
      rw [le_div_iff₀ hwp]; linarith [hp.A]
    have h3 : (p.A - element_atomic_weight n) / element_atomic_weight n ≤ 2 := by
      rw [div_le_iff₀ hwp]
      linarith
    constructor <;> linarith
  have tab : ∀ j, j0 ≤ j → j ≤ 44 → -((B : ℝ) / 10 ^ 11) ≤ c j ∧ c j ≤ 300000000 / 10 ^ 11 := by
    intro j hj hj'
    have h := hB k hkn hk
    unfold lsRowIn at h
    rw [List.all_eq_true] at h
    have h := h (j - j0) (List.mem_range.mpr (by omega))
    simp only [Bool.and_eq_true, Nat.ble_eq, show j - j0 + j0 = j by omega] at h
    rw [hc, lsRaw_field, lsRaw_field]
    generalize lsRaw (ls_coefficients_a[k]'(by rw [ls_lengths.1]; exact hk)) j = a at *
    generalize lsRaw (ls_coefficients_ahi[k]'(by rw [ls_lengths.2.1]; exact hk)) j = d at *
    obtain ⟨⟨⟨q1, q2⟩, q3⟩, q4⟩ := h
    have q1' : (549755813888 : ℝ) + 20 * d ≤ B + 21 * a := by exact_mod_cast q1
    have q2' : (549755813888 : ℝ) + 39 * a ≤ B + 40 * d := by exact_mod_cast q2
    have q3' : (21 : ℝ) * a ≤ 300000000 + 549755813888 + 20 * d := by exact_mod_cast q3
    have q4' : (40 : ℝ) * d ≤ 300000000 + 549755813888 + 39 * a := by exact_mod_cast q4
    rw [← neg_div, div_le_div_iff_of_pos_right (by norm_num), div_le_div_iff_of_pos_right (by norm_num)]
    push_cast
    constructor <;> rcases le_total (0 : ℝ) ((d : ℝ) - a) with hh | hh <;> nlinarith [hs0.1, hs0.2]
  have t1 := tab i i34 (by omega)
  have t2 := tab (i + 1) (by omega) (by omega)
  have hlip : |c (i + 1) - c i| ≤ 2 := by
    obtain ⟨hg1, -⟩ := lsTables_steady k hk
    obtain ⟨B', hB', g1, g2, g3, g4⟩ := lsRow_steady hg1 i i28 (by omega)
    rw [hc i, hc (i + 1)]
    generalize lsField (ls_coefficients_a[k]'(by rw [ls_lengths.1]; exact hk)) i = a at g1 g2 g3 g4 ⊢
    generalize lsField (ls_coefficients_ahi[k]'(by rw [ls_lengths.2.1]; exact hk)) i = h at g1 g2 g3 g4 ⊢
    generalize lsField (ls_coefficients_a[k]'(by rw [ls_lengths.1]; exact hk)) (i + 1) = a' at g1 g2 g3 g4 ⊢
    generalize lsField (ls_coefficients_ahi[k]'(by rw [ls_lengths.2.1]; exact hk)) (i + 1) = h' at g1 g2 g3 g4 ⊢
    have ed : ((a' : ℝ) + s * ((h' : ℝ) - a')) / 10 ^ 11 - ((a : ℝ) + s * ((h : ℝ) - a)) / 10 ^ 11 =
        (((a' : ℝ) - a) + s * ((h' : ℝ) - a' - ((h : ℝ) - a))) / 10 ^ 11 := by ring
    have := affine_mid ((a' : ℝ) - a) ((h' : ℝ) - a' - ((h : ℝ) - a)) (-B') B' s (by exact_mod_cast g1) (by exact_mod_cast g3)
        (by exact_mod_cast g2) (by exact_mod_cast g4) hs0.1 hs0.2
    have hB2 : B' ≤ 169400000000 := by rw [hB']; split_ifs <;> norm_num
    have hB2' : (B' : ℝ) ≤ 169400000000 := by exact_mod_cast hB2
    rw [ed, abs_le]
    constructor
    · rw [le_div_iff₀ (by norm_num)]; linarith [this.1]
    · rw [div_le_iff₀ (by norm_num)]; linarith [this.2]
  have q3 := abs_le.mp hlip
  generalize (B : ℝ) / 10 ^ 11 = W at *
  norm_num at ht0 t1 t2 ⊢
  constructor <;> rcases le_total 0 θ with h | h <;> nlinarith [t1.1, t1.2, t2.1, t2.2, q3.1, q3.2]

def lsIonRows : Bool :=
  (List.range 27).all fun r => Nat.ble 2 r == false || match ls_coefficients_a[r]?, ls_coefficients_ahi[r]? with
    | some a, some h => lsRowIn 89160000000 28 17 a h && lsRowIn 66500000000 34 11 a h
    | _, _ => false

theorem ls_ion_rows : lsIonRows = true := by decide +kernel

/-- The correction of Lindhard and Sørensen for the ions from lithium to cobalt. -/
theorem lindhard_ion (ci : Bool) {p : Projectile ℝ} {n : Int} (hp : p.Ion n) (h3 : 3 ≤ n) (hn : n ≤ 27)
    (hA : p.A ≤ 3 * element_atomic_weight n) (h0 : 10 ≤ p.T) (h1 : p.T ≤ 32.5) (hT : LindhardReadable p.T) :
    ∃ v, precalculated_lindhard ci p = .ok v ∧ -0.8935 ≤ v ∧ (16 ≤ p.T → -0.667 ≤ v) ∧ v ≤ 0.004 := by
  have rows : ∀ r : Nat, (r : Int) = n - 1 → (hr : r < 108) →
      lsRowIn 89160000000 28 17 (ls_coefficients_a[r]'(by rw [ls_lengths.1]; exact hr)) (ls_coefficients_ahi[r]'(by rw [ls_lengths.2.1]; exact hr)) = true ∧
      lsRowIn 66500000000 34 11 (ls_coefficients_a[r]'(by rw [ls_lengths.1]; exact hr)) (ls_coefficients_ahi[r]'(by rw [ls_lengths.2.1]; exact hr)) = true := by
    intro r hr hr'
    have h := ls_ion_rows
    unfold lsIonRows at h
    rw [List.all_eq_true] at h
    have h := h r (List.mem_range.mpr (by omega))
    rw [List.getElem?_eq_getElem (by rw [ls_lengths.1]; exact hr'), List.getElem?_eq_getElem (by rw [ls_lengths.2.1]; exact hr')] at h
    simp only [Bool.or_eq_true, beq_iff_eq, Bool.and_eq_true] at h
    rcases h with h | h
    · rw [Nat.ble_eq_true_of_le (by omega)] at h; cases h
    · exact h
  obtain ⟨v, hv, v0, v1⟩ := lindhard_range ci hp (by omega) hA 89160000000 28 17 (Or.inl ⟨rfl, rfl⟩) (fun r hr hr' => (rows r hr hr').1) h0 h1 hT
  refine ⟨v, hv, by norm_num at v0 ⊢; linarith, fun h16 => ?_, v1⟩
  obtain ⟨w, hw, w0, -⟩ := lindhard_range ci hp (by omega) hA 66500000000 34 11 (Or.inr ⟨rfl, rfl, h16⟩) (fun r hr hr' => (rows r hr hr').2) h0 h1 hT
  rw [hv] at hw
  injection hw with hw
  rw [hw]
  norm_num at w0 ⊢; linarith

end Catima
