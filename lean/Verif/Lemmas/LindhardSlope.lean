import Verif.Lemmas.LindhardSteady

/-!
# Helper lemmas: the slope of the Lindhard-Sørensen correction of light ions between 30 and 300 MeV/u
-/

namespace Catima

/-- Bounds of the increases of neighbours and of the values in units of 1e-11; 549755813888 is `2^39`. -/
def lsRowSlope (ra rh : Nat) : Bool :=
  (List.range 31).all fun k =>
    Nat.ble (21 * lsRaw ra (k + 41) + 20 * lsRaw rh (k + 40)) (2410000000 + (21 * lsRaw ra (k + 40) + 20 * lsRaw rh (k + 41))) &&
    Nat.ble (39 * lsRaw ra (k + 40) + 40 * lsRaw rh (k + 41)) (2410000000 + (39 * lsRaw ra (k + 41) + 40 * lsRaw rh (k + 40))) &&
    (Nat.ble (549755813888 + 20 * lsRaw rh (k + 40)) (28900000000 + 21 * lsRaw ra (k + 40)) &&
    Nat.ble (549755813888 + 39 * lsRaw ra (k + 40)) (28900000000 + 40 * lsRaw rh (k + 40)) &&
    (Nat.ble (549755813888 + 20 * lsRaw rh (k + 41)) (28900000000 + 21 * lsRaw ra (k + 41)) &&
    Nat.ble (549755813888 + 39 * lsRaw ra (k + 41)) (28900000000 + 40 * lsRaw rh (k + 41))))

theorem lsTables_slope : ∀ r, (hr : r < 20) →
    lsRowSlope (ls_coefficients_a[r]'(by rw [ls_lengths.1]; omega))
      (ls_coefficients_ahi[r]'(by rw [ls_lengths.2.1]; omega)) = true := by
  have h : (((ls_coefficients_a.zip ls_coefficients_ahi).take 20).all fun e => lsRowSlope e.1 e.2) = true := by
    decide +kernel
  intro r hr
  rw [List.all_eq_true] at h
  have hz : r < ((ls_coefficients_a.zip ls_coefficients_ahi).take 20).length := by
    rw [List.length_take, List.length_zip, ls_lengths.1, ls_lengths.2.1]; omega
  have := h _ (List.getElem_mem hz)
  rw [List.getElem_take, List.getElem_zip] at this
  exact this

theorem lsRow_slope {ra rh : Nat} (h : lsRowSlope ra rh = true) (j : Nat) (h1 : 40 ≤ j) (h2 : j ≤ 70) :
    lsField ra (j + 1) - lsField ra j - 20 * (lsField rh (j + 1) - lsField ra (j + 1) - (lsField rh j - lsField ra j)) ≤ 2410000000 ∧
    lsField ra (j + 1) - lsField ra j + 40 * (lsField rh (j + 1) - lsField ra (j + 1) - (lsField rh j - lsField ra j)) ≤ 2410000000 ∧
    -28900000000 ≤ lsField ra j - 20 * (lsField rh j - lsField ra j) ∧ -28900000000 ≤ lsField ra j + 40 * (lsField rh j - lsField ra j) ∧
    -28900000000 ≤ lsField ra (j + 1) - 20 * (lsField rh (j + 1) - lsField ra (j + 1)) ∧
    -28900000000 ≤ lsField ra (j + 1) + 40 * (lsField rh (j + 1) - lsField ra (j + 1)) := by
  unfold lsRowSlope at h
  rw [List.all_eq_true] at h
  have h := h (j - 40) (List.mem_range.mpr (by omega))
  simp only [Bool.and_eq_true, Nat.ble_eq, show j - 40 + 40 = j by omega, show j - 40 + 41 = j + 1 by omega] at h
  simp only [lsRaw_field]
  generalize lsRaw ra j = a at *
  generalize lsRaw rh j = b at *
  generalize lsRaw ra (j + 1) = a' at *
  generalize lsRaw rh (j + 1) = b' at *
  omega

theorem ls_val_40 : (ls_energy_table : EnergyTable ℝ).val 40 < 30 := by
  rw [(ls_val_log 40 30 (by norm_num)).1]
  have e : Real.log 30 = 5 * Real.log 2 - Real.log (32 / 30) := by
    rw [show (30 : ℝ) = 2 ^ 5 / (32 / 30) by norm_num, Real.log_div (by norm_num) (by norm_num), Real.log_pow]; norm_num
  have := Real.log_two_gt_d9
  have h2 := Real.log_le_sub_one_of_pos (show (0 : ℝ) < 32 / 30 by norm_num)
  rw [e]
  norm_num [LN10] at this h2 ⊢
  linarith

theorem ls_val_71 : 310 < (ls_energy_table : EnergyTable ℝ).val 71 := by
  rw [(ls_val_log 71 310 (by norm_num)).2]
  have e : Real.log 310 = 8 * Real.log 2 + Real.log (9 / 8) + Real.log (25 / 24) + Real.log (31 / 30) := by
    rw [← Real.log_rpow (by norm_num), ← Real.log_mul (by norm_num) (by norm_num), ← Real.log_mul (by norm_num) (by norm_num),
      ← Real.log_mul (by norm_num) (by norm_num)]
    norm_num
  have := Real.log_two_lt_d9
  have h2 := Real.log_le_sub_one_of_pos (show (0 : ℝ) < 9 / 8 by norm_num)
  have h3 := Real.log_le_sub_one_of_pos (show (0 : ℝ) < 25 / 24 by norm_num)
  have h4 := Real.log_le_sub_one_of_pos (show (0 : ℝ) < 31 / 30 by norm_num)
  rw [e]
  norm_num [LN10] at this h2 h3 h4 ⊢
  linarith

theorem slope_width (E ρ x : ℝ) (h1 : 10843 / 10000 ≤ ρ) (hx : 0 ≤ x) (h : x ≤ ρ * E) : 0.0777 * x ≤ ρ * E - E := by
  have h0 : ρ * E - E = (1 - 1 / ρ) * (ρ * E) := by field_simp
  have h5 : 0.0777 ≤ 1 - 1 / ρ := by
    rw [le_sub_comm, div_le_iff₀ (by linarith)]; norm_num; linarith
  rw [h0]
  norm_num at h5 ⊢
  nlinarith

theorem rise_same (E E1 x x' θ θ' a b : ℝ) (hx : 0 < x) (h : x ≤ x') (w : 0.0777 * x ≤ E1 - E) (h1 : x - E = θ * (E1 - E))
    (h2 : x' - E = θ' * (E1 - E)) (hd : b - a ≤ 0.0241) : a + θ' * (b - a) - (a + θ * (b - a)) ≤ 0.32 * (x' / x - 1) := by
  have w0 : 0 < E1 - E := by norm_num at w; linarith
  have t : θ' - θ = (x' - x) / (E1 - E) := by
    rw [eq_div_iff w0.ne']; linarith
  have t0 : 0 ≤ θ' - θ := by rw [t]; exact div_nonneg (by linarith) w0.le
  have t1 : θ' - θ ≤ (x' - x) / (0.0777 * x) := by
    rw [t]; exact div_le_div_of_nonneg_left (by linarith) (by positivity) w
  have e : (x' - x) / (0.0777 * x) = (x' / x - 1) / 0.0777 := by field_simp
  rw [e, le_div_iff₀ (by norm_num)] at t1
  norm_num at hd t1 ⊢
  nlinarith

theorem rise_next (E E1 E2 x x' θ θ' a b c : ℝ) (hx : 0 < x) (gap : 3.3e-10 ≤ x' / x - 1) (w : 0.0777 * x ≤ E1 - E)
    (w2 : E1 - E ≤ E2 - E1) (w3 : E2 - E1 ≤ 2 * (E1 - E)) (h1 : x - E = θ * (E1 - E)) (h2 : x' - E1 = θ' * (E2 - E1)) (ht : θ ≤ 1) (ht' : -1e-12 ≤ θ')
    (hd : b - a ≤ 0.0241) (hd' : c - b ≤ 0.0241) (hd2 : -2 ≤ c - b) :
    b + θ' * (c - b) - (a + θ * (b - a)) ≤ 0.32 * (x' / x - 1) := by
  have w0 : 0 < E1 - E := by norm_num at w; linarith
  have w20 : 0 < E2 - E1 := by linarith
  have t : 1 - θ = (E1 - x) / (E1 - E) := by
    rw [eq_div_iff w0.ne']; linarith
  have tt : θ' = (x' - E1) / (E2 - E1) := by
    rw [eq_div_iff w20.ne']; linarith
  have e : (x' - x) / (0.0777 * x) = (x' / x - 1) / 0.0777 := by field_simp
  have q0 : 0 ≤ x' / x - 1 := by norm_num at gap; linarith
  have xx : x ≤ x' := by
    have : 1 ≤ x' / x := by linarith
    rwa [one_le_div hx] at this
  have tot : (x' - x) / (E1 - E) ≤ (x' / x - 1) / 0.0777 := by
    rw [← e]; exact div_le_div_of_nonneg_left (by linarith) (by positivity) w
  rw [le_div_iff₀ (by norm_num)] at tot
  rcases le_total 0 θ' with h | h
  · have xe : E1 ≤ x' := by nlinarith
    have t2 : θ' ≤ (x' - E1) / (E1 - E) := by
      rw [tt]; exact div_le_div_of_nonneg_left (by linarith) w0 w2
    have t3 : 1 - θ + θ' ≤ (x' - x) / (E1 - E) := by
      have : (x' - x) / (E1 - E) = (E1 - x) / (E1 - E) + (x' - E1) / (E1 - E) := by rw [← add_div]; congr 1; ring
      rw [this, t]; linarith
    norm_num at hd hd' tot ⊢
    nlinarith
  · have t3 : 1 - θ - 2e-12 ≤ (x' - x) / (E1 - E) := by
      have e3 : (x' - x) / (E1 - E) = (E1 - x) / (E1 - E) + θ' * ((E2 - E1) / (E1 - E)) := by
        rw [mul_div_assoc', ← h2, ← add_div]; congr 1; ring
      have r2 : (E2 - E1) / (E1 - E) ≤ 2 := by rw [div_le_iff₀ w0]; exact w3
      have r0 : 0 ≤ (E2 - E1) / (E1 - E) := div_nonneg w20.le w0.le
      rw [e3, ← t]
      norm_num at ht' ⊢
      nlinarith
    norm_num at hd hd' tot t3 gap ht' ⊢
    nlinarith

theorem mix_low (a b θ : ℝ) (h0 : -1e-12 ≤ θ) (h1 : θ ≤ 1) (h : b - a ≤ 2) (ha : -0.289 ≤ a) (hb : -0.289 ≤ b) :
    -0.29 ≤ a + θ * (b - a) := by
  norm_num at *
  rcases le_total 0 θ with hh | hh <;> nlinarith

set_option maxHeartbeats 1000000 in
/-- The correction of Lindhard and Sørensen of ions up to calcium rises by at most 0.32 per unit of the logarithm of the energy,
apart from the tolerance of the table lookup. -/
theorem lindhard_slope (ci : Bool) {p : Projectile ℝ} {n : Int} (hp : p.Ion n) (hn : n ≤ 20)
    (hA : p.A ≤ 3 * element_atomic_weight n) (x x' : ℝ) (h0 : 30 ≤ x) (h1 : x + 1e-7 ≤ x') (h2 : x' ≤ 1.03 * x) (h3 : x' ≤ 300) :
    ∃ v v', precalculated_lindhard ci (p.withT x) = .ok v ∧ precalculated_lindhard ci (p.withT x') = .ok v' ∧
      v' - v ≤ 0.32 * (x' / x - 1) ∧ -0.29 ≤ v ∧ -0.29 ≤ v' := by
  have hwp := atomic_weight_pos n hp.pos (by omega)
  have hb := ls_energy_table_bounds
  have hvle := (EnergyTable.val_le_iff (ls_energy_table : EnergyTable ℝ) hb.1 hb.2.1)
  have hpos : ∀ j, 0 < (ls_energy_table : EnergyTable ℝ).val j := EnergyTable.val_pos _
  have hq := lsRatio_bounds
  have h71 := ls_val_71
  have h40 := ls_val_40
  norm_num at h1 h2 hq
  have ionT : ∀ y, (p.withT y).Ion n := fun y => ⟨hp.Z, hp.pos, hp.int, hp.A⟩
  have top : (ls_energy_table : EnergyTable ℝ).val 71 + 1 ≤ (ls_energy_table : EnergyTable ℝ).val 199 := by
    have a := ls_geometric 71
    have b := (hvle 72 199).mpr (by omega)
    have : 1 * 1 ≤ (lsRatio - 1) * (ls_energy_table : EnergyTable ℝ).val 71 := by nlinarith
    nlinarith
  have rd : ∀ y, y ≤ 300 → LindhardReadable y := fun y hy => Or.inl (by norm_num; linarith)
  obtain ⟨i, θ, s, k, hk, hkn, hi, ht0, ht1, hs, hb0, hb1, hθ, c, hc, hX⟩ :=
    lindhard_affine ci (ionT x) (by omega) (by show 1 ≤ x; linarith) (by show x ≤ _; linarith) (rd x (by linarith))
  obtain ⟨i', θ', s', k', hk', hkn', hi', ht0', ht1', hs', hb0', hb1', hθ', c', hc', hX'⟩ :=
    lindhard_affine ci (ionT x') (by omega) (by show 1 ≤ x'; linarith) (by show x' ≤ _; linarith) (rd x' h3)
  have ek : k' = k := by omega
  subst ek
  have es : s' = s := by rw [hs, hs']; rfl
  subst es
  have ec : c' = c := funext fun j => by rw [hc, hc']
  subst ec
  simp only [Projectile.withT] at hb0 hb1 hb0' hb1' hθ hθ' hs
  refine ⟨_, _, hX, hX', ?_⟩
  have hs0 : -20 ≤ s' ∧ s' ≤ 40 := by
    rw [hs]
    have h2 : -1 ≤ (p.A - element_atomic_weight n) / element_atomic_weight n := by
      rw [le_div_iff₀ hwp]; linarith [hp.A]
    have h3 : (p.A - element_atomic_weight n) / element_atomic_weight n ≤ 2 := by
      rw [div_le_iff₀ hwp]
      linarith
    constructor <;> linarith
  have tab : ∀ j, 40 ≤ j → j ≤ 70 → c' (j + 1) - c' j ≤ 0.0241 ∧ -0.289 ≤ c' j ∧ -0.289 ≤ c' (j + 1) := by
    intro j j1 j2
    obtain ⟨g1, g2, g3, g4, g5, g6⟩ := lsRow_slope (lsTables_slope k' (by omega)) j j1 j2
    rw [hc j, hc (j + 1)]
    generalize lsField (ls_coefficients_a[k']'(by rw [ls_lengths.1]; exact hk')) j = a at *
    generalize lsField (ls_coefficients_ahi[k']'(by rw [ls_lengths.2.1]; exact hk')) j = h at *
    generalize lsField (ls_coefficients_a[k']'(by rw [ls_lengths.1]; exact hk')) (j + 1) = a' at *
    generalize lsField (ls_coefficients_ahi[k']'(by rw [ls_lengths.2.1]; exact hk')) (j + 1) = h' at *
    have low : ∀ (a h : Int), -28900000000 ≤ a - 20 * (h - a) → -28900000000 ≤ a + 40 * (h - a) →
        -0.289 ≤ ((a : ℝ) + s' * ((h : ℝ) - a)) / 10 ^ 11 := by
      intro a h q1 q2
      rw [le_div_iff₀ (by norm_num)]
      norm_num
      have q1' : (-28900000000 : ℝ) ≤ a - 20 * ((h : ℝ) - a) := by exact_mod_cast q1
      have q2' : (-28900000000 : ℝ) ≤ a + 40 * ((h : ℝ) - a) := by exact_mod_cast q2
      rcases le_total 0 ((h : ℝ) - a) with hh | hh <;> nlinarith [hs0.1, hs0.2]
    refine ⟨?_, low _ _ g3 g4, low _ _ g5 g6⟩
    have ed : ((a' : ℝ) + s' * ((h' : ℝ) - a')) / 10 ^ 11 - ((a : ℝ) + s' * ((h : ℝ) - a)) / 10 ^ 11 =
        (((a' : ℝ) - a) + s' * ((h' : ℝ) - a' - ((h : ℝ) - a))) / 10 ^ 11 := by ring
    rw [ed, div_le_iff₀ (by norm_num)]
    norm_num
    have q1 : (a' : ℝ) - a - 20 * ((h' : ℝ) - a' - ((h : ℝ) - a)) ≤ 2410000000 := by exact_mod_cast g1
    have q2 : (a' : ℝ) - a + 40 * ((h' : ℝ) - a' - ((h : ℝ) - a)) ≤ 2410000000 := by exact_mod_cast g2
    rcases le_total 0 ((h' : ℝ) - a' - ((h : ℝ) - a)) with hh | hh <;> nlinarith [hs0.1, hs0.2]
  have absb : ∀ j, 40 ≤ j → j ≤ 70 → |c' (j + 1) - c' j| ≤ 2 := by
    intro j j1 j2
    obtain ⟨hg1, -⟩ := lsTables_steady k' hk'
    obtain ⟨B, hB, g1, g2, g3, g4⟩ := lsRow_steady hg1 j (by omega) (by omega)
    rw [if_neg (by omega), if_pos (by omega)] at hB
    subst hB
    rw [hc j, hc (j + 1)]
    generalize lsField (ls_coefficients_a[k']'(by rw [ls_lengths.1]; exact hk')) j = a at *
    generalize lsField (ls_coefficients_ahi[k']'(by rw [ls_lengths.2.1]; exact hk')) j = h at *
    generalize lsField (ls_coefficients_a[k']'(by rw [ls_lengths.1]; exact hk')) (j + 1) = a' at *
    generalize lsField (ls_coefficients_ahi[k']'(by rw [ls_lengths.2.1]; exact hk')) (j + 1) = h' at *
    have ed : ((a' : ℝ) + s' * ((h' : ℝ) - a')) / 10 ^ 11 - ((a : ℝ) + s' * ((h : ℝ) - a)) / 10 ^ 11 =
        (((a' : ℝ) - a) + s' * ((h' : ℝ) - a' - ((h : ℝ) - a))) / 10 ^ 11 := by ring
    have := affine_mid ((a' : ℝ) - a) ((h' : ℝ) - a' - ((h : ℝ) - a)) (-9700000000) 9700000000 s' (by exact_mod_cast g1)
      (by exact_mod_cast g3) (by exact_mod_cast g2) (by exact_mod_cast g4) hs0.1 hs0.2
    rw [ed, abs_le, le_div_iff₀ (by norm_num), div_le_iff₀ (by norm_num)]
    norm_num
    constructor <;> linarith [this.1, this.2]
  norm_num at hb0 hb0'
  have i40 : 40 ≤ i := by
    by_contra hlt
    have := (hvle (i + 1) 40).mpr (by omega)
    linarith
  have i70 : i' ≤ 70 := by
    by_contra hlt
    have := (hvle 71 i').mpr (by omega)
    linarith
  have geo := ls_geometric i
  have iup : i' ≤ i + 1 := by
    by_contra hlt
    have := (hvle (i + 2) i').mpr (by omega)
    have := ls_geometric (i + 1)
    have : 1.0843 * (ls_energy_table : EnergyTable ℝ).val (i + 1) ≤ (ls_energy_table : EnergyTable ℝ).val (i + 2) := by
      rw [this]; norm_num; nlinarith [hpos (i + 1)]
    norm_num at this
    linarith
  have ilo : i ≤ i' := by
    by_contra hlt
    have := (hvle (i' + 1) i).mpr (by omega)
    linarith
  obtain ⟨A1, A2, A3⟩ := tab i i40 (by omega)
  obtain ⟨B1, B2, B3⟩ := tab i' (by omega) i70
  have C1 := abs_le.mp (absb i i40 (by omega))
  have C2 := abs_le.mp (absb i' (by omega) i70)
  have q0 : 3.3e-10 ≤ x' / x - 1 := by
    rw [le_sub_iff_add_le, le_div_iff₀ (by linarith)]; norm_num; linarith
  have w : 0.0777 * x ≤ (ls_energy_table : EnergyTable ℝ).val (i + 1) - (ls_energy_table : EnergyTable ℝ).val i := by
    rw [geo] at hb1 ⊢
    exact slope_width _ _ _ hq.1 (by linarith) hb1
  refine ⟨?_, ?_, ?_⟩
  · rcases Nat.lt_or_ge i i' with h | h
    · have e : i' = i + 1 := by omega
      subst e
      have w2 : (ls_energy_table : EnergyTable ℝ).val (i + 1) - (ls_energy_table : EnergyTable ℝ).val i ≤
          (ls_energy_table : EnergyTable ℝ).val (i + 1 + 1) - (ls_energy_table : EnergyTable ℝ).val (i + 1) := by
        rw [ls_geometric (i + 1), geo]
        have : 0 ≤ (lsRatio - 1) ^ 2 * (ls_energy_table : EnergyTable ℝ).val i := mul_nonneg (sq_nonneg _) (hpos i).le
        nlinarith
      have w3 : (ls_energy_table : EnergyTable ℝ).val (i + 1 + 1) - (ls_energy_table : EnergyTable ℝ).val (i + 1) ≤
          2 * ((ls_energy_table : EnergyTable ℝ).val (i + 1) - (ls_energy_table : EnergyTable ℝ).val i) := by
        rw [ls_geometric (i + 1), geo]
        have : 0 ≤ (lsRatio - 1) * (2 - lsRatio) * (ls_energy_table : EnergyTable ℝ).val i :=
          mul_nonneg (mul_nonneg (by linarith) (by linarith)) (hpos i).le
        nlinarith
      exact rise_next _ _ _ x x' θ θ' _ _ _ (by linarith) q0 w w2 w3 hθ hθ' ht1 ht0' A1 B1 C2.1
    · have e : i' = i := by omega
      subst e
      exact rise_same _ _ x x' θ θ' _ _ (by linarith) (by linarith) w hθ hθ' A1
  · exact mix_low _ _ _ ht0 ht1 C1.2 A2 A3
  · exact mix_low _ _ _ ht0' ht1' C2.2 B2 B3

end Catima
