import Verif.Lemmas.Stopping
import Verif.Props.Grid

/-!
# Helper lemmas: the Lindhard lookups and the Bethe formula are defined
-/

namespace Catima

/-- Interpolation in a table reads inside it, except in the window below the last point. -/
theorem interpolate_defined (ci : Bool) (t : EnergyTable ℝ) (h : t.logmin < t.logmax)
    (hN : 2 ≤ t.N) (hN' : t.N ≤ 2147483647) (y : List ℝ) (hy : y.length = t.N) (v : ℝ)
    (hv : v < t.val (t.N - 1) - 10 * 2⁻¹ ^ 52 ∨ t.val (t.N - 1) ≤ v) :
    ∃ r, t.interpolate ci v y = .ok r := by
  rw [← eps_eq] at hv
  have he := eps_pos
  unfold EnergyTable.interpolate
  split
  · exact ⟨_, rfl⟩
  rename_i hout
  simp only [Bool.or_eq_true, lt_real, not_or, not_lt] at hout
  split
  · have : ((t.N : Int) - 1) = ((t.N - 1 : Nat) : Int) := by omega
    rw [this, rd_nat y _ (by omega)]
    exact ⟨_, rfl⟩
  rename_i hne
  rw [beq_real] at hne
  have hlt : v < t.val (t.N - 1) := lt_of_le_of_ne hout.2 hne
  have hw : v < t.val (t.N - 1) - numeric_epsilon := by
    rcases hv with hv | hv
    · exact hv
    · linarith
  obtain ⟨k, hk, h0, h1, -⟩ := t.exists_bracket h hN v hout.1 hlt
  have hidx := t.index_inside ci h hN hN' v k hk h0 h1 hw
  obtain ⟨i, hi, hidx⟩ : ∃ i : Nat, i + 1 < t.N ∧ t.index ci v = .ok (i : Int) := by
    rw [hidx]
    split
    · rename_i hc
      refine ⟨k + 1, ?_, by push_cast; rfl⟩
      by_contra hge
      have : k + 1 = t.N - 1 := by omega
      rw [this] at hc
      linarith [hc.2]
    · exact ⟨k, hk, rfl⟩
  have e2 : ((i : Int) + 1) = ((i + 1 : Nat) : Int) := by push_cast; rfl
  simp only [hidx, bind_ok, EnergyTable.get]
  rw [if_pos (by omega), if_pos (by omega)]
  simp only [bind_ok]
  split
  · exact ⟨_, rfl⟩
  · rw [e2, rd_nat y i (by omega), rd_nat y (i + 1) (by omega)]
    exact ⟨_, rfl⟩

theorem lsRow_length (r : Nat) : ((lsRow r).map (Dec.toScalar : Dec → ℝ)).length = 200 := by
  simp [lsRow]

theorem lsRowAt_ok (tab : List Nat) (z : Int) (h0 : 0 ≤ z) (h1 : z < tab.length) :
    ∃ y : List ℝ, lsRowAt tab z = .ok y ∧ y.length = 200 := by
  obtain ⟨k, rfl⟩ := Int.eq_ofNat_of_zero_le h0
  unfold lsRowAt
  rw [rd_nat tab k (by omega)]
  exact ⟨_, rfl, lsRow_length _⟩

theorem lsValue_defined (ci : Bool) (ta tb : List Nat) (ha : ta.length = 108) (hb : tb.length = 108)
    (z : Int) (h1 : 1 ≤ z) (h2 : z ≤ 108) (A T : ℝ) (hT : LindhardReadable T) :
    ∃ v, lsValue ci ta tb z A T = .ok v := by
  obtain ⟨y1, hy1, hl1⟩ := lsRowAt_ok ta (z - 1) (by omega) (by omega)
  obtain ⟨y2, hy2, hl2⟩ := lsRowAt_ok tb (z - 1) (by omega) (by omega)
  have hb := ls_energy_table_bounds
  obtain ⟨r1, hr1⟩ := interpolate_defined ci ls_energy_table hb.1 hb.2.1 hb.2.2 y1 hl1 T hT
  obtain ⟨r2, hr2⟩ := interpolate_defined ci ls_energy_table hb.1 hb.2.1 hb.2.2 y2 hl2 T hT
  unfold lsValue lsValueOf
  simp only [hy1, hy2, bind_ok, hr1, hr2]
  exact ⟨_, rfl⟩

theorem ls_lengths : ls_coefficients_a.length = 108 ∧ ls_coefficients_ahi.length = 108 ∧
    ls_X_coefficients_a.length = 108 ∧ ls_X_coefficients_ahi.length = 108 := by decide +kernel

theorem lsZ_ion {p : Projectile ℝ} {n : Int} (hp : p.Ion n) (h : n ≤ 110) : lsZ p = .ok n := by
  unfold lsZ
  rw [hp.Z, castInt_real n (by linarith [hp.pos]) hp.int, bind_ok, if_neg (by omega)]
  rfl

theorem ls_readable_first : LindhardReadable ((ls_energy_table : EnergyTable ℝ).val 0) := by
  left
  have := ls_energy_table_spaced 0 (by decide)
  have hb := ls_energy_table_bounds
  have h1 := (EnergyTable.val_le_iff (ls_energy_table : EnergyTable ℝ) hb.1 hb.2.1 1 199).mpr
    (by norm_num)
  linarith

/-- The Lindhard tables and the range tables end at the same energy. -/
theorem ls_top : (ls_energy_table : EnergyTable ℝ).val 199 = (energy_table : EnergyTable ℝ).val 599 := by
  rw [EnergyTable.val_eq, EnergyTable.step_eq, EnergyTable.val_eq, EnergyTable.step_eq]
  norm_num [ls_energy_table, energy_table, logEmax, logEmin, max_datapoints]

theorem lindhard_defined (ci : Bool) {p : Projectile ℝ} {n : Int} (hp : p.Ion n) (h : n ≤ 108)
    (hT : LindhardReadable p.T) : ∃ v, precalculated_lindhard ci p = .ok v := by
  unfold precalculated_lindhard
  rw [lsZ_ion hp (by omega), bind_ok]
  apply lsValue_defined ci _ _ ls_lengths.1 ls_lengths.2.1 n hp.pos h
  split
  · exact ls_readable_first
  · exact hT

theorem lindhard_X_defined (ci : Bool) {p : Projectile ℝ} {n : Int} (hp : p.Ion n) (h : n ≤ 108)
    (hT : LindhardReadable p.T) : ∃ v, precalculated_lindhard_X ci p = .ok v := by
  unfold precalculated_lindhard_X
  rw [lsZ_ion hp (by omega), bind_ok]
  split
  · exact ⟨_, rfl⟩
  · exact lsValue_defined ci _ _ ls_lengths.2.2.1 ls_lengths.2.2.2 n hp.pos h _ _ hT

theorem density_lengths : density_effect_x0.length = 97 ∧ density_effect_x1.length = 97 ∧
    density_effect_c.length = 97 ∧ density_effect_a.length = 97 ∧ density_effect_m.length = 97 ∧
    density_effect_del_0.length = 97 := by decide +kernel

theorem density_defined (beta : ℝ) (zt : Int) (h : 1 ≤ zt) :
    ∃ v, bethek_density_effect beta zt = .ok v := by
  obtain ⟨l0, l1, l2, l3, l4, l5⟩ := density_lengths
  have hi : 0 ≤ (if zt > 97 then (97 : Int) else zt) - 1 ∧
      (if zt > 97 then (97 : Int) else zt) - 1 < 97 := by split <;> omega
  unfold bethek_density_effect
  dsimp only
  generalize (if zt > 97 then (97 : Int) else zt) - 1 = i at hi
  obtain ⟨d0, -, h0⟩ := rdDec_get density_effect_x0 i hi.1 (by rw [l0]; exact_mod_cast hi.2)
  obtain ⟨d1, -, h1⟩ := rdDec_get density_effect_x1 i hi.1 (by rw [l1]; exact_mod_cast hi.2)
  obtain ⟨d2, -, h2⟩ := rdDec_get density_effect_c i hi.1 (by rw [l2]; exact_mod_cast hi.2)
  obtain ⟨d3, -, h3⟩ := rdDec_get density_effect_a i hi.1 (by rw [l3]; exact_mod_cast hi.2)
  obtain ⟨d4, -, h4⟩ := rdDec_get density_effect_m i hi.1 (by rw [l4]; exact_mod_cast hi.2)
  obtain ⟨d5, -, h5⟩ := rdDec_get density_effect_del_0 i hi.1 (by rw [l5]; exact_mod_cast hi.2)
  rw [h0, bind_ok]
  split
  · rw [h5]; exact ⟨_, rfl⟩
  · rw [h2, bind_ok, h1, bind_ok]
    split
    · rw [h3, h4]; exact ⟨_, rfl⟩
    · exact ⟨_, rfl⟩

theorem ipot_len : ionisation_potentials_z.length = 121 ∧
    ∀ d ∈ ionisation_potentials_z, 0 < d.m := by decide +kernel

theorem ipot_pos (z : Int) (h1 : 1 ≤ z) (h2 : z ≤ 120) : (0 : ℝ) < ipot z := by
  unfold ipot
  rw [if_neg (by omega)]
  have hz : z.toNat < ionisation_potentials_z.length := by rw [ipot_len.1]; omega
  rw [List.getElem?_eq_getElem hz]
  exact Dec.toScalar_pos _ (ipot_len.2 _ (List.getElem_mem hz))

/-- One component of the Bethe formula is defined. -/
theorem bethe_target_defined (env : Env ℝ) {p : Projectile ℝ} {n : Int} (hp : p.Ion n)
    (hn : n ≤ 108) (t : Target ℝ) (tZ : 1 ≤ t.Z) (tA : 0 < t.A) (c : Config ℝ) (I : ℝ)
    (hT : 0 < p.T) (hr : LindhardReadable p.T) (z : ℝ) (hz : z_effective env.debug p t c = .ok z)
    (hz0 : 0 ≤ z) (hI : 0 < I ∨ t.Z ≤ 120) : ∃ v, bethek_dedx_e_target env p t c I = .ok v := by
  have hZ : 0 < p.Z := by rw [hp.Z]; exact_mod_cast (by linarith [hp.pos] : 0 < n)
  unfold bethek_dedx_e_target
  rw [cassert_true _ _ (by
      rw [Bool.and_eq_true]
      refine ⟨by simpa using (by omega : 0 < t.Z), ?_⟩
      rw [lt_real]; norm_num; exact hZ), bind_ok,
    cassert_true _ _ (by
      rw [Bool.and_eq_true, lt_real, lt_real]
      norm_num
      exact ⟨tA, hp.A⟩), bind_ok,
    cassert_true _ _ (by rw [lt_real]; norm_num; exact hT), bind_ok,
    if_neg (by rw [beq_real]; norm_num; exact hT.ne'), hz]
  dsimp only
  rw [bind_ok, cassert_true _ _ (by rw [le_real]; norm_num; exact hz0), bind_ok]
  have hIp : (0 : ℝ) < (if Scalar.lt 0.0 I = true then I else ipot t.Z) := by
    split
    · rename_i h
      rw [lt_real] at h
      norm_num at h
      exact h
    · rename_i h
      rw [lt_real] at h
      norm_num at h
      rcases hI with hI | hI
      · linarith
      · exact ipot_pos _ tZ hI
  rw [cassert_true _ _ (by rw [lt_real]; exact lt_of_eq_of_lt (by norm_num) hIp), bind_ok]
  obtain ⟨d, hd⟩ := density_defined (√(1.0 - 1.0 / ((1.0 + p.T / atomic_mass_unit) *
    (1.0 + p.T / atomic_mass_unit)))) t.Z tZ
  simp only [sqrt_real]
  rw [hd, bind_ok]
  obtain ⟨l, hl⟩ := lindhard_defined env.calcIndex hp hn hr
  by_cases h1 : (!c.corrections.testBit 1) = true
  · rw [if_pos h1, hl, bind_ok]
    split <;> exact ⟨_, rfl⟩
  · rw [if_neg h1, pure_bind]
    split <;> exact ⟨_, rfl⟩

end Catima
