import Verif.Lemmas.HeavyRatio
import Verif.Lemmas.IonSteady
import Verif.Lemmas.SteadyComponent

/-!
# Helper lemmas: the stopping power of ions from lithium to uranium is steady
-/

namespace Catima

/-- What the check of a target gives for its stopping number `P`. -/
def HeavyTarget (Z : Int) (x P : ℝ) : Prop :=
  (Z ≤ 29 → 3.66 * (Z : ℝ) ≤ P) ∧ 2.65 * (Z : ℝ) ≤ P ∧ ∃ (u τ r f f' : ℝ) (low : Bool),
    Real.log Z ≤ u ∧ 8620 * (Z : ℝ) ≤ (1000 * τ) ^ 2 ∧ 0 ≤ τ ∧ τ ≤ 0.892 ∧ (low = true → τ ≤ 0.55) ∧ 0 < r ∧ r ^ 2 ≤ Z ∧
    0 ≤ f ∧ f ≤ barkasF (25.51 / r) ∧ 0 ≤ f' ∧ f' ≤ barkasF (36.52 / r) ∧
    (x ≤ 16 → ∀ κ l : ℝ, (κ = 0.0745 ∧ l = 1.704 ∨ κ = 0.132 ∧ l = 2.126) → 0 ≤ 5.436 - u / 2 - shellTop low τ Z ∧
      1.066 * P ≤ 3.29 * (Z * ((5.436 - u / 2 - shellTop low τ Z) * (1 + κ * (r * f)) - l))) ∧
    (∀ κ l : ℝ, (κ = 0.0385 ∧ l = 1.433 ∨ κ = 0.0714 ∧ l = 1.847) → 0 ≤ 5.876 - u / 2 - shellTop' τ Z ∧
      1.066 * P ≤ 3.29 * (Z * ((5.876 - u / 2 - shellTop' τ Z) * (1 + κ * (r * f')) - l)))

theorem heavyCase_real (Z φ K l : ℚ) (hi : Nat) (h : heavyCase Z φ K l hi = true) (P : ℝ) (hP : P ≤ hi / 1000) :
    (0 : ℝ) ≤ φ ∧ 1.066 * P ≤ 3.29 * ((Z : ℝ) * (φ * (1 + K) - l)) := by
  obtain ⟨a, b⟩ := of_decide_eq_true h
  have a' := (Rat.cast_le (K := ℝ)).mpr a
  have b' := (Rat.cast_le (K := ℝ)).mpr b
  push_cast at a' b'
  refine ⟨a', ?_⟩
  norm_num at b' ⊢
  linarith

theorem heavyTarget_of_check (k : Nat) (w : Nat × Nat × Nat × Nat) (u hi16 hi : Nat) (h : heavyCheck k w u hi16 hi = true) (Z : Int)
    (hZ : (k : Int) + 1 = Z) (hu : Real.log Z ≤ (u : ℝ) / 50) (x P : ℝ) (p1 : Z ≤ 29 → 3.66 * (Z : ℝ) ≤ P) (p2 : 2.65 * (Z : ℝ) ≤ P)
    (h16 : x ≤ 16 → P ≤ (hi16 : ℝ) / 1000) (h32 : P ≤ (hi : ℝ) / 1000) : HeavyTarget Z x P := by
  unfold heavyCheck at h
  simp only [Bool.and_eq_true] at h
  obtain ⟨⟨⟨⟨h1, b1⟩, b2⟩, c1, c2⟩, c3, c4⟩ := h
  obtain ⟨t1, t2, r1, r0⟩ := of_decide_eq_true h1
  have kR : (Z : ℝ) = k + 1 := by exact_mod_cast hZ.symm
  have t1' : (8620 : ℝ) * (k + 1) ≤ (w.1 : ℝ) ^ 2 := by exact_mod_cast t1
  have t2' : (w.1 : ℝ) ≤ 892 := by exact_mod_cast t2
  have r1' : (w.2.1 : ℝ) ^ 2 ≤ 10000 * (k + 1) := by exact_mod_cast r1
  have r0' : (0 : ℝ) < w.2.1 := by exact_mod_cast r0
  have e1 := bfLow_le _ _ b1
  have e2 := bfLow_le _ _ b2
  push_cast at e1 e2
  refine ⟨p1, p2, (u : ℝ) / 50, (w.1 : ℝ) / 1000, (w.2.1 : ℝ) / 100, (w.2.2.1 : ℝ) / 10000, (w.2.2.2 : ℝ) / 10000, Nat.ble w.1 550, hu,
    ?_, by positivity, by norm_num; linarith, fun hl => ?_, by positivity, ?_, by positivity, ?_, by positivity, ?_, fun hx κ l hk => ?_, fun κ l hk => ?_⟩
  · rw [kR, mul_div_cancel₀ _ (by norm_num)]; exact t1'
  · have : (w.1 : ℝ) ≤ 550 := by exact_mod_cast Nat.le_of_ble_eq_true hl
    norm_num; linarith
  · rw [kR, div_pow, div_le_iff₀ (by norm_num)]; linarith
  · norm_num at e1 ⊢; exact e1
  · norm_num at e2 ⊢; exact e2
  · have hP := h16 hx
    have top : ((shellTop (Nat.ble w.1 550) ((w.1 : ℚ) / 1000) ((k : ℚ) + 1) : ℚ) : ℝ) = shellTop (Nat.ble w.1 550) ((w.1 : ℝ) / 1000) ((k : ℝ) + 1) := by
      unfold shellTop
      split <;> push_cast <;> rfl
    rw [kR]
    rcases hk with ⟨rfl, rfl⟩ | ⟨rfl, rfl⟩
    · obtain ⟨a, b⟩ := heavyCase_real _ _ _ _ _ c1 P hP
      push_cast [top] at a b
      refine ⟨?_, ?_⟩
      · refine a.trans (le_of_eq ?_); norm_num; ring
      · refine b.trans (le_of_eq ?_); ring
    · obtain ⟨a, b⟩ := heavyCase_real _ _ _ _ _ c2 P hP
      push_cast [top] at a b
      refine ⟨?_, ?_⟩
      · refine a.trans (le_of_eq ?_); norm_num; ring
      · refine b.trans (le_of_eq ?_); ring
  · have top : ((shellTop' ((w.1 : ℚ) / 1000) ((k : ℚ) + 1) : ℚ) : ℝ) = shellTop' ((w.1 : ℝ) / 1000) ((k : ℝ) + 1) := by
      unfold shellTop'
      push_cast; rfl
    rw [kR]
    rcases hk with ⟨rfl, rfl⟩ | ⟨rfl, rfl⟩
    · obtain ⟨a, b⟩ := heavyCase_real _ _ _ _ _ c3 P h32
      push_cast [top] at a b
      refine ⟨?_, ?_⟩
      · refine a.trans (le_of_eq ?_); norm_num; ring
      · refine b.trans (le_of_eq ?_); ring
    · obtain ⟨a, b⟩ := heavyCase_real _ _ _ _ _ c4 P h32
      push_cast [top] at a b
      refine ⟨?_, ?_⟩
      · refine a.trans (le_of_eq ?_); norm_num; ring
      · refine b.trans (le_of_eq ?_); ring

theorem heavyHints_length : heavyHints.length = 92 := by decide

theorem pseGen_heavy (tab : List (List Dec)) (hints : List (Int × Int × Nat × Nat × Nat × Nat × Nat)) (hints' : List (Int × Nat × Nat × Nat))
    (hl : tab.length = 92) (hl' : hints.length = 92) (hl'' : hints'.length = 92) (hr : ∀ r ∈ tab, pseRowSteady r = true)
    (hh : (tab.zip hints).all (fun e => pseHint e.1 e.2) = true) (hh' : (tab.zip hints').all (fun e => pseHint16 e.1 e.2) = true)
    (hg : hintsIon hints hints' = true) (hg' : heavyOk hints hints' = true) (Z : Int) (hZ : 1 ≤ Z) (hZ' : Z ≤ 92) (x : ℝ) (h0 : 10 ≤ x) (h1 : x ≤ 32.5) :
    ∃ s, pseGen tab Z x = .ok s ∧ HeavyTarget Z x (1961.13 * s * (etaSq x / (1 + etaSq x))) := by
  obtain ⟨s, val, -, -, p1, p2⟩ := pseGen_ion tab hints hints' hl hl' hl'' hr hh hh' hg Z hZ hZ' x h0 h1
  refine ⟨s, val, ?_⟩
  obtain ⟨i0, i92⟩ := srimIdx_range Z hZ
  obtain ⟨k, hk⟩ := Int.eq_ofNat_of_zero_le i0
  have hk' : k < tab.length := by omega
  have hkh : k < hints.length := by omega
  have hkh' : k < hints'.length := by omega
  have hkv : k < heavyHints.length := by rw [heavyHints_length]; omega
  have hrow := rd_nat tab k hk'
  have hs := hr _ (List.getElem_mem hk')
  have hw : pseHint tab[k] hints[k] = true := by
    rw [List.all_eq_true] at hh
    have hz : k < (tab.zip hints).length := by rw [List.length_zip]; omega
    have := hh _ (List.getElem_mem hz)
    rwa [List.getElem_zip] at this
  have hw' : pseHint16 tab[k] hints'[k] = true := by
    rw [List.all_eq_true] at hh'
    have hz : k < (tab.zip hints').length := by rw [List.length_zip]; omega
    have := hh' _ (List.getElem_mem hz)
    rwa [List.getElem_zip] at this
  have kZ : (k : Int) + 1 = Z := by
    unfold srimIdx at hk
    split at hk <;> omega
  have g4 : ((k + 1 : Nat) : ℚ) ≤ expLow hints'[k].2.2.2 := by
    unfold hintsIon at hg
    rw [List.all_eq_true] at hg
    have := hg k (List.mem_range.mpr (by omega))
    rw [List.getElem?_eq_getElem hkh, List.getElem?_eq_getElem hkh'] at this
    exact (of_decide_eq_true this).2.2.2
  have chk : heavyCheck k heavyHints[k] hints'[k].2.2.2 hints'[k].2.2.1 hints[k].2.2.2.2.2.1 = true := by
    unfold heavyOk at hg'
    rw [List.all_eq_true] at hg'
    have := hg' k (List.mem_range.mpr (by omega))
    rw [List.getElem?_eq_getElem hkh, List.getElem?_eq_getElem hkh', List.getElem?_eq_getElem hkv] at this
    exact this
  obtain ⟨q1, q0⟩ := beta_over_e x h0 h1
  obtain ⟨s', es, b0, b1⟩ := pseRow_value tab[k] hs hints[k] hw (1000 * x) _ (by linarith) (by norm_num at h1; linarith) q1 q0
  have val' : pseGen tab Z x = .ok s' := by
    unfold pseGen
    have e25 : (25.0 : ℝ) = 25 := by norm_num
    have e1000 : (1000.0 : ℝ) = 1000 := by norm_num
    rw [hk, e25, e1000]
    have h' : ¬ Scalar.le (1000 * x) 25 = true := fun hh => by have := (le_real _ _).mp hh; linarith
    simp only [hrow, bind_ok, if_neg h', es]
    rfl
  rw [val] at val'
  injection val' with ev
  subst ev
  have b2 : x ≤ 16 → 1961.13 * s * (etaSq x / (1 + etaSq x)) ≤ (hints'[k].2.2.1 : ℝ) / 1000 := fun h16 =>
    pseRow_value16 tab[k] hs hints'[k] hw' (1000 * x) _ s (by linarith) (by linarith) q1 (le_trans (by positivity) q0) es
  have kR : (Z : ℝ) = k + 1 := by exact_mod_cast kZ.symm
  have hlog : Real.log Z ≤ (hints'[k].2.2.2 : ℝ) / 50 := by
    have e4 := (Rat.cast_le (K := ℝ)).mpr g4
    push_cast at e4
    have := (exp_50 hints'[k].2.2.2).1
    push_cast at this
    rw [kR, Real.log_le_iff_le_exp (by positivity)]
    exact e4.trans this
  exact heavyTarget_of_check k _ _ _ _ chk Z kZ hlog x _ p1 p2 b2 b1

theorem heavy_proton (b : Bool) (Z : Int) (hZ : 1 ≤ Z) (hZ' : Z ≤ 92) (x : ℝ) (h0 : 10 ≤ x) (h1 : x ≤ 32.5) :
    ∃ s, (if b then p_se Z else p_se85 Z : ℝ → M ℝ) x = .ok s ∧ HeavyTarget Z x (1961.13 * s * (etaSq x / (1 + etaSq x))) := by
  cases b
  · exact pseGen_heavy _ _ _ proton_ok.1 proton_hinted.2 proton_hinted16.2 proton_steady proton_hinted.1 proton_hinted16.1 hints_ion.2 heavy_ok.2
      Z hZ hZ' x h0 h1
  · exact pseGen_heavy _ _ _ pse_95_ok.1 pse_95_hinted.2 pse_95_hinted16.2 pse_95_steady pse_95_hinted.1 pse_95_hinted16.1 hints_ion.1 heavy_ok.1
      Z hZ hZ' x h0 h1

theorem heavy_core (z g Z Br P C : ℝ) (z0 : 0 < z) (hg : z ≤ 1.08 * g) (hR : g ^ 2 ≤ 1.066 * z ^ 2) (hZ : 1 ≤ Z)
    (hC : C ≤ Br) (hP : 1.066 * P ≤ 3.29 * (Z * C)) (hB : (Br ≤ 15.6 ∧ 3.66 * Z ≤ P) ∨ (Br ≤ 11.33 ∧ 2.65 * Z ≤ P)) :
    z ^ 2 * Z * Br ≤ 4.99 * (g ^ 2 * P) ∧ g ^ 2 * P ≤ 3.29 * (z ^ 2 * Z * Br) := by
  have P0 : 0 ≤ P := by rcases hB with h | h <;> exact le_trans (by positivity) h.2
  constructor
  · have k2 : z ^ 2 ≤ 1.1664 * g ^ 2 := by
      have := pow_le_pow_left₀ z0.le hg 2
      refine this.trans (le_of_eq ?_)
      norm_num; ring
    have k3 : Z * Br ≤ 4.99 / 1.1664 * P := by
      rcases hB with ⟨h1, h2⟩ | ⟨h1, h2⟩
      · have := mul_le_mul_of_nonneg_left h1 (show 0 ≤ Z by linarith)
        norm_num at *; linarith
      · have := mul_le_mul_of_nonneg_left h1 (show 0 ≤ Z by linarith)
        norm_num at *; linarith
    calc z ^ 2 * Z * Br = z ^ 2 * (Z * Br) := by ring
      _ ≤ z ^ 2 * (4.99 / 1.1664 * P) := mul_le_mul_of_nonneg_left k3 (by positivity)
      _ ≤ 1.1664 * g ^ 2 * (4.99 / 1.1664 * P) := mul_le_mul_of_nonneg_right k2 (by positivity)
      _ = _ := by ring
  · calc g ^ 2 * P ≤ 1.066 * z ^ 2 * P := mul_le_mul_of_nonneg_right hR P0
      _ = z ^ 2 * (1.066 * P) := by ring
      _ ≤ z ^ 2 * (3.29 * (Z * C)) := mul_le_mul_of_nonneg_left hP (by positivity)
      _ ≤ z ^ 2 * (3.29 * (Z * Br)) := by
        have : Z * C ≤ Z * Br := mul_le_mul_of_nonneg_left hC (by linarith)
        gcongr
      _ = _ := by ring

theorem heavy_below (F φ K k l l' D : ℝ) (φ0 : 0 ≤ φ) (hF : φ ≤ F) (k0 : 0 ≤ k) (hK : k ≤ K) (hl : 0.07 - l' ≤ l) (D1 : D ≤ 0.14) :
    φ * (1 + k) - l' ≤ F * (1 + K) + l - D / 2 := by
  have : φ * (1 + k) ≤ F * (1 + K) := mul_le_mul hF (by linarith) (by linarith) (φ0.trans hF)
  norm_num at *; linarith

theorem heavy_above (F F1 K K1 l D Br : ℝ) (F0 : 0 ≤ F) (hF : F ≤ F1) (K0 : 0 ≤ K) (hK : K ≤ K1) (l1 : l ≤ 0.004) (D0 : -0.46 ≤ D)
    (hB : F1 * (1 + K1) + 0.234 ≤ Br) : F * (1 + K) + l - D / 2 ≤ Br := by
  have : F * (1 + K) ≤ F1 * (1 + K1) := mul_le_mul hF (by linarith) (by linarith) (F0.trans hF)
  norm_num at *; linarith

/-- Bounds of the Barkas correction for the ions from nickel to uranium. -/
theorem heavy_barkas (z s zt : ℝ) (s0 : 0.021586 ≤ s) (hzt : 1 ≤ zt) (hzt' : zt ≤ 92) (z0 : 0 ≤ z) :
    0 ≤ bethek_barkas z (√s) zt - 1 ∧ bethek_barkas z (√s) zt - 1 ≤ 0.01405 * z ∧
    (0.034648 ≤ s → bethek_barkas z (√s) zt - 1 ≤ 0.0081 * z) ∧ (zt ≤ 29 → bethek_barkas z (√s) zt - 1 ≤ 0.0064 * z) := by
  have b1 : barkasF 2.09 ≤ 0.2964 := by unfold barkasF; norm_num
  have b2 : barkasF 2.65 ≤ 0.274 := by unfold barkasF; norm_num
  have b3 : barkasF 3.73 ≤ 0.2381 := by unfold barkasF; norm_num
  obtain ⟨a0, a1⟩ := barkas_high z s 0.021586 zt 9.5917 2.09 0.2964 (by norm_num) s0 hzt (by linarith) (by norm_num) (by norm_num; linarith) (by norm_num)
    (by norm_num [fine_structure]) b1 z0
  refine ⟨a0, a1.trans (mul_le_mul_of_nonneg_right (by norm_num [fine_structure]) z0), fun h => ?_, fun h => ?_⟩
  · obtain ⟨-, c1⟩ := barkas_high z s 0.034648 zt 9.5917 2.65 0.274 (by norm_num) h hzt (by linarith) (by norm_num) (by norm_num; linarith) (by norm_num)
      (by norm_num [fine_structure]) b2 z0
    exact c1.trans (mul_le_mul_of_nonneg_right (by norm_num [fine_structure]) z0)
  · obtain ⟨-, c1⟩ := barkas_high z s 0.021586 zt 5.3852 3.73 0.2381 (by norm_num) s0 hzt (by linarith) (by norm_num) (by norm_num; linarith) (by norm_num)
      (by norm_num [fine_structure]) b3 z0
    exact c1.trans (mul_le_mul_of_nonneg_right (by norm_num [fine_structure]) z0)

theorem ipot_uranium (z : Int) (h1 : 1 ≤ z) (h2 : z ≤ 92) : (ipot z : ℝ) ^ 2 ≤ 8620 * z := by
  have h : (List.range 92).all (fun k => match ionisation_potentials_z[k + 1]? with
      | some d => decide (d.rat ^ 2 ≤ 8620 * ((k : ℚ) + 1))
      | none => false) = true := by decide +kernel
  obtain ⟨k, hk⟩ := Int.eq_ofNat_of_zero_le (show 0 ≤ z - 1 by omega)
  have hz : z.toNat = k + 1 := by omega
  rw [List.all_eq_true] at h
  have hh := h k (List.mem_range.mpr (by omega))
  unfold ipot
  rw [if_neg (by omega), hz]
  have hl : k + 1 < ionisation_potentials_z.length := by rw [ipot_len.1]; omega
  rw [List.getElem?_eq_getElem hl] at hh ⊢
  have hh := of_decide_eq_true hh
  have := (Rat.cast_le (K := ℝ)).mpr hh
  push_cast at this
  rw [Dec.rat_cast] at this
  have hzr : (z : ℝ) = (k : ℝ) + 1 := by
    have : z = (k : Int) + 1 := by omega
    rw [this]; push_cast; rfl
  rw [hzr]
  exact this

set_option maxHeartbeats 1000000 in
/-- The two models for ions from nickel to uranium between 10 and 32.5 MeV/u. -/
theorem ion_ratio_heavy (env : Env ℝ) {p : Projectile ℝ} {n : Int} (hp : p.Ion n) (h28 : 28 ≤ n) (h92 : n ≤ 92)
    (hA : p.A ≤ 3 * element_atomic_weight n) (t : Target ℝ) (tZ : 1 ≤ t.Z) (tZ' : t.Z ≤ 92) (t85 : t.Z ≠ 85) (t87 : t.Z ≠ 87) (t91 : t.Z ≠ 91)
    (tA : 0 < t.A) (c : Config ℝ) (hc : c.z_effective = 1) (hbk : c.corrections.testBit 0 = false)
    (I : ℝ) (hI : TypicalI I t.Z) (hI' : 0 < I → 10 ≤ I) (hI'' : 0 < I → 30 ≤ t.Z → 120 ≤ I) (hI3 : 0 < I → I ^ 2 ≤ 8620 * t.Z)
    (x : ℝ) (h0 : 10 ≤ x) (h1 : x ≤ 32.5) (hT : LindhardReadable x) (b : Bool) (s v : ℝ)
    (hs : srim_dedx_e n t.Z x b = .ok s)
    (hv : bethek_dedx_e_target env (p.withT x) t c I = .ok v) :
    v ≤ 5 * (602.2140857 * s / t.A) ∧ 602.2140857 * s / t.A ≤ 3.3 * v := by
  have ionT : (p.withT x).Ion n := ⟨hp.Z, hp.pos, hp.int, hp.A⟩
  have n28 : (28 : ℝ) ≤ n := by exact_mod_cast h28
  have np : (0 : ℝ) < n := by linarith
  obtain ⟨z, X, hz, ez, eX, z06, z746, z638, z24, z25, z42, z47⟩ := heavy_charge env.debug p hp.Z h28 h92 t c hc x h0 h1
  have zp : 0 < z := lt_of_lt_of_le (by positivity) z06
  obtain ⟨s0, s1, s2, s3⟩ := etaSq_bands x h0 h1
  have sp' : 0 < etaSq x := lt_of_lt_of_le (by norm_num) s0
  obtain ⟨l, el, l0, l16, l60, l60', hl1⟩ : ∃ l, (if c.corrections.testBit 1 = true then .ok 0 else precalculated_lindhard env.calcIndex (p.withT x)) = .ok l ∧
      -2.056 ≤ l ∧ (16 ≤ x → -1.777 ≤ l) ∧ (n ≤ 60 → -1.634 ≤ l) ∧ (n ≤ 60 → 16 ≤ x → -1.363 ≤ l) ∧ l ≤ 0.004 := by
    split
    · exact ⟨0, rfl, by norm_num, fun _ => by norm_num, fun _ => by norm_num, fun _ _ => by norm_num, by norm_num⟩
    · exact lindhard_heavy env.calcIndex ionT h28 h92 hA h0 h1 hT
  obtain ⟨I10, I1, -, sf0, sf1, D, D0, D1, e1⟩ := bethe_bracket env hp t tZ (by omega) t85 t87 tA c I hI hI' x h0 h1 z hz zp l el v hv
  have htz : (1 : ℝ) ≤ (t.Z : ℝ) := by exact_mod_cast tZ
  have htz' : (t.Z : ℝ) ≤ 92 := by exact_mod_cast tZ'
  have I3 : usedI I t.Z ^ 2 ≤ 8620 * t.Z := by
    unfold usedI
    split
    · exact hI3 ‹_›
    · exact ipot_uranium _ tZ tZ'
  have I120 : 30 ≤ t.Z → 120 ≤ usedI I t.Z := by
    intro h30
    unfold usedI
    split
    · exact hI'' ‹_› h30
    · exact ipot_zinc _ h30 tZ'
  have sfc : shellFactor c (usedI I t.Z) t.Z ≤ usedI I t.Z ^ 2 / t.Z / 1000000 := by
    unfold shellFactor
    split
    · positivity
    · exact le_rfl
  obtain ⟨F0, F1, -⟩ := betheLog_mid _ (usedI I t.Z) x sf0 sf1 I10 I1 h0 h1
  have F4 : 30 ≤ t.Z → betheLog (shellFactor c (usedI I t.Z) t.Z) (usedI I t.Z) (etaSq x) ≤ 6.46 := fun h30 => betheLog_above _ _ x sf0 (I120 h30) I1 h0 h1
  have F5 : 30 ≤ t.Z → x ≤ 16 → betheLog (shellFactor c (usedI I t.Z) t.Z) (usedI I t.Z) (etaSq x) ≤ 5.7 := fun h30 h16 =>
    betheLog_above16 _ _ x sf0 (I120 h30) I1 h0 h16
  have eK : barkasTerm c z (etaSq x) t.Z = bethek_barkas z (√(etaSq x)) t.Z - 1 := by
    unfold barkasTerm
    rw [hbk]; rfl
  obtain ⟨K0, K1, K2, K3⟩ := heavy_barkas z (etaSq x) t.Z s0 htz htz' zp.le
  obtain ⟨lam, vf, hlam, hvf, hS, -⟩ := ion_tables n t.Z (by omega) (by omega) tZ t91
  obtain ⟨sp, es, p29, p30, u, τ, r, f, f', low, hu, hτ, τ0, τ1, τ2, r0, r1, f0, f1, g0, g1, q16, q32⟩ := heavy_proton b t.Z tZ tZ' x h0 h1
  have hIτ : usedI I t.Z ≤ 1000 * τ := by
    refine le_of_pow_le_pow_left₀ (n := 2) (by norm_num) (by positivity) (I3.trans hτ)
  obtain ⟨G1, G2, G3⟩ := betheLog_heavy _ (usedI I t.Z) x t.Z τ u htz sfc I10 I3 hIτ τ1 hu h0 h1
  have KL : ∀ z0 V s1 κ g : ℝ, etaSq x ≤ s1 → 0 ≤ V → s1 ≤ (V * fine_structure) ^ 2 → 0 ≤ g → g ≤ barkasF (V / r) → 0 ≤ z0 → z0 ≤ z →
      κ ≤ 2 * z0 * fine_structure ^ 2 / s1 → κ * (r * g) ≤ barkasTerm c z (etaSq x) t.Z := by
    intro z0 V s1 κ g a1 a2 a3 a4 a5 a6 a7 a8
    rw [eK]
    refine le_trans ?_ (barkas_low z z0 (etaSq x) s1 t.Z r V g s0 a1 htz (by linarith) r0 r1 a2 a3 a4 a5 a6 a7)
    exact mul_le_mul_of_nonneg_right a8 (by positivity)
  have iz2 : (1 / (n : ℝ) ^ (1 / 3 : ℝ)) * (1 / (n : ℝ) ^ (1 / 3 : ℝ)) * (n : ℝ) ^ (2 / 3 : ℝ) = 1 := by
    have : (n : ℝ) ^ (2 / 3 : ℝ) = (n : ℝ) ^ (1 / 3 : ℝ) * (n : ℝ) ^ (1 / 3 : ℝ) := by
      rw [← Real.rpow_add np]; congr 1; norm_num
    rw [this]
    have : (0 : ℝ) < (n : ℝ) ^ (1 / 3 : ℝ) := Real.rpow_pos_of_pos np _
    field_simp
  have hX : X = 0.95 * fine_structure_inverted * √(etaSq x / (1 + etaSq x)) * ((1 / (n : ℝ) ^ (1 / 3 : ℝ)) * (1 / (n : ℝ) ^ (1 / 3 : ℝ))) := by
    rw [← eX]
    generalize (1 / (n : ℝ) ^ (1 / 3 : ℝ)) * (1 / (n : ℝ) ^ (1 / 3 : ℝ)) = W at *
    rw [mul_assoc X, mul_comm _ W, iz2, mul_one]
  have w6 : 0.6 ≤ 1 - Real.exp (-X) := by
    rw [ez, mul_comm (n : ℝ)] at z06
    exact le_of_mul_le_mul_right z06 np
  obtain ⟨ζ0, ζ1, ζp, ny⟩ := heavy_zeta hS h28 h92 tZ tZ' x h0 h1 _ X (by norm_num [fine_structure_inverted, fine_structure])
    (by norm_num [fine_structure_inverted, fine_structure]) hX w6
  have es' : srim_dedx_e n t.Z x b = .ok (sp * (ionZeta n t.Z (1 / (n : ℝ) ^ (1 / 3 : ℝ)) lam vf x * n) ^ 2) := by
    unfold srim_dedx_e
    rw [if_neg (by omega), if_neg (by omega), srimHeavy_eq _ n t.Z x lam vf (by linarith) hlam hvf hS.vf0 _ rfl, if_neg ny, es]
    rfl
  rw [hs] at es'
  injection es' with es'
  rw [es']
  have q0 : 0 < etaSq x / (1 + etaSq x) := by positivity
  rw [← eK] at K0 K1 K2 K3
  clear hs hv es el hT hI hI' hI'' hI3 sf0 sf1 sfc I10 I1 I3 I120 hIτ hlam hvf hS ny es' hX iz2 eX eK
  generalize ionZeta _ _ _ _ _ _ = ζ at *
  have hg : z ≤ 1.08 * (ζ * n) := by
    rw [ez, mul_comm (n : ℝ), ← mul_assoc]
    exact mul_le_mul_of_nonneg_right ζ0 np.le
  have hR : (ζ * n) ^ 2 ≤ 1.066 * z ^ 2 := by
    rw [ez, mul_pow, mul_pow, mul_comm ((n : ℝ) ^ 2), ← mul_assoc]
    exact mul_le_mul_of_nonneg_right ζ1 (by positivity)
  clear ez w6 ζ0 ζ1 ζp
  generalize betheLog _ _ _ = F at *
  generalize barkasTerm _ _ _ _ = K at *
  have F0' : 0 ≤ F := le_trans (by norm_num) F0
  have hB : (F * (1 + K) + l - D / 2 ≤ 15.6 ∧ 3.66 * (t.Z : ℝ) ≤ 1961.13 * sp * (etaSq x / (1 + etaSq x))) ∨
      (F * (1 + K) + l - D / 2 ≤ 11.33 ∧ 2.65 * (t.Z : ℝ) ≤ 1961.13 * sp * (etaSq x / (1 + etaSq x))) := by
    rcases le_or_gt t.Z 29 with h | h
    · have k3 : K ≤ 0.0064 * 74.6 := (K3 (by exact_mod_cast h)).trans (mul_le_mul_of_nonneg_left z746 (by norm_num))
      exact Or.inl ⟨heavy_above F 9 K _ l D _ F0' F1 K0 k3 hl1 D0 (by norm_num), p29 h⟩
    · refine Or.inr ⟨?_, p30⟩
      rcases le_total x 16 with h16 | h16
      · have k3 : K ≤ 0.01405 * 63.8 := K1.trans (mul_le_mul_of_nonneg_left (z638 h16) (by norm_num))
        exact heavy_above F 5.7 K _ l D _ F0' (F5 (by omega) h16) K0 k3 hl1 D0 (by norm_num)
      · have k3 : K ≤ 0.0081 * 74.6 := (K2 (s3 h16)).trans (mul_le_mul_of_nonneg_left z746 (by norm_num))
        exact heavy_above F 6.46 K _ l D _ F0' (F4 (by omega)) K0 k3 hl1 D0 (by norm_num)
  have fin : ∀ {C : ℝ}, C ≤ F * (1 + K) + l - D / 2 → 1.066 * (1961.13 * sp * (etaSq x / (1 + etaSq x))) ≤ 3.29 * (t.Z * C) →
      v ≤ 5 * (602.2140857 * (sp * (ζ * n) ^ 2) / t.A) ∧ 602.2140857 * (sp * (ζ * n) ^ 2) / t.A ≤ 3.3 * v := by
    intro C hC hP
    obtain ⟨c1, c2⟩ := heavy_core z (ζ * n) t.Z _ _ C zp hg hR htz hC hP hB
    exact ratio_core' (z ^ 2) _ t.Z _ _ _ t.A sp v e1 q0 tA htz rfl c1 c2
  rcases le_total x 16 with h16 | h16
  · have G : 5.436 - u / 2 - shellTop low τ (t.Z : ℝ) ≤ F := by
      cases low
      · exact G1 h16
      · exact G2 h16 (τ2 rfl)
    rcases le_or_gt n 60 with h60 | h60
    · obtain ⟨φ0, hP⟩ := q16 h16 0.0745 1.704 (Or.inl ⟨rfl, rfl⟩)
      refine fin (heavy_below F _ K _ l _ D φ0 G (by positivity) (KL 24.3 25.51 0.034649 0.0745 f (s2 h16) (by norm_num) (by norm_num [fine_structure]) f0 f1
        (by norm_num) z24 (by norm_num [fine_structure])) ?_ D1) hP
      have := l60 h60
      norm_num at this ⊢; linarith
    · obtain ⟨φ0, hP⟩ := q16 h16 0.132 2.126 (Or.inr ⟨rfl, rfl⟩)
      refine fin (heavy_below F _ K _ l _ D φ0 G (by positivity) (KL 42.98 25.51 0.034649 0.132 f (s2 h16) (by norm_num) (by norm_num [fine_structure]) f0 f1
        (by norm_num) (z42 (by omega)) (by norm_num [fine_structure])) ?_ D1) hP
      norm_num at l0 ⊢; linarith
  · have G := G3 h16
    rcases le_or_gt n 60 with h60 | h60
    · obtain ⟨φ0, hP⟩ := q32 0.0385 1.433 (Or.inl ⟨rfl, rfl⟩)
      refine fin (heavy_below F _ K _ l _ D φ0 G (by positivity) (KL 25.86 36.52 0.071 0.0385 f' s1 (by norm_num) (by norm_num [fine_structure]) g0 g1
        (by norm_num) (z25 h16) (by norm_num [fine_structure])) ?_ D1) hP
      have := l60' h60 h16
      norm_num at this ⊢; linarith
    · obtain ⟨φ0, hP⟩ := q32 0.0714 1.847 (Or.inr ⟨rfl, rfl⟩)
      refine fin (heavy_below F _ K _ l _ D φ0 G (by positivity) (KL 47.65 36.52 0.071 0.0714 f' s1 (by norm_num) (by norm_num [fine_structure]) g0 g1
        (by norm_num) (z47 (by omega) h16) (by norm_num [fine_structure])) ?_ D1) hP
      have := l16 h16
      norm_num at this ⊢; linarith

/-- The ions from lithium to uranium. -/
theorem ion_steady_stopping (env : Env ℝ) (p : Projectile ℝ) {n : Int} (h3 : 3 ≤ n) (h92 : n ≤ 92) (m : Material ℝ) (c : Config ℝ) (h : Computable p n m c)
    (hA : p.A ≤ 3 * element_atomic_weight n) (hZA : (n : ℝ) ≤ 2 * p.A) (hc : c.z_effective = 1) (hbk : 28 ≤ n → c.corrections.testBit 0 = false)
    (hI : ∀ t ∈ m.atoms, TypicalI m.i_potential t.Z) (hI' : 0 < m.i_potential → 10 ≤ m.i_potential)
    (hI'' : ∀ t ∈ m.atoms, 0 < m.i_potential → 30 ≤ t.Z → 120 ≤ m.i_potential)
    (hI3 : 28 ≤ n → ∀ t ∈ m.atoms, 0 < m.i_potential → m.i_potential ^ 2 ≤ 8620 * t.Z)
    (hd : ∀ t ∈ m.atoms, t.Z ≤ 92 ∧ t.Z ≠ 85 ∧ t.Z ≠ 87 ∧ t.Z ≠ 91) : SteadyStopping env p m c := by
  refine steady_of_srim env p (by omega) m c h hA (by rw [h.ion.Z]; exact hZA) hc hI (fun t ht => ⟨(hd t ht).2.1, (hd t ht).2.2.1⟩)
    (fun t ht x r hx r1 r2 => ?_) fun t ht y y0 y1 hy s v hs hv => ?_
  · exact heavy_step (c.low_energy == 1) n t.Z h3 h92 (h.sound.Z t ht) (h.known t ht) (hd t ht).2.2.2 x r hx (le_trans (by norm_num) r1) r2
  · rcases le_or_gt n 27 with h27 | h27
    · exact ion_ratio env h.ion h3 h27 hA t (h.sound.Z t ht) (hd t ht).1 (hd t ht).2.1 (hd t ht).2.2.1 (hd t ht).2.2.2 (h.sound.A t ht) c hc m.i_potential
        (hI t ht) hI' (hI'' t ht) y y0 y1 hy (c.low_energy == 1) s v hs hv
    · exact ion_ratio_heavy env h.ion (by omega) h92 hA t (h.sound.Z t ht) (hd t ht).1 (hd t ht).2.1 (hd t ht).2.2.1 (hd t ht).2.2.2 (h.sound.A t ht) c hc
        (hbk (by omega)) m.i_potential (hI t ht) hI' (hI'' t ht) (hI3 (by omega) t ht) y y0 y1 hy (c.low_energy == 1) s v hs hv

end Catima
