import Verif.Lemmas.IonStep
import Verif.Lemmas.ProtonValue
import Verif.Lemmas.RadiativeStep
import Mathlib.Analysis.Convex.SpecificFunctions.Basic

/-!
# Helper lemmas: the charge of ions from nickel to uranium in the two models between 10 and 32.5 MeV/u
-/

namespace Catima

/-- A number of a grid. -/
theorem window (a h s : ℝ) (N : Nat) (hh : 0 < h) (h0 : a ≤ s) (h1 : s < a + N * h) :
    ∃ i : Nat, i < N ∧ a + i * h ≤ s ∧ s ≤ a + (i + 1) * h := by
  have hn : 0 ≤ (s - a) / h := div_nonneg (by linarith) hh.le
  refine ⟨⌊(s - a) / h⌋₊, ?_, ?_, ?_⟩
  · rw [Nat.floor_lt hn, div_lt_iff₀ hh]; linarith
  · have := Nat.floor_le hn
    rw [le_div_iff₀ hh] at this
    linarith
  · have := (Nat.lt_floor_add_one ((s - a) / h)).le
    rw [div_le_iff₀ hh] at this
    linarith

/-- The checks of the level against the argument of the Pierce-Blann formula on one window. -/
def levelCharge (i : Nat) : Bool :=
  let a : ℚ := 998 / 1000 + i * (1 / 1000)
  let b : ℚ := 998 / 1000 + (i + 1) * (1 / 1000)
  decide (0 ≤ 54633 / 100000 * a ^ 7 - 8983 / 1000000 * b ^ 17 - 13167 / 10000 * b ^ 3 + 803 / 1000 ∧
    (i < 120 → 947 / 1000 * b ^ 7 + 108 / 100 * (803 / 1000) ≤
      108 / 100 * (13167 / 10000 * a ^ 3 + 38157 / 100000 * a ^ 7 + 8983 / 1000000 * a ^ 17)))

theorem level_charge_windows : (List.range 150).all levelCharge = true := by decide +kernel

/-- The ionisation level of the low-energy model against the argument of the Pierce-Blann formula. -/
theorem level_charge (s : ℝ) (h0 : 0.998 ≤ s) (h1 : s ≤ 1.1465) :
    levelA s ≤ 0.9279 * s ^ 10 ∧ (s ≤ 1.1175 → 0.947 * s ^ 10 ≤ 1.08 * levelA s) := by
  have sp : 0 < s := lt_of_lt_of_le (by norm_num) h0
  obtain ⟨i, i1, i2, i3⟩ := window (998 / 1000) (1 / 1000) s 150 (by norm_num) (by norm_num at h0 ⊢; exact h0) (by norm_num at h1 ⊢; linarith)
  have hw := level_charge_windows
  rw [List.all_eq_true] at hw
  have hw := of_decide_eq_true (hw i (List.mem_range.mpr i1))
  have w1 := (Rat.cast_le (K := ℝ)).mpr hw.1
  push_cast at w1
  have a0 : (0 : ℝ) ≤ 998 / 1000 + i * (1 / 1000) := by positivity
  have A3 := pow_le_pow_left₀ a0 i2 3
  have A7 := pow_le_pow_left₀ a0 i2 7
  have A17 := pow_le_pow_left₀ a0 i2 17
  have B3 := pow_le_pow_left₀ sp.le i3 3
  have B7 := pow_le_pow_left₀ sp.le i3 7
  have B17 := pow_le_pow_left₀ sp.le i3 17
  have e6 : s ^ 6 = s ^ 3 * s ^ 3 := by ring
  have e10 : s ^ 10 = s ^ 3 * s ^ 7 := by ring
  have e20 : s ^ 20 = s ^ 3 * s ^ 17 := by ring
  have c0 : 0 < s ^ 3 := by positivity
  constructor
  · have k : 0 ≤ 54633 / 100000 * s ^ 7 - 8983 / 1000000 * s ^ 17 - 13167 / 10000 * s ^ 3 + 803 / 1000 := by linarith
    have := mul_nonneg c0.le k
    unfold levelA
    rw [e6, e10, e20]
    generalize s ^ 3 = t at *
    generalize s ^ 7 = u at *
    generalize s ^ 17 = v at *
    norm_num
    linarith
  · intro h
    have i120 : i < 120 := by
      have : (i : ℝ) < 120 := by norm_num at h; linarith
      exact_mod_cast this
    have w2 := (Rat.cast_le (K := ℝ)).mpr (hw.2 i120)
    push_cast at w2
    have k : 0 ≤ 108 / 100 * (13167 / 10000 * s ^ 3 + 38157 / 100000 * s ^ 7 + 8983 / 1000000 * s ^ 17) - 947 / 1000 * s ^ 7 - 108 / 100 * (803 / 1000) := by
      linarith
    have := mul_nonneg c0.le k
    unfold levelA
    rw [e6, e10, e20]
    generalize s ^ 3 = t at *
    generalize s ^ 7 = u at *
    generalize s ^ 17 = v at *
    norm_num
    linarith

theorem exp_scale_up (A c : ℝ) (hc : 1 ≤ c) : 1 - Real.exp (-(c * A)) ≤ c * (1 - Real.exp (-A)) := by
  have h := one_add_mul_self_le_rpow_one_add (s := Real.exp (-A) - 1) (by linarith [Real.exp_pos (-A)]) hc
  rw [add_sub_cancel, ← Real.exp_mul, show -A * c = -(c * A) by ring] at h
  linarith

theorem exp_scale_down (A c : ℝ) (h0 : 0 ≤ c) (hc : c ≤ 1) : c * (1 - Real.exp (-A)) ≤ 1 - Real.exp (-(c * A)) := by
  have h := rpow_one_add_le_one_add_mul_self (s := Real.exp (-A) - 1) (by linarith [Real.exp_pos (-A)]) h0 hc
  rw [add_sub_cancel, ← Real.exp_mul, show -A * c = -(c * A) by ring] at h
  linarith

/-- The charge of Pierce and Blann increases with the atomic number and the velocity. -/
theorem pierce_mono (k n N b b' : ℝ) (hk : 0 ≤ k) (hn : 0 < n) (hN : n ≤ N) (hb : 0 ≤ b) (hb' : b ≤ b') :
    n * (1 - Real.exp (-(k / n ^ (2 / 3 : ℝ) * b))) ≤ N * (1 - Real.exp (-(k / N ^ (2 / 3 : ℝ) * b'))) := by
  have hNp : 0 < N := hn.trans_le hN
  have r0 : 0 < n ^ (2 / 3 : ℝ) := by positivity
  have R0 : 0 < N ^ (2 / 3 : ℝ) := by positivity
  have q : n ^ (1 / 3 : ℝ) ≤ N ^ (1 / 3 : ℝ) := Real.rpow_le_rpow hn.le hN (by norm_num)
  have en : n = n ^ (1 / 3 : ℝ) * n ^ (2 / 3 : ℝ) := by rw [← Real.rpow_add hn]; norm_num
  have eN : N = N ^ (1 / 3 : ℝ) * N ^ (2 / 3 : ℝ) := by rw [← Real.rpow_add hNp]; norm_num
  have X : n / N * (k / n ^ (2 / 3 : ℝ) * b) ≤ k / N ^ (2 / 3 : ℝ) * b' := by
    have e1 : n / N * (k / n ^ (2 / 3 : ℝ) * b) = n ^ (1 / 3 : ℝ) * (k * b) / N := by
      have : n / N * (k / n ^ (2 / 3 : ℝ) * b) = (n / n ^ (2 / 3 : ℝ)) * (k * b) / N := by ring
      rw [this]
      congr 2
      rw [div_eq_iff r0.ne']
      exact en
    have e2 : k / N ^ (2 / 3 : ℝ) * b' = N ^ (1 / 3 : ℝ) * (k * b') / N := by
      have : N ^ (1 / 3 : ℝ) = N / N ^ (2 / 3 : ℝ) := by rw [eq_div_iff R0.ne']; exact eN.symm
      rw [this]
      field_simp
    rw [e1, e2]
    gcongr
  have D := exp_scale_down (k / n ^ (2 / 3 : ℝ) * b) (n / N) (by positivity) (by rw [div_le_one hNp]; exact hN)
  have E := Real.exp_le_exp.mpr (neg_le_neg X)
  have := mul_le_mul_of_nonneg_left (D.trans (sub_le_sub_left E 1)) hNp.le
  rwa [← mul_assoc, mul_div_cancel₀ _ hNp.ne'] at this

/-- The kinematics at the borders of the bands. -/
theorem etaSq_bands (x : ℝ) (h0 : 10 ≤ x) (h1 : x ≤ 32.5) : 0.021586 ≤ etaSq x ∧ etaSq x ≤ 0.071 ∧
    (x ≤ 16 → etaSq x ≤ 0.034649) ∧ (16 ≤ x → 0.034648 ≤ etaSq x) := by
  have mono : ∀ {a b : ℝ}, 0 ≤ a → a ≤ b → etaSq a ≤ etaSq b := by
    intro a b ha hab
    unfold etaSq
    have : a / 931.4940954 ≤ b / 931.4940954 := by gcongr
    have : 0 ≤ a / 931.4940954 := by positivity
    gcongr
  have e10 : 0.021586 ≤ etaSq 10 := by unfold etaSq; norm_num
  have e16 : etaSq 16 ≤ 0.034649 ∧ 0.034648 ≤ etaSq 16 := by unfold etaSq; norm_num
  have e32 : etaSq 32.5 ≤ 0.071 := by unfold etaSq; norm_num
  exact ⟨e10.trans (mono (by norm_num) h0), (mono (by linarith) h1).trans e32, fun h => (mono (by linarith) h).trans e16.1,
    fun h => e16.2.trans (mono (by norm_num) h)⟩

/-- The velocity over the velocity of light at the borders of the bands. -/
theorem beta_bands (x : ℝ) (h0 : 10 ≤ x) (h1 : x ≤ 32.5) : 0.14535 ≤ √(etaSq x / (1 + etaSq x)) ∧ √(etaSq x / (1 + etaSq x)) ≤ 0.25748 ∧
    (x ≤ 16 → √(etaSq x / (1 + etaSq x)) ≤ 0.18301) ∧ (16 ≤ x → 0.18299 ≤ √(etaSq x / (1 + etaSq x))) := by
  obtain ⟨a1, a2, a3, a4⟩ := etaSq_bands x h0 h1
  have s0 : 0 < etaSq x := lt_of_lt_of_le (by norm_num) a1
  generalize etaSq x = s at *
  refine ⟨?_, ?_, fun h => ?_, fun h => ?_⟩
  · apply Real.le_sqrt_of_sq_le
    rw [le_div_iff₀ (by positivity)]
    norm_num at *; linarith
  · rw [Real.sqrt_le_left (by norm_num), div_le_iff₀ (by positivity)]
    norm_num at *; linarith
  · have := a3 h
    rw [Real.sqrt_le_left (by norm_num), div_le_iff₀ (by positivity)]
    norm_num at *; linarith
  · have := a4 h
    apply Real.le_sqrt_of_sq_le
    rw [le_div_iff₀ (by positivity)]
    norm_num at *; linarith

/-- The velocity in the units of the low-energy model. -/
theorem beta_velocity (x : ℝ) (h0 : 10 ≤ x) (h1 : x ≤ 32.5) :
    137.5 * √(etaSq x / (1 + etaSq x)) ≤ √(1000 * x / 25) ∧ √(1000 * x / 25) ≤ 140.1 * √(etaSq x / (1 + etaSq x)) := by
  obtain ⟨a, ha⟩ : ∃ a, a = x / 931.4940954 := ⟨_, rfl⟩
  have hx : 1000 * x / 25 = 37259.763816 * a := by
    rw [ha]
    norm_num
    ring
  have a0 : 0.010735 ≤ a := by rw [ha, le_div_iff₀ (by norm_num)]; norm_num at h0 ⊢; linarith
  have a1 : a ≤ 0.0349 := by rw [ha, div_le_iff₀ (by norm_num)]; norm_num at h1 ⊢; linarith
  have hs : etaSq x = a * (2 + a) := by unfold etaSq; rw [← ha]; ring
  have ap : 0 < a := lt_of_lt_of_le (by norm_num) a0
  have hd : etaSq x / (1 + etaSq x) = a * ((2 + a) / (1 + a) ^ 2) := by
    rw [hs, show 1 + a * (2 + a) = (1 + a) ^ 2 by ring, mul_div_assoc]
  rw [hx, hd]
  constructor
  · rw [← Real.sqrt_sq (show (0 : ℝ) ≤ 137.5 by norm_num), ← Real.sqrt_mul (by norm_num)]
    apply Real.sqrt_le_sqrt
    have : (2 + a) / (1 + a) ^ 2 ≤ 1.9707 := by
      rw [div_le_iff₀ (by positivity)]
      norm_num at *
      nlinarith
    calc (137.5 : ℝ) ^ 2 * (a * ((2 + a) / (1 + a) ^ 2)) ≤ 137.5 ^ 2 * (a * 1.9707) := by gcongr
      _ ≤ _ := by norm_num; linarith
  · rw [← Real.sqrt_sq (show (0 : ℝ) ≤ 140.1 by norm_num), ← Real.sqrt_mul (by norm_num)]
    apply Real.sqrt_le_sqrt
    have : 1.8984 ≤ (2 + a) / (1 + a) ^ 2 := by
      rw [le_div_iff₀ (by positivity)]
      norm_num at *
      nlinarith
    calc 37259.763816 * a ≤ 140.1 ^ 2 * (a * 1.8984) := by norm_num; linarith
      _ ≤ _ := by gcongr

theorem exp_at (k : Int) (d : ℚ) (h : d ≤ expLow k) : (d : ℝ) ≤ Real.exp ((k : ℝ) / 50) := ((Rat.cast_le (K := ℝ)).mpr h).trans (exp_50 k).1
theorem exp_at' (k : Int) (d : ℚ) (h : expHigh k ≤ d) : Real.exp ((k : ℝ) / 50) ≤ (d : ℝ) := (exp_50 k).2.trans ((Rat.cast_le (K := ℝ)).mpr h)

/-- Two thirds power of an atomic number. -/
theorem pow_two_thirds (n : ℝ) (hn : 0 ≤ n) : (n ^ (2 / 3 : ℝ)) ^ 3 = n ^ 2 := by
  rw [← Real.rpow_natCast, ← Real.rpow_mul hn]; norm_num

theorem two_thirds_le (n w : ℝ) (hn : 0 ≤ n) (w0 : 0 ≤ w) (hw : n ^ 2 ≤ w ^ 3) : n ^ (2 / 3 : ℝ) ≤ w := by
  rw [← pow_two_thirds n hn] at hw
  exact le_of_pow_le_pow_left₀ (by norm_num) w0 hw

theorem le_two_thirds (n w : ℝ) (hn : 0 ≤ n) (hw : w ^ 3 ≤ n ^ 2) : w ≤ n ^ (2 / 3 : ℝ) := by
  rw [← pow_two_thirds n hn] at hw
  exact le_of_pow_le_pow_left₀ (by norm_num) (by positivity) hw

/-- The equilibrium charge of the ions from nickel to uranium. -/
theorem heavy_charge (debug : Bool) (p : Projectile ℝ) {n : Int} (hZ : p.Z = (n : ℝ)) (h28 : 28 ≤ n) (h92 : n ≤ 92) (t : Target ℝ) (c : Config ℝ)
    (hc : c.z_effective = 1) (x : ℝ) (h0 : 10 ≤ x) (h1 : x ≤ 32.5) : ∃ z X, z_effective debug (p.withT x) t c = .ok z ∧
      z = n * (1 - Real.exp (-X)) ∧ X * (n : ℝ) ^ (2 / 3 : ℝ) = 0.95 * fine_structure_inverted * √(etaSq x / (1 + etaSq x)) ∧
      0.6 * (n : ℝ) ≤ z ∧ z ≤ 74.6 ∧ (x ≤ 16 → z ≤ 63.8) ∧
      24.3 ≤ z ∧ (16 ≤ x → 25.86 ≤ z) ∧ (61 ≤ n → 42.98 ≤ z) ∧ (61 ≤ n → 16 ≤ x → 47.65 ≤ z) := by
  have n0 : (28 : ℝ) ≤ n := by exact_mod_cast h28
  have n1 : (n : ℝ) ≤ 92 := by exact_mod_cast h92
  have np : (0 : ℝ) < n := by linarith
  have val : z_effective debug (p.withT x) t c = .ok (z_eff_Pierce_Blann n (√(etaSq x / (1 + etaSq x)))) := by
    unfold z_effective
    simp only [hc, sqrt_real]
    rw [if_neg (by decide), if_pos trivial]
    show Except.ok (z_eff_Pierce_Blann p.Z (√(1.0 - 1.0 / ((1.0 + x / atomic_mass_unit) * (1.0 + x / atomic_mass_unit))))) = _
    rw [beta_etaSq x (by linarith), hZ]
  obtain ⟨b0, b1, b2, b3⟩ := beta_bands x h0 h1
  have k0 : (130.18 : ℝ) ≤ 0.95 * fine_structure_inverted := by norm_num [fine_structure_inverted, fine_structure]
  have k1 : (0.95 * fine_structure_inverted : ℝ) ≤ 130.19 := by norm_num [fine_structure_inverted, fine_structure]
  have kp : (0 : ℝ) ≤ 0.95 * fine_structure_inverted := le_trans (by norm_num) k0
  refine ⟨n * (1 - Real.exp (-(0.95 * fine_structure_inverted / (n : ℝ) ^ (2 / 3 : ℝ) * √(etaSq x / (1 + etaSq x))))),
    0.95 * fine_structure_inverted / (n : ℝ) ^ (2 / 3 : ℝ) * √(etaSq x / (1 + etaSq x)), by rw [val, pierce_blann_eq], rfl, ?_, ?_⟩
  · have : (n : ℝ) ^ (2 / 3 : ℝ) ≠ 0 := by positivity
    field_simp
  clear val
  generalize √(etaSq x / (1 + etaSq x)) = b at *
  generalize (0.95 * fine_structure_inverted : ℝ) = k at *
  have bp : 0 ≤ b := le_trans (by norm_num) b0
  -- lower bounds
  have low : ∀ (N W b' y E a : ℝ), 0 < N → N ≤ n → N ^ 2 ≤ W ^ 3 → 0 < W → 0 ≤ b' → b' ≤ b → y ≤ 130.18 / W * b' → E ≤ Real.exp y → 0 < E → 
      a ≤ N * (1 - 1 / E) → a ≤ n * (1 - Real.exp (-(k / (n : ℝ) ^ (2 / 3 : ℝ) * b))) := by
    intro N W b' y E a hN hNn hW W0 hb0 hb hy hE E0 ha
    refine ha.trans (le_trans ?_ (pierce_mono k N n b' b kp hN hNn hb0 hb))
    have w := two_thirds_le N W hN.le W0.le hW
    have w0 : 0 < N ^ (2 / 3 : ℝ) := by positivity
    have e1 : 130.18 / W * b' ≤ k / N ^ (2 / 3 : ℝ) * b' := by gcongr
    have e2 := hE.trans (Real.exp_le_exp.mpr (hy.trans e1))
    refine mul_le_mul_of_nonneg_left ?_ hN.le
    rw [Real.exp_neg, inv_eq_one_div]
    have := one_div_le_one_div_of_le E0 e2
    linarith
  have up : ∀ (b' y E a : ℝ), b ≤ b' → 130.19 / 20.379 * b' ≤ y → Real.exp y ≤ E → 92 * (1 - 1 / E) ≤ a → 
      n * (1 - Real.exp (-(k / (n : ℝ) ^ (2 / 3 : ℝ) * b))) ≤ a := by
    intro b' y E a hb hy hE ha
    refine (pierce_mono k n 92 b b' kp np n1 bp hb).trans (le_trans ?_ ha)
    have w := le_two_thirds 92 20.379 (by norm_num) (by norm_num)
    have e1 : k / (92 : ℝ) ^ (2 / 3 : ℝ) * b' ≤ 130.19 / 20.379 * b' := by
      have : 0 ≤ b' := bp.trans hb
      gcongr
    have e2 := (Real.exp_le_exp.mpr (e1.trans hy)).trans hE
    refine mul_le_mul_of_nonneg_left ?_ (by norm_num)
    rw [Real.exp_neg, inv_eq_one_div]
    have := one_div_le_one_div_of_le (Real.exp_pos _) e2
    linarith
  refine ⟨?_, ?_, fun h => ?_, ?_, fun h => ?_, fun h => ?_, fun h h' => ?_⟩
  · have w := two_thirds_le n 20.3799 np.le (by norm_num) (by norm_num; nlinarith)
    have w0 : 0 < (n : ℝ) ^ (2 / 3 : ℝ) := by positivity
    have e1 : 130.18 / 20.3799 * 0.14535 ≤ k / (n : ℝ) ^ (2 / 3 : ℝ) * b := by
      have : 130.18 / 20.3799 ≤ k / (n : ℝ) ^ (2 / 3 : ℝ) := by gcongr
      exact mul_le_mul this b0 (by norm_num) (by positivity)
    have e3 := exp_at 46 2.509 (by decide +kernel)
    have e2 : (2.509 : ℝ) ≤ Real.exp (k / (n : ℝ) ^ (2 / 3 : ℝ) * b) := by
      refine le_trans ?_ (e3.trans (Real.exp_le_exp.mpr (le_trans ?_ e1)))
      · norm_num
      · norm_num
    rw [mul_comm]
    refine mul_le_mul_of_nonneg_left ?_ np.le
    rw [Real.exp_neg, inv_eq_one_div]
    have := one_div_le_one_div_of_le (by norm_num) e2
    norm_num at this ⊢
    linarith
  · exact up 0.25748 _ _ _ b1 (by norm_num) (exp_at' 83 5.26 (by decide +kernel)) (by norm_num)
  · exact up 0.18301 _ _ _ (b2 h) (by norm_num) (exp_at' 59 3.255 (by decide +kernel)) (by norm_num)
  · exact low 28 9.221 0.14535 _ _ _ (by norm_num) n0 (by norm_num) (by norm_num) (by norm_num) b0 (by norm_num) (exp_at 102 7.69 (by decide +kernel)) (by norm_num) (by norm_num)
  · exact low 28 9.221 0.18299 _ _ _ (by norm_num) n0 (by norm_num) (by norm_num) (by norm_num) (b3 h) (by norm_num) (exp_at 129 13.19 (by decide +kernel)) (by norm_num) (by norm_num)
  · have : (61 : ℝ) ≤ n := by exact_mod_cast h
    exact low 61 15.497 0.14535 _ _ _ (by norm_num) this (by norm_num) (by norm_num) (by norm_num) b0 (by norm_num) (exp_at 61 3.386 (by decide +kernel)) (by norm_num) (by norm_num)
  · have : (61 : ℝ) ≤ n := by exact_mod_cast h
    exact low 61 15.497 0.18299 _ _ _ (by norm_num) this (by norm_num) (by norm_num) (by norm_num) (b3 h') (by norm_num) (exp_at 76 4.571 (by decide +kernel)) (by norm_num) (by norm_num)

set_option maxHeartbeats 1000000 in
/-- The charge of the low-energy model and the equilibrium charge for ions from nickel to uranium. -/
theorem heavy_zeta {pZ tZ : Int} {iz lam vf : ℝ} (h : ScreenIn pZ iz lam vf) (h28 : 28 ≤ pZ) (h92 : pZ ≤ 92) (hT : 1 ≤ tZ) (hT' : tZ ≤ 92)
    (x : ℝ) (h0 : 10 ≤ x) (h1 : x ≤ 32.5) (k X : ℝ) (k0 : 130.18 ≤ k) (k1 : k ≤ 130.19)
    (hX : X = k * √(etaSq x / (1 + etaSq x)) * (iz * iz)) (w6 : 0.6 ≤ 1 - Real.exp (-X)) :
    1 - Real.exp (-X) ≤ 1.08 * ionZeta pZ tZ iz lam vf x ∧ ionZeta pZ tZ iz lam vf x ^ 2 ≤ 1.066 * (1 - Real.exp (-X)) ^ 2 ∧
      0 < ionZeta pZ tZ iz lam vf x ∧ ¬ ionY iz vf x ≤ max 0.13 (iz * iz) := by
  have p28 : (28 : ℝ) ≤ pZ := by exact_mod_cast h28
  have p92 : (pZ : ℝ) ≤ 92 := by exact_mod_cast h92
  have t1 : (1 : ℝ) ≤ tZ := by exact_mod_cast hT
  have t2 : (tZ : ℝ) ≤ 92 := by exact_mod_cast hT'
  have i92 : 1 ≤ 92 * iz ^ 3 := by
    have := mul_le_mul_of_nonneg_right p92 (pow_pos h.iz0 3).le
    rw [h.cube] at this
    exact this
  have i28 : 28 * iz ^ 3 ≤ 1 := by
    have := mul_le_mul_of_nonneg_right p28 (pow_pos h.iz0 3).le
    rw [h.cube] at this
    exact this
  have iL : 0.22151 ≤ iz := by
    by_contra hc
    rw [not_le] at hc
    have := pow_lt_pow_left₀ hc h.iz0.le (n := 3) (by norm_num)
    norm_num at this
    linarith
  have iU : iz ≤ 0.32933 := by
    by_contra hc
    rw [not_le] at hc
    have := pow_lt_pow_left₀ hc (by norm_num) (n := 3) (by norm_num)
    norm_num at this
    linarith
  have q1 : 0.049066 ≤ iz * iz := le_trans (by norm_num) (mul_le_mul iL iL (by norm_num) h.iz0.le)
  have q2 : iz * iz ≤ 0.10846 := (mul_le_mul iU iU h.iz0.le (by norm_num)).trans (by norm_num)
  have v20 : 20 ≤ √(1000 * x / 25) := by
    rw [Real.le_sqrt' (by norm_num)]
    linarith
  have v36 : √(1000 * x / 25) ≤ 36.057 := by
    rw [Real.sqrt_le_left (by norm_num)]
    norm_num at h1 ⊢
    linarith
  obtain ⟨B1, B2⟩ := beta_velocity x h0 h1
  -- the relative velocity
  obtain ⟨u, hu⟩ : ∃ u, u = vf * relV (√(1000 * x / 25) / vf) := ⟨_, rfl⟩
  have u12 : √(1000 * x / 25) ≤ u ∧ u ≤ 1.00084 * √(1000 * x / 25) := by
    have f1 : 1 ≤ √(1000 * x / 25) / vf := by
      rw [le_div_iff₀ h.vf0]
      have := h.vf1
      norm_num at this
      linarith
    rw [hu, relV_fast _ f1]
    have e : vf * (√(1000 * x / 25) / vf + 0.2 / (√(1000 * x / 25) / vf)) = √(1000 * x / 25) + 0.2 * (vf * vf) / √(1000 * x / 25) := by
      have := h.vf0.ne'
      have : √(1000 * x / 25) ≠ 0 := by positivity
      field_simp
    rw [e]
    have v1 := h.vf1
    have v0 := h.vf0
    have vv : vf * vf ≤ 1.29 * 1.29 := mul_le_mul v1 v1 v0.le (by norm_num)
    have vv0 : 0 ≤ vf * vf := by positivity
    generalize √(1000 * x / 25) = V at *
    have Vp : 0 < V := by linarith
    have : 0.2 * (vf * vf) / V ≤ 0.00084 * V := by
      rw [div_le_iff₀ Vp]
      norm_num at vv ⊢
      nlinarith
    have : 0 ≤ 0.2 * (vf * vf) / V := by positivity
    constructor
    · linarith
    · norm_num at *
      linarith
  obtain ⟨u1, u2⟩ := u12
  have hy : ionY iz vf x = u * (iz * iz) := by
    unfold ionY
    rw [← hu]
    have a1 : 0.98 ≤ u * (iz * iz) := le_trans (by norm_num) (mul_le_mul (v20.trans u1) q1 (by norm_num) (by linarith))
    rw [max_eq_right (le_trans (by norm_num) a1), max_eq_left]
    exact (le_trans q2 (le_trans (by norm_num) a1))
  have n1 : ¬ ionY iz vf x ≤ max 0.13 (iz * iz) := by
    rw [ionY_low h.iz0, ← hu]
    have := ionVR_heavy h.iz0 i92
    norm_num at this
    intro hc
    linarith
  obtain ⟨y, hy'⟩ : ∃ y, y = ionY iz vf x := ⟨_, rfl⟩
  have eyu : y = u * (iz * iz) := hy'.trans hy
  have y0 : 0.98132 ≤ y := by rw [eyu]; exact le_trans (by norm_num) (mul_le_mul (v20.trans u1) q1 (by norm_num) (by linarith))
  have y1 : y ≤ 3.915 := by
    rw [eyu]
    have : u ≤ 36.088 := by norm_num at u2 v36 ⊢; linarith
    exact (mul_le_mul this q2 (by positivity) (by norm_num)).trans (by norm_num)
  have qp : 0 ≤ iz * iz := le_trans (by norm_num) q1
  have Xl : 0.9279 * y ≤ X := by
    rw [eyu, hX, ← mul_assoc]
    refine mul_le_mul_of_nonneg_right ?_ qp
    have bp : 0 ≤ √(etaSq x / (1 + etaSq x)) := Real.sqrt_nonneg _
    generalize √(etaSq x / (1 + etaSq x)) = b at *
    have := mul_le_mul_of_nonneg_right k0 bp
    norm_num at *
    linarith
  have Xu : X ≤ 0.947 * y := by
    rw [eyu, hX, ← mul_assoc 0.947]
    refine mul_le_mul_of_nonneg_right ?_ qp
    have bp : 0 ≤ √(etaSq x / (1 + etaSq x)) := Real.sqrt_nonneg _
    generalize √(etaSq x / (1 + etaSq x)) = b at *
    have := mul_le_mul_of_nonneg_right k1 bp
    norm_num at *
    linarith
  have y13 : 0.13 ≤ ionY iz vf x := by rw [← hy']; exact le_trans (by norm_num) y0
  obtain ⟨eq, s815⟩ := hiQ_eq _ y13
  obtain ⟨r10, -, -⟩ := tenth_root _ (lt_of_lt_of_le (by norm_num) y13)
  rw [← hy'] at eq s815 r10
  obtain ⟨s, hs⟩ : ∃ s, s = y ^ (0.1 : ℝ) := ⟨_, rfl⟩
  rw [← hs] at eq s815 r10
  have sp : 0 ≤ s := le_trans (by norm_num) s815
  have s0 : 0.998 ≤ s := by
    by_contra hc
    rw [not_le] at hc
    have := pow_lt_pow_left₀ hc sp (n := 10) (by norm_num)
    rw [r10] at this
    have := y0.trans_lt this
    norm_num at this
  have s1 : s ≤ 1.1465 := by
    by_contra hc
    rw [not_le] at hc
    have := pow_lt_pow_left₀ hc (by norm_num) (n := 10) (by norm_num)
    rw [r10] at this
    have := this.trans_le y1
    norm_num at this
  obtain ⟨L1, L2⟩ := level_charge s s0 s1
  rw [r10] at L1 L2
  have A4 : levelA s ≤ 4 := by
    refine (levelA_mono s 1.1465 s815 s1).trans ?_
    unfold levelA
    norm_num
  have A0 : 0.88 ≤ levelA s := by
    refine le_trans ?_ (levelA_mono 0.998 s (by norm_num) s0)
    unfold levelA
    norm_num
  rw [min_eq_left (A4.trans (by norm_num))] at eq
  have eA : Real.exp (-X) ≤ Real.exp (-levelA s) := Real.exp_le_exp.mpr (by linarith)
  obtain ⟨q, hq⟩ : ∃ q, q = hiQ (ionY iz vf x) := ⟨_, rfl⟩
  have eq' : q = 1 - Real.exp (-levelA s) := by rw [hq, ← hy', eq]
  have qw : q ≤ 1 - Real.exp (-X) := by rw [eq']; linarith
  have q58 : 0.58 ≤ q := by
    have e3 := exp_at 44 2.41 (by decide +kernel)
    have e4 : (2.41 : ℝ) ≤ Real.exp (levelA s) := by
      refine le_trans ?_ (e3.trans (Real.exp_le_exp.mpr (le_trans ?_ A0)))
      · norm_num
      · norm_num
    rw [eq', Real.exp_neg, inv_eq_one_div]
    have := one_div_le_one_div_of_le (by norm_num) e4
    norm_num at this ⊢
    linarith
  have w1 : 1 - Real.exp (-X) ≤ 1 := by linarith [Real.exp_pos (-X)]
  have qle : q ≤ 1 := qw.trans w1
  have wq : 1 - Real.exp (-X) ≤ 1.08 * q := by
    rcases le_total s 1.1175 with hh | hh
    · have e1 : Real.exp (-(1.08 * levelA s)) ≤ Real.exp (-X) := Real.exp_le_exp.mpr (by have := L2 hh; linarith)
      have e2 := exp_scale_up (levelA s) 1.08 (by norm_num)
      rw [eq']
      linarith
    · have a : 2.64 ≤ levelA s := by
        refine le_trans ?_ (levelA_mono 1.1175 s (by norm_num) hh)
        unfold levelA
        norm_num
      have e3 := exp_at 132 14 (by decide +kernel)
      have e4 : (14 : ℝ) ≤ Real.exp (levelA s) := by
        refine le_trans ?_ (e3.trans (Real.exp_le_exp.mpr (le_trans ?_ a)))
        · norm_num
        · norm_num
      refine w1.trans ?_
      rw [eq', Real.exp_neg, inv_eq_one_div]
      have := one_div_le_one_div_of_le (by norm_num) e4
      norm_num at this ⊢
      linarith
  -- the correction at high energies
  have G0 : 0 ≤ 1 / ((pZ : ℝ) * pZ) * (0.18 + 0.0015 * (tZ : ℝ)) * Real.exp (-(7.6 - max 0 (Real.log (1000 * x))) ^ 2) := by positivity
  have G1 : 1 / ((pZ : ℝ) * pZ) * (0.18 + 0.0015 * (tZ : ℝ)) * Real.exp (-(7.6 - max 0 (Real.log (1000 * x))) ^ 2) ≤ 0.0005 := by
    have a1 : 1 / ((pZ : ℝ) * pZ) ≤ 1 / 784 := one_div_le_one_div_of_le (by norm_num)
      (le_trans (by norm_num) (mul_le_mul p28 p28 (by norm_num) (by linarith)))
    have a2 : 0.18 + 0.0015 * (tZ : ℝ) ≤ 0.318 := by norm_num; linarith
    have a3 : Real.exp (-(7.6 - max 0 (Real.log (1000 * x))) ^ 2) ≤ 1 := Real.exp_le_one_iff.mpr (neg_nonpos.mpr (sq_nonneg _))
    calc _ ≤ 1 / 784 * 0.318 * 1 := mul_le_mul (mul_le_mul a1 a2 (by positivity) (by norm_num)) a3 (Real.exp_pos _).le (by norm_num)
      _ ≤ _ := by norm_num
  obtain ⟨c0, c1, c2⟩ := scrL_bounds h q (le_trans (by norm_num) q58) qle
  have M0 := scrM_nonneg vf (scrL pZ iz lam q)
  have M1 : scrM vf (scrL pZ iz lam q) ≤ 0.0437 := by
    have a1 := (hiL1_bounds pZ h.three iz q h.iz0 qle).2
    have b1 := (bL_bounds pZ iz h.iz0).2.1
    have sl : scrL pZ iz lam q ≤ 0.14165 := by
      unfold scrL
      refine max_le ?_ ?_
      · norm_num at a1 b1 iU ⊢
        linarith
      · have : min 1.2 (0.6 + (pZ : ℝ) / 30) = 1.2 := min_eq_left (by norm_num; linarith)
        rw [this]
        have neg : 0.8 - q * 1.2 ≤ 0.11 := by norm_num at q58 ⊢; linarith
        have pos : 0 ≤ iz * lam := mul_nonneg h.iz0.le (le_trans (by norm_num) h.lam0)
        have le : iz * lam ≤ 0.33 * 1.2 := mul_le_mul (iU.trans (by norm_num)) h.lam1 (le_trans (by norm_num) h.lam0) (by norm_num)
        rw [mul_assoc]
        refine (mul_le_mul_of_nonneg_right neg pos).trans ((mul_le_mul_of_nonneg_left le (by norm_num)).trans (by norm_num))
    refine (scrM_le vf _ c0 h.vf0).trans ?_
    have := pow_le_pow_left₀ c0 sl 2
    norm_num at this ⊢
    linarith
  have hz0 : q ≤ zeta0 pZ iz lam vf q := (zeta0_low h _ (le_trans (by norm_num) q58) qle).1
  have hz1 : zeta0 pZ iz lam vf q ≤ 1.02915 * (1 - Real.exp (-X)) := by
    unfold zeta0
    generalize scrM vf (scrL pZ iz lam q) = m at *
    generalize 1 - Real.exp (-X) = w at *
    have m1 : m ≤ 1 := M1.trans (by norm_num)
    have g1 : q + (1 - q) * m ≤ w + (1 - w) * m := by nlinarith
    refine g1.trans ?_
    have : (1 - w) * m ≤ (1 - w) * 0.0437 := mul_le_mul_of_nonneg_left M1 (by linarith)
    norm_num at *
    linarith
  unfold ionZeta
  rw [← hq]
  have qp' : 0 < q := lt_of_lt_of_le (by norm_num) q58
  have zp : 0 < zeta0 pZ iz lam vf q := qp'.trans_le hz0
  clear eq eA hy hy' hs h eyu Xl Xu hX L1 L2 A4 A0 u1 u2 B1 B2 hu v20 v36
  generalize 1 / ((pZ : ℝ) * pZ) * (0.18 + 0.0015 * (tZ : ℝ)) * Real.exp (-(7.6 - max 0 (Real.log (1000 * x))) ^ 2) = G at *
  generalize zeta0 pZ iz lam vf q = ζ at *
  generalize 1 - Real.exp (-X) = w at *
  have wp : 0 ≤ w := le_trans (by norm_num) w6
  have G3 : ζ ≤ ζ * (1 + G) := le_mul_of_one_le_right zp.le (by linarith)
  have up : ζ * (1 + G) ≤ 1.02967 * w := by
    have := mul_le_mul hz1 (add_le_add_right G1 1) (by linarith) (by positivity)
    refine this.trans ?_
    norm_num
    linarith
  refine ⟨?_, ?_, by positivity, n1⟩
  · refine wq.trans (mul_le_mul_of_nonneg_left (hz0.trans G3) (by norm_num))
  · have := pow_le_pow_left₀ (zp.le.trans G3) up 2
    refine this.trans ?_
    rw [mul_pow]
    have : 0 ≤ w ^ 2 := by positivity
    norm_num
    linarith

end Catima
