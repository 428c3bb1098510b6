import Verif.Lemmas.StoppingFall
import Verif.Props.ConfigTof
import Mathlib.Analysis.SpecialFunctions.Log.Monotone

/-!
# C132: between 30 and 300 MeV/u the stopping power falls with the energy
-/

namespace Catima

/-- Ions up to calcium in any configuration with the effective charge of Pierce and Blann (the default) or a given charge;
beyond calcium a given charge and no correction of Lindhard and Sørensen. -/
structure FallCase (p : Projectile ℝ) (n : Int) (c : Config ℝ) : Prop where
  charge : c.z_effective = 1 ∧ n ≤ 20 ∨ c.z_effective = 0 ∧ 0 < p.Q
  correction : n ≤ 20 ∧ p.A ≤ 3 * element_atomic_weight n ∨ c.corrections.testBit 1 = true

/-- The charge over a small step of the energy. -/
theorem fall_charge (debug : Bool) {p : Projectile ℝ} {n : Int} (hp : p.Ion n) (t : Target ℝ) (c : Config ℝ)
    (hc : c.z_effective = 1 ∧ n ≤ 20 ∨ c.z_effective = 0 ∧ 0 < p.Q) (x x' : ℝ) (h0 : 30 ≤ x) (h1 : x < x') (h2 : x' ≤ 1.03 * x)
    (h3 : x' ≤ 300) : ∃ z z', z_effective debug (p.withT x) t c = .ok z ∧ z_effective debug (p.withT x') t c = .ok z' ∧
      0 < z ∧ z ≤ z' ∧ z' * √(etaSq x) ≤ z * √(etaSq x') ∧ z' ^ 2 ≤ z ^ 2 * (1 + 0.13 * (etaSq x' / etaSq x - 1)) := by
  obtain ⟨k0, k1, k2, k3, k4⟩ := fall_kinematics x x' h0 h1 h2 h3
  have s0 : 0 < etaSq x := by norm_num at k0; linarith
  have s0' : 0 < etaSq x' := by linarith
  have q0 : 0 ≤ etaSq x' / etaSq x - 1 := by rw [sub_nonneg, one_le_div s0]; exact k1.le
  have q1 : etaSq x' / etaSq x - 1 ≤ 0.0625 := by
    rw [sub_le_iff_le_add, div_le_iff₀ s0]; norm_num at k2 ⊢; linarith
  rcases hc with ⟨hc, hn⟩ | ⟨hc, hQ⟩
  · have hZ : (1 : ℝ) ≤ p.Z := by rw [hp.Z]; exact_mod_cast hp.pos
    have hZ' : p.Z ≤ 20 := by rw [hp.Z]; exact_mod_cast hn
    have val : ∀ y, 0 < y → z_effective debug (p.withT y) t c = .ok (z_eff_Pierce_Blann p.Z (√(etaSq y / (1 + etaSq y)))) := by
      intro y hy
      unfold z_effective
      simp only [hc, sqrt_real]
      rw [if_neg (by decide), if_pos trivial]
      show Except.ok (z_eff_Pierce_Blann p.Z (√(1.0 - 1.0 / ((1.0 + y / atomic_mass_unit) * (1.0 + y / atomic_mass_unit))))) = _
      rw [beta_etaSq y hy]
    have hbb : etaSq x / (1 + etaSq x) ≤ etaSq x' / (1 + etaSq x') := by
      rw [div_le_div_iff₀ (by linarith) (by linarith)]; linarith
    have hb0 : 0.247 ≤ √(etaSq x / (1 + etaSq x)) := by
      apply Real.le_sqrt_of_sq_le
      rw [le_div_iff₀ (by linarith)]
      norm_num at k0 ⊢
      linarith
    have hb : 0 < √(etaSq x / (1 + etaSq x)) := by norm_num at hb0; linarith
    obtain ⟨a1, a2, a3⟩ := pierce_step p.Z _ _ (by linarith) hb (Real.sqrt_le_sqrt hbb)
    refine ⟨_, _, val x (by linarith), val x' (by linarith), a1, a2, ?_, ?_⟩
    · rw [Real.sqrt_div s0.le] at a1
      rw [Real.sqrt_div s0.le, Real.sqrt_div s0'.le] at a3 ⊢
      generalize z_eff_Pierce_Blann p.Z (√(etaSq x) / √(1 + etaSq x)) = z at *
      generalize z_eff_Pierce_Blann p.Z (√(etaSq x') / √(1 + etaSq x')) = z' at *
      have g1 : 0 < √(1 + etaSq x) := Real.sqrt_pos.mpr (by linarith)
      have g2 : √(1 + etaSq x) ≤ √(1 + etaSq x') := Real.sqrt_le_sqrt (by linarith)
      rw [← mul_div_assoc, ← mul_div_assoc, div_le_div_iff₀ g1 (by linarith)] at a3
      have h3 : 0 ≤ z * √(etaSq x') := mul_nonneg a1.le (Real.sqrt_nonneg _)
      have h4 : z' * √(etaSq x) * √(1 + etaSq x') ≤ z * √(etaSq x') * √(1 + etaSq x') :=
        a3.trans (mul_le_mul_of_nonneg_left g2 h3)
      exact le_of_mul_le_mul_right h4 (by linarith)
    · refine charge_rise _ _ _ _ hZ hZ' hb0 (Real.sqrt_le_sqrt hbb) ?_ q0 q1
      rw [Real.sq_sqrt (by positivity), Real.sq_sqrt (by positivity), add_sub_cancel]
      rw [show etaSq x / (1 + etaSq x) * (etaSq x' / etaSq x) = etaSq x' / (1 + etaSq x) by field_simp]
      gcongr
  · have val : ∀ y, z_effective debug (p.withT y) t c = .ok p.Q := by
      intro y
      unfold z_effective
      simp only [hc, Projectile.withT]
      rfl
    refine ⟨_, _, val x, val x', hQ, le_rfl, ?_, ?_⟩
    · have := Real.sqrt_le_sqrt k1.le
      gcongr
    · have : 0 < p.Q ^ 2 := by positivity
      norm_num at q0 ⊢
      nlinarith

/-- The correction of Lindhard and Sørensen over a small step of the energy. -/
theorem fall_correction (env : Env ℝ) {p : Projectile ℝ} {n : Int} (hp : p.Ion n) (c : Config ℝ)
    (hc : n ≤ 20 ∧ p.A ≤ 3 * element_atomic_weight n ∨ c.corrections.testBit 1 = true) (x x' : ℝ) (h0 : 30 ≤ x) (h1 : x + 1e-7 ≤ x')
    (h2 : x' ≤ 1.03 * x) (h3 : x' ≤ 300) : ∃ l l',
      (if c.corrections.testBit 1 = true then .ok 0 else precalculated_lindhard env.calcIndex (p.withT x)) = .ok l ∧
      (if c.corrections.testBit 1 = true then .ok 0 else precalculated_lindhard env.calcIndex (p.withT x')) = .ok l' ∧
      l' - l ≤ 0.32 * (x' / x - 1) ∧ -0.29 ≤ l ∧ -0.29 ≤ l' := by
  by_cases hb : c.corrections.testBit 1 = true
  · rw [if_pos hb, if_pos hb]
    refine ⟨0, 0, rfl, rfl, ?_, by norm_num, by norm_num⟩
    have : 0 ≤ x' / x - 1 := by
      rw [sub_nonneg, one_le_div (by linarith)]; norm_num at h1; linarith
    norm_num at this ⊢
    linarith
  · rw [if_neg hb, if_neg hb]
    rcases hc with ⟨hn, hA⟩ | hc
    · exact lindhard_slope env.calcIndex hp hn hA x x' h0 h1 h2 h3
    · exact absurd hc hb

theorem fall_bracket (L L' K K' l l' d d' q q' : ℝ) (h : 3.3 ≤ L') (hK : 0 ≤ K) (hKK : K' ≤ K) (hd : d ≤ d')
    (hL : L' - L ≤ 1.44 * q) (hl : l' - l ≤ q') (hq : q' = 0.32 * q) :
    L' * (1 + K') + l' - d' / 2 ≤ L * (1 + K) + l - d / 2 + (1.44 * (1 + K) + 0.32) * q := by
  have m1 : L' * (1 + K') ≤ L' * (1 + K) := by
    have : 0 ≤ L' := by norm_num at h; linarith
    gcongr
  have m2 : L' * (1 + K) ≤ (L + 1.44 * q) * (1 + K) := by
    have : L' ≤ L + 1.44 * q := by linarith
    gcongr
  rw [hq] at hl
  norm_num at hl m2 ⊢
  nlinarith

set_option maxHeartbeats 400000 in
/-- The electronic stopping of one component over a small step of the energy. -/
theorem bethe_falls (env : Env ℝ) {p : Projectile ℝ} {n : Int} (hp : p.Ion n) (t : Target ℝ) (tZ : 1 ≤ t.Z) (tZ' : t.Z ≤ 120)
    (tA : 0 < t.A) (c : Config ℝ) (hc : FallCase p n c) (I : ℝ) (hI : TypicalI I t.Z) (x x' : ℝ) (h0 : 30 ≤ x) (h1 : x + 1e-7 ≤ x')
    (h2 : x' ≤ 1.03 * x) (h3 : x' ≤ 300) : ∃ v v', bethek_dedx_e_target env (p.withT x) t c I = .ok v ∧
      bethek_dedx_e_target env (p.withT x') t c I = .ok v' ∧ v' < v := by
  have h1' : x < x' := by norm_num at h1; linarith
  obtain ⟨k0, k1, k2, k3, k4⟩ := fall_kinematics x x' h0 h1' h2 h3
  obtain ⟨f, hf1, hf2⟩ := density_low t.Z tZ
  obtain ⟨z, z', hz, hz', z0, zz, zs, zq⟩ := fall_charge env.debug hp t c hc.charge x x' h0 h1' h2 h3
  obtain ⟨l, l', el, el', ll, lb, lb'⟩ := fall_correction env hp c hc.correction x x' h0 h1 h2 h3
  have ionT : ∀ y, (p.withT y).Ion n := fun y => ⟨hp.Z, hp.pos, hp.int, hp.A⟩
  have e1 := bethe_value env (ionT x) t tZ tA c I (by show 10 ≤ x; linarith) z hz z0.le hI f hf1 l el
  have e2 := bethe_value env (ionT x') t tZ tA c I (by show 10 ≤ x'; linarith) z' hz' (by linarith) hI f hf1 l' el'
  refine ⟨_, _, e1, e2, ?_⟩
  have ex : (p.withT x).T = x := rfl
  have ex' : (p.withT x').T = x' := rfl
  have rad : ∀ y, y ≤ 300 → radiative (p.withT y) t c = 0 := by
    intro y hy
    unfold radiative
    rw [if_neg]
    rintro ⟨h, -⟩
    have : (p.withT y).T = y := rfl
    rw [this] at h
    linarith
  rw [rad x (by linarith), rad x' h3, add_zero, add_zero, ex, ex']
  obtain ⟨I0, I1, I2⟩ := usedI_bounds I t.Z tZ hI
  have htz : (1 : ℝ) ≤ (t.Z : ℝ) := by exact_mod_cast tZ
  have htz' : (t.Z : ℝ) ≤ 120 := by exact_mod_cast tZ'
  have sf : 0 ≤ shellFactor c (usedI I t.Z) t.Z ∧ shellFactor c (usedI I t.Z) t.Z ≤ 0.0115 := by
    unfold shellFactor
    split
    · norm_num
    · refine ⟨by positivity, ?_⟩
      rw [div_div, div_le_iff₀ (by positivity)]
      norm_num
      linarith
  have s0 : 0 < etaSq x := by norm_num at k0; linarith
  have s0' : 0 < etaSq x' := by linarith
  have hK : 0 ≤ barkasTerm c z (etaSq x) t.Z ∧ 0 ≤ barkasTerm c z' (etaSq x') t.Z ∧
      barkasTerm c z' (etaSq x') t.Z ≤ barkasTerm c z (etaSq x) t.Z := by
    unfold barkasTerm
    split
    · norm_num
    · obtain ⟨a1, a2, a3, -⟩ := barkas_step z z' (etaSq x) (etaSq x') t.Z s0 k1.le (by norm_num at k2 ⊢; linarith)
        (by rw [inv_le_comm₀ s0 (by norm_num)]; refine le_trans ?_ k0; norm_num) z0 zz zs htz htz'
      exact ⟨a1.le, a2.le, a3⟩
  have hlx : ∀ q, 0 < q → q ≤ 0.75 → Real.log (√q) / 2.3025851 < -0.06 := by
    intro q q0 q1
    rw [div_lt_iff₀ (by norm_num), Real.log_sqrt q0.le, div_lt_iff₀ (by norm_num)]
    have : Real.log q ≤ Real.log 0.75 := Real.log_le_log q0 q1
    have e : Real.log 0.75 = -Real.log (4 / 3) := by rw [← Real.log_inv]; norm_num
    have h43 : 0.28 ≤ Real.log (4 / 3) := by
      rw [Real.le_log_iff_exp_le (by norm_num)]
      have h5 := Real.exp_bound' (x := 0.28) (by norm_num) (by norm_num) (n := 4) (by norm_num)
      simp only [Finset.sum_range_succ, Finset.sum_range_zero, Nat.factorial] at h5
      norm_num at h5 ⊢
      linarith
    rw [e] at this
    norm_num at this h43 ⊢
    linarith
  have dx : Real.log (√(etaSq x)) / 2.3025851 ≤ Real.log (√(etaSq x')) / 2.3025851 := by
    have := Real.log_le_log (Real.sqrt_pos.mpr s0) (Real.sqrt_le_sqrt k1.le)
    gcongr
  obtain ⟨d1, d2, d3⟩ := hf2 _ _ dx (hlx _ s0' k3)
  obtain ⟨-, -, d4⟩ := hf2 _ _ le_rfl (hlx _ s0' k3)
  have lr := betheLog_rise _ (usedI I t.Z) (etaSq x) (etaSq x') sf.1 sf.2 I0 I1 s0 k1.le
    (by rw [inv_le_comm₀ s0 (by norm_num)]; refine le_trans ?_ k0; norm_num)
  obtain ⟨b1, b2, b3⟩ := betheLog_large _ (usedI I t.Z) (etaSq x) sf.1 sf.2 I0 I1 k0 (by norm_num at k3 ⊢; linarith)
  obtain ⟨b1', -, -⟩ := betheLog_large _ (usedI I t.Z) (etaSq x') sf.1 sf.2 I0 I1 (k0.trans k1.le) (by norm_num at k3 ⊢; linarith)
  generalize f (Real.log (√(etaSq x)) / 2.3025851) = d at *
  generalize f (Real.log (√(etaSq x')) / 2.3025851) = d' at *
  generalize betheLog (shellFactor c (usedI I t.Z) t.Z) (usedI I t.Z) (etaSq x) = L at *
  generalize betheLog (shellFactor c (usedI I t.Z) t.Z) (usedI I t.Z) (etaSq x') = L' at *
  generalize barkasTerm c z (etaSq x) t.Z = K at *
  generalize barkasTerm c z' (etaSq x') t.Z = K' at *
  obtain ⟨K0, K0', KK⟩ := hK
  have hdc : (0 : ℝ) < dedx_constant := by norm_num [dedx_constant]
  have key := fall_key (etaSq x) (etaSq x') L K l d s0 k1 k2 k3 K0 lb d3 b1 b2 b3
  have q1 : etaSq x' / etaSq x - 1 ≤ 0.062 := by
    rw [sub_le_iff_le_add, div_le_iff₀ s0]; norm_num at k2 ⊢; linarith
  have q0 : 0 ≤ etaSq x' / etaSq x - 1 := by rw [sub_nonneg, one_le_div s0]; exact k1.le
  have core := fall_core (etaSq x) (etaSq x') (dedx_constant * z ^ 2 * t.Z / t.A) (dedx_constant * z' ^ 2 * t.Z / t.A)
    (L * (1 + K) + l - d / 2) (L' * (1 + K') + l' - d' / 2) (1.44 * (1 + K) + 0.32) s0 k1 q1 (by positivity) ?_ ?_ ?_ ?_ key
  · have e3 : ∀ w s, 0 < s → dedx_constant * w ^ 2 * t.Z / (s / (1 + s) * t.A) = dedx_constant * w ^ 2 * t.Z / t.A * (1 + s) / s := by
      intro w s hs
      field_simp
    rw [e3 _ _ s0, e3 _ _ s0']
    exact core
  · have : dedx_constant * z' ^ 2 * t.Z / t.A ≤ dedx_constant * (z ^ 2 * (1 + 0.13 * (etaSq x' / etaSq x - 1))) * t.Z / t.A := by
      gcongr
    exact this.trans (le_of_eq (by ring))
  · exact fall_bracket L L' K K' l l' d d' _ _ b1' K0 KK d1 lr (ll.trans (mul_le_mul_of_nonneg_left k4 (by norm_num))) rfl
  · norm_num at b1' lb' d4 ⊢
    nlinarith
  · norm_num
    positivity

/-- The universal nuclear stopping falls above a reduced energy of 30. -/
theorem reducedNuclear_falls (e e' : ℝ) (h : 30 < e) (h' : e ≤ e') : reducedNuclear e' ≤ reducedNuclear e := by
  unfold reducedNuclear
  rw [if_neg (by linarith), if_neg (by linarith)]
  have h3 := Real.log_div_self_antitoneOn (show e ∈ Set.Ici (Real.exp 1) by
    have := Real.exp_one_lt_d9
    show Real.exp 1 ≤ e
    norm_num at this; linarith) (show e' ∈ Set.Ici (Real.exp 1) by
    have := Real.exp_one_lt_d9
    show Real.exp 1 ≤ e'
    norm_num at this; linarith) h'
  dsimp only at h3
  have e1 : ∀ y : ℝ, Real.log y / (2 * y) = Real.log y / y / 2 := fun y => by rw [div_div, mul_comm]
  rw [e1, e1]
  linarith

/-- The nuclear stopping of one component, for nuclei with at least as many nucleons as protons. -/
theorem nuclear_falls (debug : Bool) (p : Projectile ℝ) (t : Target ℝ) (hZ : 1 ≤ p.Z) (hZ' : p.Z ≤ 108) (hA : p.Z ≤ p.A)
    (tZ : 1 ≤ t.Z) (tZ' : t.Z ≤ 120) (tA : (t.Z : ℝ) ≤ t.A) (x x' : ℝ) (h0 : 30 ≤ x) (h : x ≤ x') :
    ∃ v v', dedx_n_target debug (p.withT x) t = .ok v ∧ dedx_n_target debug (p.withT x') t = .ok v' ∧ v' ≤ v := by
  have htz : (1 : ℝ) ≤ t.Z := by exact_mod_cast tZ
  have htz' : (t.Z : ℝ) ≤ 120 := by exact_mod_cast tZ'
  have A0 : 0 < p.A := by linarith
  have B0 : 0 < t.A := by linarith
  have hv := nuclear_target_value debug p t (by linarith) A0 tZ B0
  refine ⟨_, _, hv x (by linarith), hv x' (by linarith), ?_⟩
  have hN : (0 : ℝ) < Avogadro := by norm_num [Avogadro]
  have p1 : p.Z ^ (0.23 : ℝ) ≤ 3.5 := by
    calc p.Z ^ (0.23 : ℝ) ≤ p.Z ^ ((1 : ℝ) / 4) := Real.rpow_le_rpow_of_exponent_le hZ (by norm_num)
      _ ≤ ((3.5 : ℝ) ^ (4 : ℕ)) ^ ((1 : ℝ) / 4) := Real.rpow_le_rpow (by linarith) (by norm_num; linarith) (by norm_num)
      _ = 3.5 := by
        rw [← Real.rpow_natCast, ← Real.rpow_mul (by norm_num)]
        rw [show ((4 : ℕ) : ℝ) * ((1 : ℝ) / 4) = 1 by norm_num, Real.rpow_one]
  have p2 : (t.Z : ℝ) ^ (0.23 : ℝ) ≤ 3.5 := by
    calc (t.Z : ℝ) ^ (0.23 : ℝ) ≤ (t.Z : ℝ) ^ ((1 : ℝ) / 4) := Real.rpow_le_rpow_of_exponent_le htz (by norm_num)
      _ ≤ ((3.5 : ℝ) ^ (4 : ℕ)) ^ ((1 : ℝ) / 4) := Real.rpow_le_rpow (by linarith) (by norm_num; linarith) (by norm_num)
      _ = 3.5 := by
        rw [← Real.rpow_natCast, ← Real.rpow_mul (by norm_num)]
        rw [show ((4 : ℕ) : ℝ) * ((1 : ℝ) / 4) = 1 by norm_num, Real.rpow_one]
  have p3 : 0 < p.Z ^ (0.23 : ℝ) := Real.rpow_pos_of_pos (by linarith) _
  have p4 : 0 < (t.Z : ℝ) ^ (0.23 : ℝ) := Real.rpow_pos_of_pos (by linarith) _
  have hq0 : 0 < p.Z ^ (0.23 : ℝ) + (t.Z : ℝ) ^ (0.23 : ℝ) := by positivity
  have hq1 : p.Z ^ (0.23 : ℝ) + (t.Z : ℝ) ^ (0.23 : ℝ) ≤ 7 := by norm_num at p1 p2 ⊢; linarith
  generalize p.Z ^ (0.23 : ℝ) + (t.Z : ℝ) ^ (0.23 : ℝ) = w at *
  generalize (t.Z : ℝ) = b at *
  have hk : 2 ≤ 32.53 * t.A * 1000.0 * p.A / (p.Z * b * (p.A + t.A) * w) := by
    have hz0 : 0 < p.Z := by linarith
    have hb0 : 0 < b := by linarith
    rw [le_div_iff₀ (by positivity)]
    have m1 : p.Z * b * p.A ≤ 108 * (t.A * p.A) := by
      calc p.Z * b * p.A ≤ 108 * t.A * p.A := by gcongr
        _ = _ := by ring
    have m2 : p.Z * b * t.A ≤ 120 * (t.A * p.A) := by
      calc p.Z * b * t.A ≤ p.A * 120 * t.A := by gcongr
        _ = _ := by ring
    have m3 : p.Z * b * (p.A + t.A) ≤ 228 * (t.A * p.A) := by linarith
    have m4 : p.Z * b * (p.A + t.A) * w ≤ 228 * (t.A * p.A) * 7 := by gcongr
    norm_num
    nlinarith [mul_pos B0 A0]
  refine mul_le_mul_of_nonneg_left (reducedNuclear_falls _ _ ?_ ?_) ?_
  · norm_num at hk ⊢
    nlinarith
  · gcongr
  · have hz0 : 0 < p.Z := by linarith
    have hb0 : 0 < b := by linarith
    positivity

/-- A chain of small steps. -/
theorem fall_chain (G : ℝ → ℝ) (hG : ∀ x x', 30 ≤ x → x + 1e-7 ≤ x' → x' ≤ 1.03 * x → x' ≤ 300 → G x' < G x) (x x' : ℝ)
    (h0 : 30 ≤ x) (h1 : x + 1e-7 ≤ x') (h3 : x' ≤ 300) : G x' < G x := by
  have key : ∀ (k : Nat) (x x' : ℝ), 30 ≤ x → x + 1e-7 ≤ x' → x' ≤ 1.02 ^ k * x → x' ≤ 300 → G x' < G x := by
    intro k
    induction k with
    | zero =>
      intro x x' a b c d
      norm_num at b c
      linarith
    | succ k ih =>
      intro x x' a b c d
      rcases le_total x' (1.03 * x) with h | h
      · exact hG x x' a b h d
      · have e1 : x + 1e-7 ≤ 1.02 * x := by norm_num; linarith
        have e2 : 1.02 * x + 1e-7 ≤ x' := by norm_num at h ⊢; linarith
        have e3 : 1.02 * x ≤ 300 := by norm_num at h ⊢; linarith
        have e4 : 1.02 * x ≤ 1.03 * x := by norm_num; linarith
        refine (ih (1.02 * x) x' (by norm_num; linarith) e2 ?_ d).trans (hG x _ a e1 e4 e3)
        rw [pow_succ] at c
        linarith
  obtain ⟨k, hk⟩ := pow_unbounded_of_one_lt (x' : ℝ) (show (1 : ℝ) < 1.02 by norm_num)
  refine key k x x' h0 h1 ?_ h3
  have : 0 < (1.02 : ℝ) ^ k := by positivity
  nlinarith

theorem map_sum_lt {m : Material ℝ} (hm : m.Sound) (g g' : Target ℝ → ℝ) (h : ∀ t ∈ m.atoms, g' t < g t) :
    (m.atoms.map fun t => m.wfrac t * g' t).sum < (m.atoms.map fun t => m.wfrac t * g t).sum := by
  apply List.sum_lt_sum_of_ne_nil hm.nonempty
  intro t ht
  exact mul_lt_mul_of_pos_left (h t ht) (m.wfrac_pos hm t ht)

/-- **C132.** Between 30 and 300 MeV/u ions that are faster by at least 1e-7 MeV/u lose less energy per g/cm², in every material. -/
theorem stopping_falls (env : Env ℝ) {p : Projectile ℝ} {n : Int} (hp : p.Ion n) (hn : n ≤ 108) (hA : p.Z ≤ p.A) {m : Material ℝ}
    (hm : m.Sound) (known : ∀ t ∈ m.atoms, t.Z ≤ 120) (nucl : ∀ t ∈ m.atoms, (t.Z : ℝ) ≤ t.A)
    (hI : ∀ t ∈ m.atoms, TypicalI m.i_potential t.Z) (c : Config ℝ) (hc : FallCase p n c) (x x' : ℝ) (h0 : 30 ≤ x)
    (h1 : x + 1e-7 ≤ x') (h3 : x' ≤ 300) :
    ∃ v v', dedx env (p.withT x) m c = .ok v ∧ dedx env (p.withT x') m c = .ok v' ∧ v' < v := by
  have hZ : (1 : ℝ) ≤ p.Z := by rw [hp.Z]; exact_mod_cast hp.pos
  have hZ' : p.Z ≤ 108 := by rw [hp.Z]; exact_mod_cast hn
  have step : ∀ x x', 30 ≤ x → x + 1e-7 ≤ x' → x' ≤ 1.03 * x → x' ≤ 300 →
      ∃ v v', dedx env (p.withT x) m c = .ok v ∧ dedx env (p.withT x') m c = .ok v' ∧ v' < v := by
    intro x x' h0 h1 h2 h3
    have h1' : x ≤ x' := by norm_num at h1; linarith
    choose! g g' e e' he using fun t (ht : t ∈ m.atoms) => bethe_falls env hp t (hm.Z t ht) (known t ht) (hm.A t ht) c hc
      m.i_potential (hI t ht) x x' h0 h1 h2 h3
    choose! k k' f f' hf using fun t (ht : t ∈ m.atoms) => nuclear_falls env.debug p t hZ hZ' hA (hm.Z t ht) (known t ht)
      (nucl t ht) x x' h0 h1'
    rw [dedx_high env _ m c (show 30 ≤ x from h0), dedx_high env _ m c (show 30 ≤ x' by linarith)]
    unfold dedx_n bethek_dedx_e
    rw [componentSum_ok m _ k f, componentSum_ok m _ k' f', componentSum_ok m _ g e, componentSum_ok m _ g' e']
    refine ⟨_, _, rfl, rfl, ?_⟩
    have a1 := map_sum_lt hm (fun t => g t) (fun t => g' t) he
    have a2 : (m.atoms.map fun t => m.wfrac t * k' t).sum ≤ (m.atoms.map fun t => m.wfrac t * k t).sum :=
      List.sum_le_sum fun t ht => mul_le_mul_of_nonneg_left (hf t ht) (m.wfrac_pos hm t ht).le
    linarith
  have val : ∀ y, 30 ≤ y → y ≤ 300 → ∃ v, dedx env (p.withT y) m c = .ok v := by
    intro y a b
    rcases lt_or_ge y 299 with h | h
    · obtain ⟨v, -, hv, -⟩ := step y (y + 0.1) a (by norm_num) (by norm_num; linarith) (by norm_num; linarith)
      exact ⟨v, hv⟩
    · obtain ⟨-, v, -, hv, -⟩ := step 298 y (by norm_num) (by norm_num; linarith) (by norm_num; linarith) b
      exact ⟨v, hv⟩
  choose! G hG using val
  have hx' : x ≤ x' := by norm_num at h1; linarith
  refine ⟨_, _, hG x h0 (by linarith), hG x' (by linarith) h3, ?_⟩
  refine fall_chain G (fun y y' a b d e => ?_) x x' h0 h1 h3
  obtain ⟨v, v', hv, hv', hlt⟩ := step y y' a b d e
  have yy : y ≤ y' := by norm_num at b; linarith
  have e1 := Except.ok.inj ((hG y a (by linarith)).symm.trans hv)
  have e2 := Except.ok.inj ((hG y' (by linarith) e).symm.trans hv')
  rw [e1, e2]
  exact hlt

/-- Protons in water in the default configuration lose less at 200 MeV than at 100 MeV. -/
example (env : Env ℝ) : ∃ v v', dedx env ⟨1.007, 1, 1, 100⟩ (⟨1, 1, 18.015, 0, [⟨1.00794, 1, 2⟩, ⟨15.9994, 8, 1⟩]⟩ : Material ℝ) .default = .ok v ∧
    dedx env ⟨1.007, 1, 1, 200⟩ (⟨1, 1, 18.015, 0, [⟨1.00794, 1, 2⟩, ⟨15.9994, 8, 1⟩]⟩ : Material ℝ) .default = .ok v' ∧ v' < v := by
  obtain ⟨hc, hu⟩ := carbon_water_usual 0 100
  refine stopping_falls env (p := ⟨1.007, 1, 1, 0⟩) (n := 1) ⟨by norm_num, by norm_num, by norm_num, by norm_num⟩ (by norm_num) (by norm_num) hc.sound hc.known ?_
    hu.excitation .default ⟨Or.inl ⟨rfl, by norm_num⟩, Or.inl ⟨by norm_num, ?_⟩⟩ 100 200 (by norm_num) (by norm_num) (by norm_num)
  · intro t ht
    simp at ht
    rcases ht with rfl | rfl <;> norm_num
  · have : (element_atomic_weight 1 : ℝ) = (Dec.toScalar ⟨100794, 5⟩ : ℝ) := rfl
    rw [this, Dec.toScalar_real]; norm_num

end Catima
