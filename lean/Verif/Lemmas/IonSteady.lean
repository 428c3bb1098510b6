import Verif.Lemmas.IonRatio
import Verif.Lemmas.IonZeta
import Verif.Lemmas.IonCore
import Verif.Lemmas.HeliumSteady

/-!
# Helper lemmas: the two models of the stopping power for ions from lithium to cobalt between 10 and 32.5 MeV/u
-/

namespace Catima

/-- Lower bounds of the Bethe logarithm in terms of the atomic number of the target. -/
theorem betheLog_target (c I x Z : ℝ) (hc' : c ≤ 0.0115) (hI : 10 ≤ I) (hI' : I ≤ 1170) (hZ : 1 ≤ Z) (hIZ : I ^ 2 ≤ 11500 * Z)
    (h0 : 10 ≤ x) (h1 : x ≤ 32.5) :
    (x ≤ 16 → 4.7375 - Real.log Z / 2 ≤ betheLog c I (etaSq x)) ∧ (16 ≤ x → 5.164 - Real.log Z / 2 ≤ betheLog c I (etaSq x)) := by
  obtain ⟨s0, y1, s1, -⟩ := etaSq_mid x h0 h1
  obtain ⟨-, -, -, -, -, -, -, -, k5, k6⟩ := kinematics x 1.039 h0 (by norm_num) (by norm_num)
  have k5 : 16 ≤ x → (etaSq x)⁻¹ ≤ 28.95 := k5
  have k6' : x ≤ 16 → etaSq x ≤ 0.0365 := by
    intro h
    refine le_trans ?_ (k6 h)
    unfold etaSq
    have : x / 931.4940954 ≤ 1.039 * x / 931.4940954 := by
      gcongr
      linarith
    have : 0 ≤ x / 931.4940954 := by positivity
    gcongr
  have I0 : 0 < I := by linarith
  have y0 : 0 < (etaSq x)⁻¹ := by positivity
  have t1 : I / 1000 ≤ 1.17 := by norm_num; linarith
  have p0 := shellPoly_nonneg (I / 1000) _ (by positivity) t1 y0.le y1
  have p1 := shellPoly_le (I / 1000) _ (by positivity) t1 y0.le y1
  have a3 : c * shellPoly (I / 1000) (etaSq x)⁻¹ ≤ 0.0115 * 47.3 := mul_le_mul hc' p1 p0 (by norm_num)
  have a1 : 9.16 - Real.log Z / 2 ≤ Real.log (1021997.856 / I) := by
    have l1 : Real.log (1021997.856 / I) = Real.log 1021997.856 - Real.log I := Real.log_div (by norm_num) I0.ne'
    have l2 : 2 * Real.log I ≤ Real.log 11500 + Real.log Z := by
      rw [← Real.log_mul (by norm_num) (by linarith)]
      have : 2 * Real.log I = Real.log (I ^ 2) := by rw [Real.log_pow]; norm_num
      rw [this]
      exact Real.log_le_log (by positivity) hIZ
    have l3 : 18.32 + Real.log 11500 ≤ 2 * Real.log 1021997.856 := by
      have e2 : 2 * Real.log 1021997.856 = Real.log (1021997.856 ^ 2 / 11500) + Real.log 11500 := by
        rw [← Real.log_mul (by norm_num) (by norm_num), div_mul_cancel₀ _ (by norm_num), Real.log_pow]; norm_num
      have e3 : 18.32 ≤ Real.log (1021997.856 ^ 2 / 11500) := by
        rw [Real.le_log_iff_exp_le (by norm_num)]
        have h := (exp_50 916).2
        have h2 : expHigh 916 ≤ 90820000 := by decide +kernel
        have h3 := (Rat.cast_le (K := ℝ)).mpr h2
        push_cast at h3
        have e : (((916 : Int) : ℝ)) / 50 = 18.32 := by norm_num
        rw [e] at h
        refine h.trans (h3.trans ?_)
        norm_num
      linarith
    rw [l1]
    norm_num at l3 ⊢
    linarith
  have hq : etaSq x / (1 + etaSq x) ≤ etaSq x := by
    rw [div_le_iff₀ (by positivity)]; nlinarith
  unfold betheLog
  constructor
  · intro h
    have a2 : -3.842 ≤ Real.log (etaSq x) := by
      have : Real.log (etaSq x)⁻¹ ≤ 3.842 := by
        rw [Real.log_le_iff_le_exp y0]
        refine y1.trans ?_
        have e1 := (exp_50 192).1
        have h2 : 46.525 ≤ expLow 192 := by decide +kernel
        have h3 := (Rat.cast_le (K := ℝ)).mpr h2
        have e : (((192 : Int) : ℝ)) / 50 = 3.84 := by norm_num
        rw [e] at e1
        have h4 := Real.add_one_le_exp (0.002 : ℝ)
        rw [show (3.842 : ℝ) = 3.84 + 0.002 by norm_num, Real.exp_add]
        have e5 : (46.525 : ℝ) ≤ Real.exp 3.84 := by
          refine le_trans ?_ e1
          refine le_trans (le_of_eq ?_) h3
          norm_num
        calc (46.6 : ℝ) ≤ 46.525 * (0.002 + 1) := by norm_num
          _ ≤ _ := mul_le_mul e5 h4 (by norm_num) (Real.exp_pos _).le
      rw [Real.log_inv] at this
      linarith
    have := k6' h
    norm_num at *
    linarith
  · intro h
    have a2 : -3.38 ≤ Real.log (etaSq x) := by
      have : Real.log (etaSq x)⁻¹ ≤ 3.38 := by
        rw [Real.log_le_iff_le_exp y0]
        refine (k5 h).trans ?_
        have e1 := (exp_50 169).1
        have h2 : 28.95 ≤ expLow 169 := by decide +kernel
        have h3 := (Rat.cast_le (K := ℝ)).mpr h2
        have e : (((169 : Int) : ℝ)) / 50 = 3.38 := by norm_num
        rw [e] at e1
        refine le_trans ?_ e1
        refine le_trans (le_of_eq ?_) h3
        norm_num
      rw [Real.log_inv] at this
      linarith
    norm_num at *
    linarith

/-- Upper bound of the Bethe logarithm for a mean excitation energy of 120 eV or more. -/
theorem betheLog_above (c I x : ℝ) (hc : 0 ≤ c) (hI : 120 ≤ I) (hI' : I ≤ 1170) (h0 : 10 ≤ x) (h1 : x ≤ 32.5) :
    betheLog c I (etaSq x) ≤ 6.46 := by
  obtain ⟨s0, y1, s1, -⟩ := etaSq_mid x h0 h1
  have I0 : 0 < I := by linarith
  have y0 : 0 < (etaSq x)⁻¹ := by positivity
  have t1 : I / 1000 ≤ 1.17 := by norm_num; linarith
  have p0 := shellPoly_nonneg (I / 1000) _ (by positivity) t1 y0.le y1
  have a3 := mul_nonneg hc p0
  have hb0 : 0 ≤ etaSq x / (1 + etaSq x) := by positivity
  have a1 : Real.log (1021997.856 / I) ≤ 9.06 := by
    rw [Real.log_le_iff_le_exp (by positivity)]
    have e1 := (exp_50 453).1
    have h2 : 8590 ≤ expLow 453 := by decide +kernel
    have h3 := (Rat.cast_le (K := ℝ)).mpr h2
    have e : (((453 : Int) : ℝ)) / 50 = 9.06 := by norm_num
    rw [e] at e1
    push_cast at h3
    refine le_trans ?_ (h3.trans e1)
    calc 1021997.856 / I ≤ 1021997.856 / 120 := by gcongr
      _ ≤ _ := by norm_num
  have a2 : Real.log (etaSq x) ≤ -2.6 := by
    rw [Real.log_le_iff_le_exp s0]
    have q := Real.quadratic_le_exp_of_nonneg (show (0 : ℝ) ≤ 0.4 by norm_num)
    have q2 : Real.exp (-2.6) = Real.exp 0.4 / Real.exp 1 ^ 3 := by
      rw [← Real.exp_nat_mul, ← Real.exp_sub]; norm_num
    have e2 := Real.exp_one_lt_d9
    have q3 : Real.exp 1 ^ 3 ≤ 20.1 := le_trans (pow_le_pow_left₀ (by positivity) e2.le 3) (by norm_num)
    rw [q2, le_div_iff₀ (by positivity)]
    calc etaSq x * Real.exp 1 ^ 3 ≤ 0.0711 * 20.1 := mul_le_mul s1 q3 (by positivity) (by norm_num)
      _ ≤ 1 + 0.4 + 0.4 ^ 2 / 2 := by norm_num
      _ ≤ _ := q
  unfold betheLog
  norm_num at a1 a2 ⊢
  linarith

/-- The equilibrium charge of the ions from lithium to cobalt. -/
theorem ion_charge (debug : Bool) (p : Projectile ℝ) {n : Int} (hZ : p.Z = (n : ℝ)) (h3 : 3 ≤ n) (h27 : n ≤ 27) (t : Target ℝ) (c : Config ℝ)
    (hc : c.z_effective = 1) (x : ℝ) (hx : 10 ≤ x) : ∃ z, z_effective debug (p.withT x) t c = .ok z ∧ 0.877 * (n : ℝ) ≤ z ∧
      (n ≤ 22 → 0.909 * (n : ℝ) ≤ z) ∧ (16 ≤ x → 0.928 * (n : ℝ) ≤ z) ∧ z ≤ n := by
  obtain ⟨s0, -, -, -, -, -, -, k4, k5, -⟩ := kinematics x 1.039 hx (by norm_num) (by norm_num)
  have s0 : 0 < etaSq x := s0
  have k4 : (etaSq x)⁻¹ ≤ 46.6 := k4
  have k5 : 16 ≤ x → (etaSq x)⁻¹ ≤ 28.95 := k5
  have low : ∀ {w : ℝ}, 0 < w → (etaSq x)⁻¹ ≤ w → 1 / (1 + w) ≤ etaSq x / (1 + etaSq x) := by
    intro w w0 hw
    have : 1 ≤ w * etaSq x := by rwa [inv_eq_one_div, div_le_iff₀ s0] at hw
    rw [div_le_div_iff₀ (by positivity) (by positivity)]
    nlinarith
  have n0 : (3 : ℝ) ≤ n := by exact_mod_cast h3
  have val : z_effective debug (p.withT x) t c = .ok (z_eff_Pierce_Blann n (√(etaSq x / (1 + etaSq x)))) := by
    unfold z_effective
    simp only [hc, sqrt_real]
    rw [if_neg (by decide), if_pos trivial]
    show Except.ok (z_eff_Pierce_Blann p.Z (√(1.0 - 1.0 / ((1.0 + x / atomic_mass_unit) * (1.0 + x / atomic_mass_unit))))) = _
    rw [beta_etaSq x (by linarith), hZ]
  have b0 : 0.1449 ≤ √(etaSq x / (1 + etaSq x)) := by
    apply Real.le_sqrt_of_sq_le
    refine le_trans ?_ (low (by norm_num) k4)
    norm_num
  have b1 : 16 ≤ x → 0.1827 ≤ √(etaSq x / (1 + etaSq x)) := fun h => by
    apply Real.le_sqrt_of_sq_le
    refine le_trans ?_ (low (by norm_num) (k5 h))
    norm_num
  refine ⟨_, val, ?_⟩
  have up := (pierce_blann_bounds n (√(etaSq x / (1 + etaSq x))) (by linarith) (Real.sqrt_nonneg _)).2.le
  rw [pierce_blann_eq] at up ⊢
  have k0 : (130.18 : ℝ) ≤ 0.95 * fine_structure_inverted := by norm_num [fine_structure_inverted, fine_structure]
  have hr : ∀ w : ℝ, 0 ≤ w → (n : ℝ) ^ 2 ≤ w ^ 3 → (n : ℝ) ^ (2 / 3 : ℝ) ≤ w := by
    intro w w0 hw
    have e : ((n : ℝ) ^ (2 / 3 : ℝ)) ^ 3 = (n : ℝ) ^ 2 := by
      rw [← Real.rpow_natCast, ← Real.rpow_mul (by linarith)]; norm_num
    rw [← e] at hw
    exact le_of_pow_le_pow_left₀ (by norm_num) w0 hw
  have w27 : (n : ℝ) ^ (2 / 3 : ℝ) ≤ 9 := hr 9 (by norm_num) (by
    have : (n : ℝ) ≤ 27 := by exact_mod_cast h27
    nlinarith)
  have w22 : n ≤ 22 → (n : ℝ) ^ (2 / 3 : ℝ) ≤ 7.852 := fun h => hr 7.852 (by norm_num) (by
    have : (n : ℝ) ≤ 22 := by exact_mod_cast h
    norm_num; nlinarith)
  have hr0 : 0 < (n : ℝ) ^ (2 / 3 : ℝ) := by positivity
  generalize (n : ℝ) ^ (2 / 3 : ℝ) = w at *
  generalize 0.95 * (fine_structure_inverted : ℝ) = k at *
  generalize √(etaSq x / (1 + etaSq x)) = b at *
  have bp : 0 ≤ b := le_trans (by norm_num) b0
  have main : ∀ {w' b' E a : ℝ}, w ≤ w' → b' ≤ b → 0 < b' → E ≤ Real.exp (130.18 / w' * b') → 0 < E → 1 / E ≤ 1 - a → a * n ≤ n * (1 - Real.exp (-(k / w * b))) := by
    intro w' b' E a hw hb hb0 hE E0 ha
    have w'0 : 0 < w' := lt_of_lt_of_le hr0 hw
    have e1 : 130.18 / w' * b' ≤ k / w * b := by
      have : 130.18 / w' ≤ k / w := by
        have kp : 0 ≤ k := le_trans (by norm_num) k0
        gcongr
      exact mul_le_mul this hb hb0.le (le_trans (by positivity) this)
    have e2 := hE.trans (Real.exp_le_exp.mpr e1)
    have e3 : Real.exp (-(k / w * b)) ≤ 1 - a := by
      rw [Real.exp_neg]
      refine le_trans ?_ ha
      rw [inv_eq_one_div]
      exact one_div_le_one_div_of_le E0 e2
    rw [mul_comm a]
    refine mul_le_mul_of_nonneg_left (by linarith) (by linarith)
  have x104 : (8.1304 : ℝ) ≤ Real.exp 2.0958 := by
    have e1 := (exp_50 104).1
    have h2 : 8.004 ≤ expLow 104 := by decide +kernel
    have h3 := (Rat.cast_le (K := ℝ)).mpr h2
    have e : (((104 : Int) : ℝ)) / 50 = 2.08 := by norm_num
    rw [e] at e1
    have h4 := Real.add_one_le_exp (0.0158 : ℝ)
    rw [show (2.0958 : ℝ) = 2.08 + 0.0158 by norm_num, Real.exp_add]
    have e5 : (8.004 : ℝ) ≤ Real.exp 2.08 := by
      refine le_trans (le_of_eq ?_) (h3.trans e1)
      norm_num
    calc (8.1304 : ℝ) ≤ 8.004 * (0.0158 + 1) := by norm_num
      _ ≤ _ := mul_le_mul e5 h4 (by norm_num) (Real.exp_pos _).le
  have x120 : (11.02 : ℝ) ≤ Real.exp 2.4 := by
    have e1 := (exp_50 120).1
    have h2 : 11.02 ≤ expLow 120 := by decide +kernel
    have h3 := (Rat.cast_le (K := ℝ)).mpr h2
    have e : (((120 : Int) : ℝ)) / 50 = 2.4 := by norm_num
    rw [e] at e1
    refine le_trans (le_of_eq ?_) (h3.trans e1)
    norm_num
  have x132 : (14.01 : ℝ) ≤ Real.exp 2.64 := by
    have e1 := (exp_50 132).1
    have h2 : 14.01 ≤ expLow 132 := by decide +kernel
    have h3 := (Rat.cast_le (K := ℝ)).mpr h2
    have e : (((132 : Int) : ℝ)) / 50 = 2.64 := by norm_num
    rw [e] at e1
    refine le_trans (le_of_eq ?_) (h3.trans e1)
    norm_num
  refine ⟨main w27 b0 (by norm_num) (x104.trans (Real.exp_le_exp.mpr (by norm_num))) (by norm_num) (by norm_num), fun h => ?_, fun h => ?_, up⟩
  · exact main (w22 h) b0 (by norm_num) (x120.trans (Real.exp_le_exp.mpr (by norm_num))) (by norm_num) (by norm_num)
  · exact main w27 (b1 h) (by norm_num) (x132.trans (Real.exp_le_exp.mpr (by norm_num))) (by norm_num) (by norm_num)

theorem ipot_zinc (z : Int) (h1 : 30 ≤ z) (h2 : z ≤ 92) : 120 ≤ (ipot z : ℝ) := by
  have h : (List.range 63).all (fun k => match ionisation_potentials_z[k + 30]? with
      | some d => decide (120 ≤ d.rat)
      | none => false) = true := by decide +kernel
  obtain ⟨k, hk⟩ := Int.eq_ofNat_of_zero_le (show 0 ≤ z - 30 by omega)
  have hz : z.toNat = k + 30 := by omega
  rw [List.all_eq_true] at h
  have hh := h k (List.mem_range.mpr (by omega))
  unfold ipot
  rw [if_neg (by omega), hz]
  have hl : k + 30 < ionisation_potentials_z.length := by rw [ipot_len.1]; omega
  rw [List.getElem?_eq_getElem hl] at hh ⊢
  have hh := of_decide_eq_true hh
  have := (Rat.cast_le (K := ℝ)).mpr hh
  rw [Dec.rat_cast] at this
  show (120 : ℝ) ≤ (ionisation_potentials_z[k + 30]).toScalar
  exact_mod_cast this

set_option maxHeartbeats 1000000 in
/-- The two models for ions from lithium to cobalt between 10 and 32.5 MeV/u. -/
theorem ion_ratio (env : Env ℝ) {p : Projectile ℝ} {n : Int} (hp : p.Ion n) (h3 : 3 ≤ n) (h27 : n ≤ 27)
    (hA : p.A ≤ 3 * element_atomic_weight n) (t : Target ℝ) (tZ : 1 ≤ t.Z) (tZ' : t.Z ≤ 92) (t85 : t.Z ≠ 85) (t87 : t.Z ≠ 87) (t91 : t.Z ≠ 91)
    (tA : 0 < t.A) (c : Config ℝ) (hc : c.z_effective = 1) (I : ℝ) (hI : TypicalI I t.Z) (hI' : 0 < I → 10 ≤ I) (hI'' : 0 < I → 30 ≤ t.Z → 120 ≤ I)
    (x : ℝ) (h0 : 10 ≤ x) (h1 : x ≤ 32.5) (hT : LindhardReadable x) (b : Bool) (s v : ℝ)
    (hs : srim_dedx_e n t.Z x b = .ok s)
    (hv : bethek_dedx_e_target env (p.withT x) t c I = .ok v) :
    v ≤ 5 * (602.2140857 * s / t.A) ∧ 602.2140857 * s / t.A ≤ 3.3 * v := by
  have ionT : (p.withT x).Ion n := ⟨hp.Z, hp.pos, hp.int, hp.A⟩
  have n3 : (3 : ℝ) ≤ n := by exact_mod_cast h3
  have n27 : (n : ℝ) ≤ 27 := by exact_mod_cast h27
  obtain ⟨z, hz, z0, z22, z16, z1⟩ := ion_charge env.debug p hp.Z h3 h27 t c hc x h0
  have zp : 0 < z := lt_of_lt_of_le (by positivity) z0
  obtain ⟨s0, y1, s1, -⟩ := etaSq_mid x h0 h1
  obtain ⟨l, el, hl0, hl16, hl1⟩ : ∃ l, (if c.corrections.testBit 1 = true then .ok 0 else precalculated_lindhard env.calcIndex (p.withT x)) = .ok l ∧
      -0.8935 ≤ l ∧ (16 ≤ x → -0.667 ≤ l) ∧ l ≤ 0.004 := by
    split
    · exact ⟨0, rfl, by norm_num, fun _ => by norm_num, by norm_num⟩
    · exact lindhard_ion env.calcIndex ionT h3 h27 hA h0 h1 hT
  obtain ⟨I10, I1, I2, sf0, sf1, D, D0, D1, e1⟩ := bethe_bracket env hp t tZ (by omega) t85 t87 tA c I hI hI' x h0 h1 z hz zp l el v hv
  have htz : (1 : ℝ) ≤ (t.Z : ℝ) := by exact_mod_cast tZ
  have htz' : (t.Z : ℝ) ≤ 120 := by exact_mod_cast (by omega : t.Z ≤ 120)
  obtain ⟨F0, F1, -⟩ := betheLog_mid _ (usedI I t.Z) x sf0 sf1 I10 I1 h0 h1
  obtain ⟨F2, F3⟩ := betheLog_target _ (usedI I t.Z) x t.Z sf1 I10 I1 htz I2 h0 h1
  have F4 : 30 ≤ t.Z → betheLog (shellFactor c (usedI I t.Z) t.Z) (usedI I t.Z) (etaSq x) ≤ 6.46 := fun h30 =>
    betheLog_above _ _ x sf0 (by
      unfold usedI
      split
      · exact hI'' ‹_› h30
      · exact ipot_zinc _ h30 tZ') I1 h0 h1
  have hK : 0 ≤ barkasTerm c z (etaSq x) t.Z ∧ barkasTerm c z (etaSq x) t.Z ≤ 0.486 := by
    unfold barkasTerm
    split
    · norm_num
    · obtain ⟨a, b⟩ := barkas_le z (etaSq x) t.Z y1 s0 zp.le htz htz'
      exact ⟨a, b.trans (by norm_num at *; linarith)⟩
  obtain ⟨lam, vf, hlam, hvf, hS, -⟩ := ion_tables n t.Z h3 (by omega) tZ t91
  obtain ⟨sp, es, p16, p32, p29, p30⟩ := ion_proton b t.Z tZ tZ' x h0 h1
  obtain ⟨ζ0, ζ1, ζ2, ny⟩ := ionZeta_value hS h27 tZ tZ' x h0
  have es' : srim_dedx_e n t.Z x b = .ok (sp * (ionZeta n t.Z (1 / (n : ℝ) ^ (1 / 3 : ℝ)) lam vf x * n) ^ 2) := by
    unfold srim_dedx_e
    rw [if_neg (by omega), if_neg (by omega), srimHeavy_eq _ n t.Z x lam vf (by linarith) hlam hvf hS.vf0 _ rfl, if_neg ny, es]
    rfl
  rw [hs] at es'
  injection es' with es'
  rw [es']
  have q0 : 0 < etaSq x / (1 + etaSq x) := by positivity
  clear hs hv es el hT hI hI' hI'' sf0 sf1 I10 I1 I2 hlam hvf hS ny es'
  generalize betheLog _ _ _ = F at *
  generalize barkasTerm _ _ _ _ = K at *
  generalize ionZeta _ _ _ _ _ _ = ζ at *
  obtain ⟨B0, B1⟩ := bracket_bounds F K l D F0 hK.1 hK.2 D0 D1 hl1
  generalize F * (1 + K) + l - D / 2 = Br at *
  have ζp : 0 ≤ ζ := le_trans (by norm_num) ζ0
  have np : (0 : ℝ) < n := by linarith
  have hB : (Br ≤ 13.61 ∧ 3.66 * (t.Z : ℝ) ≤ 1961.13 * sp * (etaSq x / (1 + etaSq x))) ∨
      (Br ≤ 9.834 ∧ 2.65 * (t.Z : ℝ) ≤ 1961.13 * sp * (etaSq x / (1 + etaSq x))) := by
    rcases le_or_gt t.Z 29 with h | h
    · refine Or.inl ⟨B1.trans ?_, p29 h⟩
      have := F1
      norm_num
      linarith
    · refine Or.inr ⟨B1.trans ?_, p30⟩
      have := F4 (by omega)
      norm_num at this ⊢
      linarith
  have fin : ∀ {R C : ℝ}, (ζ * n) ^ 2 ≤ R * z ^ 2 → C ≤ Br → R * (1961.13 * sp * (etaSq x / (1 + etaSq x))) ≤ 3.29 * (t.Z * C) →
      v ≤ 5 * (602.2140857 * (sp * (ζ * n) ^ 2) / t.A) ∧ 602.2140857 * (sp * (ζ * n) ^ 2) / t.A ≤ 3.3 * v := by
    intro R C hR hC hP
    obtain ⟨c1, c2⟩ := ion_core z ζ n t.Z Br _ R C np zp z1 ζ0 hR htz hC hP hB
    exact ratio_core' (z ^ 2) _ t.Z Br _ _ t.A sp v e1 q0 tA htz rfl c1 c2
  rcases le_total x 16 with h16 | h16
  · refine fin (R := 1.22) ?_ ?_ (p16 h16)
    · rcases le_or_gt n 22 with h | h
      · exact charge_ratio ζ n z 1.003 0.909 1.22 np.le ζp ζ1 (by norm_num) (z22 h) (by norm_num) (by norm_num)
      · exact charge_ratio ζ n z 0.95 0.877 1.22 np.le ζp (ζ2 (by omega) h16) (by norm_num) z0 (by norm_num) (by norm_num)
    · refine le_trans ?_ B0
      have := F2 h16
      generalize Real.log (t.Z : ℝ) = L at *
      norm_num at this hl0 ⊢
      linarith
  · refine fin (R := 1.17) (charge_ratio ζ n z 1.003 0.928 1.17 np.le ζp ζ1 (by norm_num) (z16 h16) (by norm_num) (by norm_num)) ?_ p32
    refine le_trans ?_ B0
    have := F3 h16
    have := hl16 h16
    generalize Real.log (t.Z : ℝ) = L at *
    norm_num at *
    linarith

end Catima
