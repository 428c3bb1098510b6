import Verif.Lemmas.IonBlend
import Verif.Lemmas.SteadyComponent
import Verif.Lemmas.HeliumCurve

/-!
# Helper lemmas: the stopping power of helium ions over one step of the grid
-/

namespace Catima

/-- Helium ions are nearly bare from 10 MeV/u on. -/
theorem helium_charge (debug : Bool) (p : Projectile ℝ) (hZ : p.Z = 2) (t : Target ℝ) (c : Config ℝ) (hc : c.z_effective = 1)
    (x : ℝ) (hx : 10 ≤ x) : ∃ z, z_effective debug (p.withT x) t c = .ok z ∧ 1.98 ≤ z ∧ z ≤ 2 := by
  obtain ⟨s0, -, -, -, -, -, -, k4, -, -⟩ := kinematics x 1.039 hx (by norm_num) (by norm_num)
  have s0 : 0 < etaSq x := s0
  have k4 : (etaSq x)⁻¹ ≤ 46.6 := k4
  have s1 : 1 / 46.6 ≤ etaSq x := by rw [one_div]; exact (inv_le_comm₀ s0 (by norm_num)).mp k4
  have val : z_effective debug (p.withT x) t c = .ok (z_eff_Pierce_Blann 2 (√(etaSq x / (1 + etaSq x)))) := by
    unfold z_effective
    simp only [hc, sqrt_real]
    rw [if_neg (by decide), if_pos trivial]
    show Except.ok (z_eff_Pierce_Blann p.Z (√(1.0 - 1.0 / ((1.0 + x / atomic_mass_unit) * (1.0 + x / atomic_mass_unit))))) = _
    rw [beta_etaSq x (by linarith), hZ]
  have hb : 0.14 ≤ √(etaSq x / (1 + etaSq x)) := by
    apply Real.le_sqrt_of_sq_le
    rw [le_div_iff₀ (by positivity)]
    norm_num at s1 ⊢
    linarith
  refine ⟨_, val, ?_, (pierce_blann_bounds 2 _ two_pos (Real.sqrt_nonneg _)).2.le⟩
  rw [pierce_blann_eq]
  have k0 : (130 : ℝ) ≤ 0.95 * fine_structure_inverted := by norm_num [fine_structure_inverted, fine_structure]
  have hr : (2 : ℝ) ^ (2 / 3 : ℝ) ≤ 1.6 := by
    have : ((2 : ℝ) ^ (2 / 3 : ℝ)) ^ 3 = 4 := by
      rw [← Real.rpow_natCast, ← Real.rpow_mul (by norm_num)]; norm_num
    have h0 : 0 < (2 : ℝ) ^ (2 / 3 : ℝ) := by positivity
    by_contra hc
    rw [not_le] at hc
    have := pow_lt_pow_left₀ hc (by norm_num) (n := 3) (by norm_num)
    norm_num at *
    linarith
  have hr0 : 0 < (2 : ℝ) ^ (2 / 3 : ℝ) := by positivity
  generalize (2 : ℝ) ^ (2 / 3 : ℝ) = w at *
  generalize 0.95 * (fine_structure_inverted : ℝ) = k at *
  generalize √(etaSq x / (1 + etaSq x)) = b at *
  have kb : 11.3 ≤ k / w * b := by
    have h1 : 81.25 ≤ k / w := by
      rw [le_div_iff₀ hr0]
      norm_num at hr ⊢
      linarith
    calc (11.3 : ℝ) ≤ 81.25 * 0.14 := by norm_num
      _ ≤ _ := mul_le_mul h1 hb (by norm_num) (by positivity)
  have hq : 100 ≤ Real.exp (k / w * b) := by
    refine le_trans ?_ (Real.exp_le_exp.mpr kb)
    have q2 : Real.exp 11.3 = Real.exp 1 ^ 11 * Real.exp 0.3 := by
      rw [← Real.exp_nat_mul, ← Real.exp_add]; norm_num
    have q3 : (2048 : ℝ) ≤ Real.exp 1 ^ 11 := le_trans (by norm_num) (pow_le_pow_left₀ (by norm_num)
      (show (2 : ℝ) ≤ Real.exp 1 by have := Real.exp_one_gt_d9; norm_num at this; linarith) 11)
    have q4 := Real.one_le_exp (show (0 : ℝ) ≤ 0.3 by norm_num)
    rw [q2]
    nlinarith
  have he : Real.exp (-(k / w * b)) ≤ 0.01 := by
    rw [Real.exp_neg, inv_le_comm₀ (Real.exp_pos _) (by norm_num)]
    refine le_trans ?_ hq
    norm_num
  have := he
  show (1.98 : ℝ) ≤ 2 * (1 - Real.exp (-(k / w * b)))
  norm_num at this ⊢
  linarith

theorem lsRow_helium : lsRowNear 3000000000 (ls_coefficients_a[1]'(by rw [ls_lengths.1]; norm_num))
    (ls_coefficients_ahi[1]'(by rw [ls_lengths.2.1]; norm_num)) = true := by decide +kernel

/-- The two models for helium ions between 10 and 32.5 MeV/u. -/
theorem helium_ratio (env : Env ℝ) {p : Projectile ℝ} (hp : p.Ion 2)
    (hA : p.A ≤ 3 * element_atomic_weight 2) (t : Target ℝ) (tZ : 1 ≤ t.Z) (tZ' : t.Z ≤ 120) (t85 : t.Z ≠ 85) (t87 : t.Z ≠ 87)
    (tA : 0 < t.A) (c : Config ℝ) (hc : c.z_effective = 1) (I : ℝ) (hI : TypicalI I t.Z) (hI' : 0 < I → 10 ≤ I) (x : ℝ) (h0 : 10 ≤ x)
    (h1 : x ≤ 32.5) (hT : LindhardReadable x) (b : Bool) (s v : ℝ)
    (hs : srim_dedx_e 2 t.Z x b = .ok s)
    (hv : bethek_dedx_e_target env (p.withT x) t c I = .ok v) :
    v ≤ 5 * (602.2140857 * s / t.A) ∧ 602.2140857 * s / t.A ≤ 3.3 * v := by
  have ionT : (p.withT x).Ion 2 := ⟨hp.Z, hp.pos, hp.int, hp.A⟩
  obtain ⟨z, hz, z0, z1⟩ := helium_charge env.debug p (by rw [hp.Z]; norm_num) t c hc x h0
  have zp : 0 < z := by norm_num at z0; linarith
  obtain ⟨s0, y1, s1, -⟩ := etaSq_mid x h0 h1
  obtain ⟨l, el, hl⟩ : ∃ l, (if c.corrections.testBit 1 = true then .ok 0 else precalculated_lindhard env.calcIndex (p.withT x)) = .ok l ∧
      |l| ≤ 0.031 := by
    split
    · exact ⟨0, rfl, by norm_num⟩
    · obtain ⟨l, e, hl⟩ := lindhard_near env.calcIndex ionT (by norm_num) hA 3000000000 (fun r hr hr' => by
        have : r = 1 := by omega
        subst this
        exact lsRow_helium) h0 h1 hT
      refine ⟨l, e, hl.trans ?_⟩
      norm_num
  have hl := abs_le.mp hl
  obtain ⟨I10, I1, I2, sf0, sf1, D, D0, D1, e1⟩ := bethe_bracket env hp t tZ tZ' t85 t87 tA c I hI hI' x h0 h1 z hz zp l el v hv
  have htz : (1 : ℝ) ≤ (t.Z : ℝ) := by exact_mod_cast tZ
  have htz' : (t.Z : ℝ) ≤ 120 := by exact_mod_cast tZ'
  obtain ⟨F0, F1, F2⟩ := betheLog_mid _ (usedI I t.Z) x sf0 sf1 I10 I1 h0 h1
  have F3 : t.Z ≤ 10 → 3.4 ≤ betheLog (shellFactor c (usedI I t.Z) t.Z) (usedI I t.Z) (etaSq x) := fun h => F2 (by
    have : (t.Z : ℝ) ≤ 10 := by exact_mod_cast h
    have h2 : usedI I t.Z ^ 2 ≤ 340 ^ 2 := by norm_num; linarith
    exact le_of_sq_le_sq h2 (by norm_num))
  have hK : 0 ≤ barkasTerm c z (etaSq x) t.Z ∧ barkasTerm c z (etaSq x) t.Z ≤ 0.036 := by
    unfold barkasTerm
    split
    · norm_num
    · obtain ⟨a, b⟩ := barkas_le z (etaSq x) t.Z y1 s0 zp.le htz htz'
      exact ⟨a, b.trans (by norm_num at *; linarith)⟩
  obtain ⟨sp, es, p0, p1, p2⟩ := proton_value b t.Z tZ tZ' x h0 h1
  have es' : srim_dedx_e 2 t.Z x b = .ok (sp * heF t.Z (max 0 (Real.log (1000 * x)))) := srimHelium_eq _ t.Z x sp (by linarith) es
  rw [hs] at es'
  injection es' with es'
  rw [es']
  have hb9 : 9.2 ≤ max 0 (Real.log (1000 * x)) := by
    refine le_max_of_le_right ?_
    exact log_ten_mev x h0
  obtain ⟨g0, g1⟩ := heF_value t.Z tZ tZ' _ hb9
  have q0 : 0 < etaSq x / (1 + etaSq x) := by positivity
  generalize betheLog _ _ _ = F at *
  generalize barkasTerm _ _ _ _ = K at *
  generalize heF _ _ = g at *
  have B1 : F * (1 + K) + l - D / 2 ≤ 9.586 := by
    have : F * (1 + K) ≤ 9 * (1 + 0.036) := mul_le_mul F1 (by linarith [hK.2]) (by linarith [hK.1]) (by norm_num)
    have := hl.2
    norm_num at *
    linarith
  have B0 : 2.53 ≤ F * (1 + K) + l - D / 2 := by
    have : F ≤ F * (1 + K) := by norm_num at F0; nlinarith [hK.1]
    have := hl.1
    norm_num at *
    linarith
  have B2 : t.Z ≤ 10 → 3.2 ≤ F * (1 + K) + l - D / 2 := fun h => by
    have : F ≤ F * (1 + K) := by norm_num at F0; nlinarith [hK.1]
    have := F3 h
    have := hl.1
    norm_num at *
    linarith
  generalize F * (1 + K) + l - D / 2 = Br at *
  clear el hl F0 F1 F2 F3 hK hs hv D0 D1
  generalize etaSq x / (1 + etaSq x) = q at *
  have z2 : 3.92 ≤ z ^ 2 ∧ z ^ 2 ≤ 4 := by
    have := z0
    norm_num at this
    constructor
    · norm_num; nlinarith
    · nlinarith
  refine ratio_core' (z ^ 2) g t.Z Br _ q t.A sp v e1 q0 tA htz rfl ?_ ?_
  · exact (helium_core (z ^ 2) g t.Z Br _ z2.1 z2.2 g0 g1 htz B0 B1 p0 p1 (fun h => ⟨p2 (by exact_mod_cast h), B0⟩) fun h => B2 (by
      have : (t.Z : ℝ) < 11 := h
      have : t.Z < 11 := by exact_mod_cast this
      omega)).1
  · exact (helium_core (z ^ 2) g t.Z Br _ z2.1 z2.2 g0 g1 htz B0 B1 p0 p1 (fun h => ⟨p2 (by exact_mod_cast h), B0⟩) fun h => B2 (by
      have : (t.Z : ℝ) < 11 := h
      have : t.Z < 11 := by exact_mod_cast this
      omega)).2

/-- Alpha particles and the other helium ions. -/
theorem helium_steady_stopping (env : Env ℝ) (p : Projectile ℝ) (m : Material ℝ) (c : Config ℝ) (h : Computable p 2 m c)
    (hA : p.A ≤ 3 * element_atomic_weight 2) (hZA : 2 ≤ 2 * p.A) (hc : c.z_effective = 1)
    (hI : ∀ t ∈ m.atoms, TypicalI m.i_potential t.Z) (hI' : 0 < m.i_potential → 10 ≤ m.i_potential)
    (hd : ∀ t ∈ m.atoms, t.Z ≠ 85 ∧ t.Z ≠ 87) : SteadyStopping env p m c := by
  have pZ : p.Z = 2 := by rw [h.ion.Z]; norm_num
  refine steady_of_srim env p (by norm_num) m c h hA (by rw [pZ]; exact hZA) hc hI hd (fun t ht x r hx r1 r2 => ?_) fun t ht y y0 y1 hy s v hs hv => ?_
  · obtain ⟨s, s', hs, hs', st, st'⟩ := proton_step (c.low_energy == 1) t.Z (h.sound.Z t ht) x r hx (le_trans (by norm_num) r1) r2
    have r1' : 1 ≤ r := le_trans (by norm_num) r1
    have fold : ∀ y, srim_dedx_e 2 t.Z y (c.low_energy == 1) =
        srimHelium (if c.low_energy == 1 then p_se t.Z else p_se85 t.Z : ℝ → M ℝ) t.Z y := fun y => rfl
    have rx : 0 < r * x := mul_pos (lt_of_lt_of_le one_pos r1') hx
    have e1 := srimHelium_eq _ t.Z x s hx hs
    have e2 := srimHelium_eq _ t.Z (r * x) s' rx hs'
    rw [← fold] at e1 e2
    have hl : Real.log (1000 * (r * x)) = Real.log r + Real.log (1000 * x) := by
      rw [← Real.log_mul (by positivity) (by positivity)]; ring_nf
    obtain ⟨lr0, lr1⟩ := log_step_le r r1' r2
    have b1 : max 0 (Real.log (1000 * x)) ≤ max 0 (Real.log (1000 * (r * x))) := max_le_max le_rfl (by rw [hl]; linarith)
    have b2 : max 0 (Real.log (1000 * (r * x))) ≤ max 0 (Real.log (1000 * x)) + 0.0386 := by
      rw [hl]
      refine max_le (add_nonneg (le_max_left _ _) (by norm_num)) ?_
      have := le_max_right 0 (Real.log (1000 * x))
      linarith
    obtain ⟨G, G'⟩ := heF_step t.Z (h.sound.Z t ht) (h.known t ht) _ _ (le_max_left _ _) b1 b2
    have S := st.mul G
    refine ⟨_, _, e1, e2, S.mono (by norm_num) (by norm_num), fun _ => S.mono (by norm_num) (by norm_num), fun h10 => ?_⟩
    exact ((st' h10).mul (G' (le_max_of_le_right (log_ten_mev x h10)))).mono (by norm_num) (by norm_num)
  · exact helium_ratio env h.ion hA t (h.sound.Z t ht) (h.known t ht) (hd t ht).1 (hd t ht).2 (h.sound.A t ht) c hc m.i_potential (hI t ht) hI'
      y y0 y1 hy (c.low_energy == 1) s v hs hv

end Catima
