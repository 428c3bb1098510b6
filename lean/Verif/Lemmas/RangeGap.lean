import Verif.Lemmas.ProtonHydrogen
import Verif.Props.FasterOut

/-!
# Helper lemmas: the range of protons in hydrogen grows by more than 4e-4 g/cm2 around 9 MeV
-/

namespace Catima

/-- The stopping power of hydrogen for protons around 9 MeV, an upper bound. -/
theorem hydrogen_stopping_9 (env : Env ℝ) (x : ℝ) (h1 : 8.8 ≤ x) (h2 : x ≤ 9.9) :
    ∃ S, dedx env ((slowProton 0).withT x) (hydrogenGas 0) .default = .ok S ∧ 0 < S ∧ S ≤ 800 := by
  norm_num at h1 h2
  have xp : 0 < x := by linarith
  obtain ⟨K1, K2, k1, k2, k3, k4, hK⟩ := hydrogen_nuclear env.debug 0
  norm_num at k2 k3 k4
  have l2 : Real.log 2 ≤ 0.69315 := by have := Real.log_two_lt_d9; norm_num at this ⊢; linarith
  have l1 : Real.log 10.332 ≤ 2.34 := by
    have h : Real.log (10.332 ^ 8) ≤ Real.log (2 ^ 27) := Real.log_le_log (by norm_num) (by norm_num)
    rw [Real.log_pow, Real.log_pow] at h
    norm_num at h l2 ⊢
    linarith
  obtain ⟨r1, r2⟩ := reducedNuclear_le 8.1968 10.332 0.1437 (K2 * x) (by norm_num) (by norm_num) (by norm_num at l1 ⊢; linarith) (by norm_num)
      (by norm_num; nlinarith)
  have i1 : K1 * reducedNuclear (K2 * x) ≤ 1264 * 0.1437 := mul_le_mul k2 r1 r2 (by norm_num)
  have i0 : 0 ≤ K1 * reducedNuclear (K2 * x) := mul_nonneg k1.le r2
  obtain ⟨s, hs, s0, s1⟩ : ∃ s, p_se85 1 x = .ok s ∧ 0 < s ∧ s ≤ 0.5 := by
    have hrow := hydrogen_row
    have t : ∀ (m : ℤ) (e : ℕ) (v : ℝ), (m : ℝ) / 10 ^ e = v → (Dec.toScalar ⟨m, e⟩ : ℝ) = v := fun m e v h => by rw [Dec.toScalar_real]; exact h
    have c1 : Scalar.le (1000.0 * x) 25.0 = false := by rw [le_real_false]; norm_num; linarith
    unfold p_se85 pseGen
    simp only [hrow, bind_ok, c1, List.map_cons, List.map_nil]
    rw [t 91827 7 0.0091827 (by norm_num), t 53496 7 0.0053496 (by norm_num), t 69741 5 0.69741 (by norm_num), t 48493 5 0.48493 (by norm_num),
      t 31607 2 316.07 (by norm_num), t 10143 4 1.0143 (by norm_num), t 93293 1 9329.3 (by norm_num), t 539890 7 0.053989 (by norm_num)]
    simp only [Bool.false_eq_true, if_false]
    rw [pseRow_eight, bind_ok]
    obtain ⟨e, he⟩ : ∃ e : ℝ, e = 1000.0 * x := ⟨_, rfl⟩
    rw [← he]
    have e1 : 8800 ≤ e := by rw [he]; norm_num; linarith
    have e2 : e ≤ 9900 := by rw [he]; norm_num; linarith
    have ep : 0 < e := by linarith
    have v1 : 0 < e ^ (0.0053496 : ℝ) := Real.rpow_pos_of_pos ep _
    have v2 : 0 < e ^ (0.48493 : ℝ) := Real.rpow_pos_of_pos ep _
    have v3 : e ≤ e ^ (1.0143 : ℝ) := by
      have := Real.rpow_le_rpow_of_exponent_le (x := e) (by linarith) (show (1 : ℝ) ≤ 1.0143 by norm_num)
      rwa [Real.rpow_one] at this
    have v4 : Real.log (9329.3 / e + 0.053989 * e) ≤ 10 * Real.log 2 := by
      rw [← Real.log_rpow (by norm_num)]
      refine Real.log_le_log (by positivity) ?_
      have : 9329.3 / e ≤ 2 := by rw [div_le_iff₀ ep]; norm_num; linarith
      rw [show ((2 : ℝ) ^ (10 : ℝ)) = 1024 by norm_num]
      norm_num at this ⊢
      linarith
    have v5 : 0 < Real.log (9329.3 / e + 0.053989 * e) := by
      refine Real.log_pos ?_
      have : 0 < 9329.3 / e := by positivity
      have : 1 < 0.053989 * e := by norm_num; linarith
      linarith
    generalize e ^ (0.0053496 : ℝ) = u1 at *
    generalize e ^ (0.48493 : ℝ) = u2 at *
    generalize e ^ (1.0143 : ℝ) = u3 at *
    generalize Real.log (9329.3 / e + 0.053989 * e) = u4 at *
    have u3p : 0 < u3 := by linarith
    have a0 : 0 < 0.0091827 * u1 + 0.69741 * u2 := by positivity
    have b0 : 0 < 316.07 / u3 * u4 := by positivity
    have b1 : 316.07 / u3 * u4 ≤ 0.5 := by
      rw [div_mul_eq_mul_div, div_le_iff₀ u3p]
      norm_num at l2 ⊢
      linarith
    generalize 0.0091827 * u1 + 0.69741 * u2 = A at *
    generalize 316.07 / u3 * u4 = B at *
    refine ⟨_, rfl, by positivity, ?_⟩
    rw [div_le_iff₀ (by positivity)]
    nlinarith
  have ion : (slowProton 0).Ion 1 := ⟨by norm_num [slowProton], by norm_num, by norm_num, by norm_num [slowProton]⟩
  have hp : srim_dedx_e 1 1 x ((Config.default : Config ℝ).low_energy == 1) = .ok s := by
    rw [← hs]
    simp [srim_dedx_e, Config.default]
  have he := (electronic_only env ion (hydrogenGas 0) ⟨1.00794, 1, 1⟩ (by norm_num) .default x _ 0 hp).1 (by linarith)
  refine ⟨K1 * reducedNuclear (K2 * x) + 602.2140857 * s / 1.00794, ?_, by positivity, ?_⟩
  · rw [dedx_eq env _ _ _ xp, hK x xp, bind_ok]
    rw [show electronic env ((slowProton 0).withT x) (hydrogenGas 0) .default = _ from he]
    rfl
  · norm_num at i1 s1 ⊢
    linarith

theorem grid_237 : 9 ≤ (energy_table : EnergyTable ℝ).val 237 ∧ (energy_table : EnergyTable ℝ).val 237 ≤ 9.1 := by
  obtain ⟨g1, g2⟩ := gridRatio_sharp
  obtain ⟨x1, x2⟩ := abs_le.mp energy_table_range.2.1
  norm_num at x1 x2
  rw [grid_pow]
  generalize (energy_table : EnergyTable ℝ).val 0 = x0 at *
  have q0 : (0 : ℝ) ≤ gridRatio := by norm_num at g1; linarith
  have p1 := pow_le_pow_left₀ (by norm_num) g1 237
  have p2 := pow_le_pow_left₀ q0 g2 237
  have r1 : (9001 : ℝ) ≤ 1.039188 ^ 237 := by norm_num
  have r2 : (1.03919 : ℝ) ^ 237 ≤ 9099 := by norm_num
  generalize gridRatio ^ 237 = G at *
  constructor
  · have : 9001 ≤ G := r1.trans p1
    nlinarith
  · have : G ≤ 9099 := p2.trans r2
    norm_num
    nlinarith

/-- The range of protons in hydrogen grows by at least 2e-4 g/cm2 from point 237 of the table to the next. -/
theorem hydrogen_range_gap (env : Env ℝ) (d : DataPoint ℝ) (hd : calculate_DataPoint env (slowProton 0) (hydrogenGas 0) .default = .ok d) :
    ∃ a b : ℝ, d.range[237]? = some a ∧ d.range[238]? = some b ∧ a + 2e-4 ≤ b := by
  have hb := energy_table_bounds
  set X := (energy_table : EnergyTable ℝ).val with hX
  have ord : ∀ k, X k < X (k + 1) := fun k => (EnergyTable.val_lt_iff _ hb.1 hb.2.1 k (k + 1)).mpr (by omega)
  have hcomp := (proton_hydrogen_in 0 0).computable
  have hdef : ∀ k < 599, ∃ I, integrator.integrate (fdedx env (slowProton 0) (hydrogenGas 0) .default) (X k) (X (k + 1)) = .ok I := by
    intro k hk
    refine integrator_defined _ _ _ (ord k).le fun x hx => ?_
    obtain ⟨-, -, -, -, h0, hr⟩ := inner_grid k hk x hx
    obtain ⟨v, hv, -⟩ := stopping_positive_at env (slowProton 0) 1 (hydrogenGas 0) .default hcomp (UsualIon.usual (.inl ⟨rfl, proton_hydrogen_in 0 0⟩)) x h0 hr
    exact ⟨1.0 / v, by unfold fdedx; rw [hv]; rfl⟩
  choose! I hI using hdef
  obtain ⟨-, -, hs⟩ := table_step _ _ _ (data_point_parts _ _ _ _ _ hd).1 I hI
  obtain ⟨a, b, ha, hb', hab⟩ := hs 237 (by omega)
  refine ⟨a, b, ha, hb', ?_⟩
  obtain ⟨x1, x2⟩ := grid_237
  have hq := gridRatio_bounds
  have hx : X 238 = gridRatio * X 237 := grid_geometric 237
  rw [← hX] at x1 x2
  norm_num at x2 hq
  have y1 : X 237 + 0.35 ≤ X 238 := by rw [hx]; norm_num; nlinarith
  have y2 : X 238 ≤ 9.9 := by rw [hx]; norm_num; nlinarith
  obtain ⟨g, hg, hv⟩ := integrator_value (fdedx env (slowProton 0) (hydrogenGas 0) .default) (X 237) (X 238) (ord 237).le (fun v => 1 / 800 ≤ v) fun x hx => by
    obtain ⟨i1, i2, -⟩ := inner_grid 237 (by omega) x hx
    obtain ⟨S, hS, S0, S1⟩ := hydrogen_stopping_9 env x (by norm_num; linarith) (i2.trans y2)
    refine ⟨1.0 / S, by unfold fdedx; rw [hS]; rfl, ?_⟩
    rw [show (1.0 : ℝ) = 1 by norm_num]
    exact one_div_le_one_div_of_le S0 S1
  have hI' := hI 237 (by omega)
  rw [show X (237 + 1) = X 238 from rfl, hv] at hI'
  have hI' := Except.ok.inj hI'
  obtain ⟨J, hJ, hJ'⟩ := gl_const integrator integrator_supported (1 / 800) (X 237) (X 238)
  rw [gl_value integrator integrator_supported] at hJ
  have hJ := Except.ok.inj hJ
  have le : J ≤ I 237 := by
    rw [← hJ, ← hI']
    refine mul_le_mul_of_nonneg_left (wsum_le _ _ _ (fun e he => (integrator_nodes e he).2.2.le) fun e he => ?_) (by linarith)
    exact (hg _ (node_inner _ _ (ord 237).le e he)).2
  rw [abs_of_pos (show 0 < 1 / 800 * (X 238 - X 237) by norm_num at y1; linarith)] at hJ'
  have := (abs_le.mp hJ').1
  rw [show (slowProton 0).A = 1.00794 from rfl] at hab
  norm_num at hab this y1 ⊢
  linarith

/-- The stopping power of hydrogen for protons up to 9.9 MeV, a lower bound. -/
theorem hydrogen_stopping_ge (env : Env ℝ) (x : ℝ) (h1 : (energy_table : EnergyTable ℝ).val 0 ≤ x) (h2 : x ≤ 9.9) :
    ∃ S, dedx env ((slowProton 0).withT x) (hydrogenGas 0) .default = .ok S ∧ 1 ≤ S := by
  have x0 := energy_table_pos 0
  have xp : 0 < x := by linarith
  obtain ⟨K1, K2, k1, -, k3, -, hK⟩ := hydrogen_nuclear env.debug 0
  norm_num at k3 h2
  have n0 : 0 ≤ K1 * reducedNuclear (K2 * x) := mul_nonneg k1.le (reducedNuclear_step (K2 * x) 1 (by positivity) le_rfl (by norm_num)).pos.le
  suffices h : ∃ e, electronic env ((slowProton 0).withT x) (hydrogenGas 0) .default = .ok e ∧ 1 ≤ e by
    obtain ⟨e, he, e1⟩ := h
    refine ⟨K1 * reducedNuclear (K2 * x) + e, ?_, by linarith⟩
    rw [dedx_eq env _ _ _ xp, hK x xp, bind_ok, he]
    rfl
  rcases le_or_gt x 0.025 with hx | hx
  · obtain ⟨e0, e1, he⟩ := hydrogen_electronic env 0 _ energy_table_range.2.1
    refine ⟨_, he x h1 hx, ?_⟩
    have : (1 : ℝ) ≤ (x / (energy_table : EnergyTable ℝ).val 0) ^ (0.25 : ℝ) := Real.one_le_rpow ((one_le_div x0).mpr h1) (by norm_num)
    nlinarith
  · norm_num at hx
    obtain ⟨s, hs, s1⟩ : ∃ s, p_se85 1 x = .ok s ∧ 0.01 ≤ s := by
      have hrow := hydrogen_row
      have t : ∀ (m : ℤ) (e : ℕ) (v : ℝ), (m : ℝ) / 10 ^ e = v → (Dec.toScalar ⟨m, e⟩ : ℝ) = v := fun m e v h => by rw [Dec.toScalar_real]; exact h
      have c1 : Scalar.le (1000.0 * x) 25.0 = false := by rw [le_real_false]; norm_num; linarith
      unfold p_se85 pseGen
      simp only [hrow, bind_ok, c1, List.map_cons, List.map_nil]
      rw [t 91827 7 0.0091827 (by norm_num), t 53496 7 0.0053496 (by norm_num), t 69741 5 0.69741 (by norm_num), t 48493 5 0.48493 (by norm_num),
        t 31607 2 316.07 (by norm_num), t 10143 4 1.0143 (by norm_num), t 93293 1 9329.3 (by norm_num), t 539890 7 0.053989 (by norm_num)]
      simp only [Bool.false_eq_true, if_false]
      rw [pseRow_eight, bind_ok]
      obtain ⟨e, he⟩ : ∃ e : ℝ, e = 1000.0 * x := ⟨_, rfl⟩
      rw [← he]
      have e1 : 25 ≤ e := by rw [he]; norm_num; linarith
      have e2 : e ≤ 9900 := by rw [he]; norm_num; linarith
      have ep : 0 < e := by linarith
      have v1 : 0 < e ^ (0.0053496 : ℝ) := Real.rpow_pos_of_pos ep _
      have v2 : 1 ≤ e ^ (0.48493 : ℝ) := Real.one_le_rpow (by linarith) (by norm_num)
      have v3 : e ^ (1.0143 : ℝ) ≤ 2 * e := by
        have h : e ^ (1.0143 : ℝ) = e * e ^ (0.0143 : ℝ) := by
          rw [show (1.0143 : ℝ) = 1 + 0.0143 by norm_num, Real.rpow_add ep, Real.rpow_one]
        have h' : e ^ (0.0143 : ℝ) ≤ 2 := by
          refine (Real.rpow_le_rpow ep.le (show e ≤ 2 ^ (14 : ℝ) by norm_num; linarith) (by norm_num)).trans ?_
          rw [← Real.rpow_mul (by norm_num)]
          have := Real.rpow_le_rpow_of_exponent_le (x := 2) (by norm_num) (show (14 * 0.0143 : ℝ) ≤ 1 by norm_num)
          rwa [Real.rpow_one] at this
        rw [h]
        nlinarith
      have v3' : 0 < e ^ (1.0143 : ℝ) := Real.rpow_pos_of_pos ep _
      have v4 : 1 ≤ Real.log (9329.3 / e + 0.053989 * e) := by
        rw [Real.le_log_iff_exp_le (by positivity)]
        refine Real.exp_one_lt_d9.le.trans ?_
        rw [div_add' _ _ _ ep.ne', le_div_iff₀ ep]
        norm_num
        nlinarith [sq_nonneg (e - 50)]
      generalize e ^ (0.0053496 : ℝ) = u1 at *
      generalize e ^ (0.48493 : ℝ) = u2 at *
      generalize e ^ (1.0143 : ℝ) = u3 at *
      generalize Real.log (9329.3 / e + 0.053989 * e) = u4 at *
      have a0 : 0.5 ≤ 0.0091827 * u1 + 0.69741 * u2 := by norm_num; linarith
      have b0 : 0.015 ≤ 316.07 / u3 * u4 := by
        rw [div_mul_eq_mul_div, le_div_iff₀ v3']
        norm_num
        linarith
      generalize 0.0091827 * u1 + 0.69741 * u2 = A at *
      generalize 316.07 / u3 * u4 = B at *
      norm_num at a0 b0
      refine ⟨_, rfl, ?_⟩
      rw [le_div_iff₀ (by linarith)]
      norm_num
      nlinarith
    have ion : (slowProton 0).Ion 1 := ⟨by norm_num [slowProton], by norm_num, by norm_num, by norm_num [slowProton]⟩
    have hp : srim_dedx_e 1 1 x ((Config.default : Config ℝ).low_energy == 1) = .ok s := by
      rw [← hs]
      simp [srim_dedx_e, Config.default]
    have he := (electronic_only env ion (hydrogenGas 0) ⟨1.00794, 1, 1⟩ (by norm_num) .default x _ 0 hp).1 (by linarith)
    refine ⟨_, he, ?_⟩
    norm_num at s1 ⊢
    linarith

/-- The range of protons up to 9.9 MeV in hydrogen is at most 2 g/cm2 per MeV. -/
theorem hydrogen_range_le (env : Env ℝ) (d : DataPoint ℝ) (hd : calculate_DataPoint env (slowProton 0) (hydrogenGas 0) .default = .ok d) :
    ∀ k ≤ 238, ∃ a : ℝ, d.range[k]? = some a ∧ a ≤ 2 * (energy_table : EnergyTable ℝ).val k := by
  have hb := energy_table_bounds
  set X := (energy_table : EnergyTable ℝ).val with hX
  have ord : ∀ k, X k < X (k + 1) := fun k => (EnergyTable.val_lt_iff _ hb.1 hb.2.1 k (k + 1)).mpr (by omega)
  have hcomp := (proton_hydrogen_in 0 0).computable
  have hdef : ∀ k < 599, ∃ I, integrator.integrate (fdedx env (slowProton 0) (hydrogenGas 0) .default) (X k) (X (k + 1)) = .ok I := by
    intro k hk
    refine integrator_defined _ _ _ (ord k).le fun x hx => ?_
    obtain ⟨-, -, -, -, h0, hr⟩ := inner_grid k hk x hx
    obtain ⟨v, hv, -⟩ := stopping_positive_at env (slowProton 0) 1 (hydrogenGas 0) .default hcomp (UsualIon.usual (.inl ⟨rfl, proton_hydrogen_in 0 0⟩)) x h0 hr
    exact ⟨1.0 / v, by unfold fdedx; rw [hv]; rfl⟩
  choose! I hI using hdef
  obtain ⟨-, hz, hs⟩ := table_step _ _ _ (data_point_parts _ _ _ _ _ hd).1 I hI
  obtain ⟨x1, x2⟩ := grid_237
  have hq := gridRatio_bounds
  have hx : X 238 = gridRatio * X 237 := grid_geometric 237
  rw [← hX] at x1 x2
  norm_num at x2 hq
  have y2 : X 238 ≤ 9.9 := by rw [hx]; norm_num; nlinarith
  intro k
  induction k with
  | zero =>
    intro _
    exact ⟨0, hz, by have := energy_table_pos 0; rw [← hX] at this; linarith⟩
  | succ k ih =>
    intro hk
    obtain ⟨a', ha', hle⟩ := ih (by omega)
    obtain ⟨a, b, ha, hb', hab⟩ := hs k (by omega)
    rw [ha] at ha'
    cases ha'
    refine ⟨b, hb', ?_⟩
    have hX9 : X (k + 1) ≤ 9.9 := ((EnergyTable.val_le_iff _ hb.1 hb.2.1 (k + 1) 238).mpr (by omega)).trans y2
    obtain ⟨g, hg, hv⟩ := integrator_value (fdedx env (slowProton 0) (hydrogenGas 0) .default) (X k) (X (k + 1)) (ord k).le (fun v => v ≤ 1) fun x hx => by
      obtain ⟨i1, i2, -⟩ := inner_grid k (by omega) x hx
      obtain ⟨S, hS, S1⟩ := hydrogen_stopping_ge env x
        (((EnergyTable.val_le_iff _ hb.1 hb.2.1 0 k).mpr (by omega)).trans i1) (i2.trans hX9)
      refine ⟨1.0 / S, by unfold fdedx; rw [hS]; rfl, ?_⟩
      rw [div_le_one (by linarith)]
      norm_num
      exact S1
    have hI' := hI k (by omega)
    rw [hv] at hI'
    have hI' := Except.ok.inj hI'
    obtain ⟨J, hJ, hJ'⟩ := gl_const integrator integrator_supported 1 (X k) (X (k + 1))
    rw [gl_value integrator integrator_supported] at hJ
    have hJ := Except.ok.inj hJ
    have le : I k ≤ J := by
      rw [← hJ, ← hI']
      refine mul_le_mul_of_nonneg_left (wsum_le _ _ _ (fun e he => (integrator_nodes e he).2.2.le) fun e he => ?_) (by linarith [ord k])
      exact (hg _ (node_inner _ _ (ord k).le e he)).2
    rw [abs_of_pos (show 0 < 1 * (X (k + 1) - X k) by linarith [ord k])] at hJ'
    have h3 := (abs_le.mp hJ').2
    have h4 := ord k
    rw [show (slowProton 0).A = 1.00794 from rfl] at hab
    norm_num at hab h3 ⊢
    linarith

end Catima
