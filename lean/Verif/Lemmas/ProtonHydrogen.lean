import Verif.Lemmas.QuarterLaw
import Verif.Lemmas.ProtonLead

/-!
# Helper lemmas: protons below 25 keV in hydrogen
-/

namespace Catima

/-- Hydrogen gas. -/
def hydrogenGas (th : ℝ) : Material ℝ := ⟨8.3748e-5, th, 1.00794, 0, [⟨1.00794, 1, 1⟩]⟩

theorem hydrogen_row : rd proton_stopping_coef (srimIdx 1) = .ok [⟨91827, 7⟩, ⟨53496, 7⟩, ⟨69741, 5⟩, ⟨48493, 5⟩, ⟨31607, 2⟩, ⟨10143, 4⟩, ⟨93293, 1⟩, ⟨539890, 7⟩] := by
  decide +kernel

theorem hydrogen_row_value : pseRow (α := ℝ) (List.map Dec.toScalar [⟨91827, 7⟩, ⟨53496, 7⟩, ⟨69741, 5⟩, ⟨48493, 5⟩, ⟨31607, 2⟩, ⟨10143, 4⟩, ⟨93293, 1⟩, ⟨539890, 7⟩]) 25 =
    .ok ((0.0091827 * 25 ^ (0.0053496 : ℝ) + 0.69741 * 25 ^ (0.48493 : ℝ)) * (316.07 / 25 ^ (1.0143 : ℝ) * Real.log (9329.3 / 25 + 0.053989 * 25)) /
      ((0.0091827 * 25 ^ (0.0053496 : ℝ) + 0.69741 * 25 ^ (0.48493 : ℝ)) + 316.07 / 25 ^ (1.0143 : ℝ) * Real.log (9329.3 / 25 + 0.053989 * 25))) := by
  simp only [List.map_cons, List.map_nil]
  rw [pseRow_eight]
  have t : ∀ (m : ℤ) (e : ℕ) (v : ℝ), (m : ℝ) / 10 ^ e = v → (Dec.toScalar ⟨m, e⟩ : ℝ) = v := fun m e v h => by rw [Dec.toScalar_real]; exact h
  rw [t 91827 7 0.0091827 (by norm_num), t 53496 7 0.0053496 (by norm_num), t 69741 5 0.69741 (by norm_num), t 48493 5 0.48493 (by norm_num),
    t 31607 2 316.07 (by norm_num), t 10143 4 1.0143 (by norm_num), t 93293 1 9329.3 (by norm_num), t 539890 7 0.053989 (by norm_num)]

/-- Proton stopping of hydrogen at 25 keV (10^-15 eV cm2). -/
theorem hydrogen_25 : ∃ s : ℝ, 3.165 ≤ s ∧ ∀ x : ℝ, 0 < x → x ≤ 0.025 →
    p_se85 1 x = .ok (s * (40 * x) ^ (0.25 : ℝ)) := by
  have hrow := hydrogen_row
  have l1 : (1 : ℝ) ≤ 25 ^ (0.0053496 : ℝ) := Real.one_le_rpow (by norm_num) (by norm_num)
  have l3 : (4.748 : ℝ) ≤ 25 ^ (0.48493 : ℝ) := by
    have h : (25 : ℝ) ^ (0.484 : ℝ) ≤ 25 ^ (0.48493 : ℝ) := Real.rpow_le_rpow_of_exponent_le (by norm_num) (by norm_num)
    refine le_trans ?_ h
    have e := rpow_root 25 121 250 0.484 (by norm_num) (by norm_num)
    refine le_of_pow_le_pow_left₀ (n := 250) (by norm_num) (by positivity) ?_
    rw [e]; norm_num
  have l5 : (25 : ℝ) ^ (1.0143 : ℝ) ≤ 26.7 := by
    have h : (25 : ℝ) ^ (1.0143 : ℝ) ≤ 25 ^ (1.02 : ℝ) := Real.rpow_le_rpow_of_exponent_le (by norm_num) (by norm_num)
    refine h.trans ?_
    have e := rpow_root 25 51 50 1.02 (by norm_num) (by norm_num)
    refine le_of_pow_le_pow_left₀ (n := 50) (by norm_num) (by norm_num) ?_
    rw [e]; norm_num
  have l5' : (0 : ℝ) < 25 ^ (1.0143 : ℝ) := by positivity
  have l6 : (5.8 : ℝ) ≤ Real.log (9329.3 / 25 + 0.053989 * 25) := by
    rw [Real.le_log_iff_exp_le (by norm_num)]
    have e1 : Real.exp (5.8 : ℝ) ^ 5 = Real.exp 1 ^ 29 := by rw [← Real.exp_nat_mul, ← Real.exp_nat_mul]; norm_num
    have h := Real.exp_one_lt_d9.le
    have := pow_le_pow_left₀ (Real.exp_pos 1).le h 29
    refine le_of_pow_le_pow_left₀ (n := 5) (by norm_num) (by norm_num) ?_
    rw [e1]
    refine this.trans ?_
    norm_num
  have hval := hydrogen_row_value
  generalize (25 : ℝ) ^ (0.0053496 : ℝ) = u1 at *
  generalize (25 : ℝ) ^ (0.48493 : ℝ) = u2 at *
  generalize (25 : ℝ) ^ (1.0143 : ℝ) = u3 at *
  generalize Real.log (9329.3 / 25 + 0.053989 * 25) = u4 at *
  generalize hsl : 0.0091827 * u1 + 0.69741 * u2 = sl at *
  generalize hsh : 316.07 / u3 * u4 = sh at *
  have sl1 : 3.32 ≤ sl := by rw [← hsl]; norm_num at l1 l3 ⊢; linarith
  have sh1 : 68.6 ≤ sh := by
    rw [← hsh, div_mul_eq_mul_div, le_div_iff₀ l5']
    norm_num at l5 l6 ⊢; linarith
  refine ⟨sl * sh / (sl + sh), ?_, fun x x0 hx => ?_⟩
  · rw [le_div_iff₀ (by norm_num at *; linarith)]
    norm_num at sl1 sh1 ⊢
    nlinarith
  · unfold p_se85 pseGen
    have c1 : Scalar.le (1000.0 * x) 25.0 = true := by rw [le_real]; norm_num at hx ⊢; linarith
    have e25 : (25.0 : ℝ) = 25 := by norm_num
    simp only [hrow, bind_ok, if_pos c1, pow_real]
    rw [if_neg (by norm_num), e25, hval, bind_ok]
    show Except.ok _ = _
    refine congrArg Except.ok ?_
    rw [show (1000.0 : ℝ) * x / 25 = 40 * x by norm_num; ring]

/-- A bound on the reduced nuclear stopping from any point above 2 on. -/
theorem reducedNuclear_le (b u c e : ℝ) (hu : 1 + 1.1383 * b ≤ u) (hb : 2 ≤ b) (hc : Real.log u ≤ 2 * c * b) (hc' : 1.1383 ≤ 2 * c * (1 + 1.1383 * b))
    (he : b ≤ e) : reducedNuclear e ≤ c ∧ 0 ≤ reducedNuclear e := by
  have e0 : 0 < e := by linarith
  have v0 : 0 < e ^ (0.21226 : ℝ) := Real.rpow_pos_of_pos e0 _
  have v1 : 0 < e ^ (0.5 : ℝ) := Real.rpow_pos_of_pos e0 _
  have hB : 0 < 1 + 1.1383 * b := by have : 0 < 1.1383 * b := by positivity
                                     linarith
  have hlog : Real.log (1 + 1.1383 * e) ≤ 2 * c * e := by
    have h1 : Real.log ((1 + 1.1383 * e) / (1 + 1.1383 * b)) ≤ (1 + 1.1383 * e) / (1 + 1.1383 * b) - 1 :=
      Real.log_le_sub_one_of_pos (by positivity)
    rw [Real.log_div (by positivity) hB.ne'] at h1
    have h2 : Real.log (1 + 1.1383 * b) ≤ Real.log u := Real.log_le_log hB hu
    have h3 : (1 + 1.1383 * e) / (1 + 1.1383 * b) - 1 ≤ 2 * c * (e - b) := by
      rw [sub_le_iff_le_add, div_le_iff₀ hB]
      have := mul_le_mul_of_nonneg_right hc' (sub_nonneg.mpr he)
      nlinarith
    linarith
  unfold reducedNuclear
  split
  · have l0 : 0 ≤ Real.log (1 + 1.1383 * e) := Real.log_nonneg (by have : 0 < 1.1383 * e := by positivity
                                                                   linarith)
    refine ⟨?_, by positivity⟩
    have c0 : 0 ≤ c := by
      have := l0.trans hlog
      by_contra hn
      push Not at hn
      nlinarith
    rw [div_le_iff₀ (by positivity)]
    refine hlog.trans ?_
    have : 0 ≤ c * (0.01321 * e ^ (0.21226 : ℝ) + 0.19593 * e ^ (0.5 : ℝ)) := by positivity
    linarith
  · have l0 : 0 ≤ Real.log e := Real.log_nonneg (by linarith)
    refine ⟨?_, by positivity⟩
    rw [div_le_iff₀ (by positivity)]
    have : Real.log e ≤ Real.log (1 + 1.1383 * e) := Real.log_le_log e0 (by norm_num; linarith)
    linarith

theorem hydrogen_nuclear (debug : Bool) (th : ℝ) : ∃ K1 K2 : ℝ, 0 < K1 ∧ K1 ≤ 1264 ∧ 8197 ≤ K2 ∧ K2 ≤ 8198 ∧
    ∀ x, 0 < x → dedx_n debug ((slowProton 0).withT x) (hydrogenGas th) = .ok (K1 * reducedNuclear (K2 * x)) := by
  have hv := fun x hx => nuclear_target_value debug (slowProton 0) ⟨1.00794, 1, 1⟩ (by norm_num [slowProton]) (by norm_num [slowProton])
    (by norm_num) (by norm_num) x hx
  have h1 : (1 : ℝ) ^ (0.23 : ℝ) = 1 := Real.one_rpow _
  have hN : (Avogadro : ℝ) = 6.022140857 := by norm_num [Avogadro]
  dsimp only [slowProton] at hv
  rw [show ((1 : ℤ) : ℝ) = 1 by norm_num, h1, hN] at hv
  refine ⟨_, _, ?_, ?_, ?_, ?_, fun x hx => (componentSum_only (hydrogenGas th) ⟨1.00794, 1, 1⟩ (by norm_num) _).trans (hv x hx)⟩
  all_goals norm_num

/-- The electronic stopping of protons below 25 keV in hydrogen grows as the power 0.25 of the energy. -/
theorem hydrogen_electronic (env : Env ℝ) (th : ℝ) (x0 : ℝ) (h0 : |x0 - 1e-3| ≤ 1e-17) : ∃ e0 : ℝ, 845 ≤ e0 ∧
    ∀ x, x0 ≤ x → x ≤ 0.025 → electronic env ((slowProton 0).withT x) (hydrogenGas th) .default = .ok (e0 * (x / x0) ^ (0.25 : ℝ)) := by
  obtain ⟨s, s1, hs⟩ := hydrogen_25
  obtain ⟨a, b⟩ := abs_le.mp h0
  norm_num at a b s1
  have x0p : 0 < x0 := by linarith
  have e := rpow_root (40 * x0) 1 4 0.25 (by positivity) (by norm_num)
  have u1 : 0.4472 ≤ (40 * x0) ^ (0.25 : ℝ) := by
    refine le_of_pow_le_pow_left₀ (n := 4) (by norm_num) (by positivity) ?_
    rw [e]
    refine le_trans ?_ (pow_le_pow_left₀ (by norm_num) (show (0.0399999 : ℝ) ≤ 40 * x0 by norm_num; linarith) 1)
    norm_num
  refine ⟨602.2140857 * (s * (40 * x0) ^ (0.25 : ℝ)) / 1.00794, ?_, fun x hx hx' => ?_⟩
  · generalize (40 * x0) ^ (0.25 : ℝ) = u at *
    have : 3.165 * 0.4472 ≤ s * u := mul_le_mul (by norm_num; linarith) u1 (by norm_num) (by linarith)
    norm_num at this ⊢; linarith
  · have xp : 0 < x := by linarith
    have ion : (slowProton 0).Ion 1 := ⟨by norm_num [slowProton], by norm_num, by norm_num, by norm_num [slowProton]⟩
    have hp : srim_dedx_e 1 1 x ((Config.default : Config ℝ).low_energy == 1) = .ok (s * (40 * x) ^ (0.25 : ℝ)) := by
      rw [← hs x xp hx']
      simp [srim_dedx_e, Config.default]
    have := (electronic_only env ion (hydrogenGas th) ⟨1.00794, 1, 1⟩ (by norm_num) .default x _ 0 hp).1 (by norm_num at hx' ⊢; linarith)
    refine (show electronic env ((slowProton 0).withT x) (hydrogenGas th) .default = _ from this).trans (congrArg Except.ok ?_)
    have : (40 * x) ^ (0.25 : ℝ) = (40 * x0) ^ (0.25 : ℝ) * (x / x0) ^ (0.25 : ℝ) := by
      rw [← Real.mul_rpow (by positivity) (by positivity)]
      congr 1; field_simp
    rw [this]
    generalize (40 * x0) ^ (0.25 : ℝ) = u
    generalize (x / x0) ^ (0.25 : ℝ) = v
    ring

theorem proton_hydrogen_in (T th : ℝ) : HydrogenIn (slowProton T) (hydrogenGas th) .default where
  computable := ⟨⟨by norm_num [slowProton], by norm_num, by norm_num, by norm_num [slowProton]⟩, by norm_num,
    ⟨by simp [hydrogenGas], by simp [hydrogenGas], by simp [hydrogenGas]; norm_num, by simp [hydrogenGas], by norm_num [hydrogenGas]⟩, by simp [hydrogenGas], Or.inl rfl⟩
  heavy := by norm_num [slowProton]
  light := by
    have : (element_atomic_weight 1 : ℝ) = (Dec.toScalar ⟨100794, 5⟩ : ℝ) := rfl
    rw [this, Dec.toScalar_real]; norm_num [slowProton]
  charge := rfl
  excitation := by simp [TypicalI, hydrogenGas]
  excitation' := by norm_num [hydrogenGas]
  elements := by simp [hydrogenGas]

/-- Protons of 23 to 25 keV in hydrogen: the search for the energy behind the layer returns a negative one. -/
theorem hydrogen_negative (env : Env ℝ) (hj : SmallJunk env.junk) (d : DataPoint ℝ)
    (hd : calculate_DataPoint env (slowProton 0) (hydrogenGas 0) .default = .ok d) (debug : Bool) :
    ∃ s, Spline.new env.junk (energy_table.grid env.calcIndex) d.range = .ok s ∧ ∃ T th R E, 0.023 ≤ T ∧ T ≤ 0.025 ∧ 0 < th ∧
      s.evaluate T = .ok R ∧ th < R ∧ E ≤ -4e-4 ∧ energy_out_spline debug T th s = .ok E := by
  have hX := energy_table_range.2.1
  obtain ⟨e0, e1, he⟩ := hydrogen_electronic env 0 _ hX
  obtain ⟨K1, K2, k1, k2, k3, k4, hK⟩ := hydrogen_nuclear env.debug 0
  obtain ⟨a, b⟩ := abs_le.mp hX
  generalize hx0 : (energy_table : EnergyTable ℝ).val 0 = x0 at *
  norm_num at a b k2 k3 k4 e1
  have x0p : 0 < x0 := by linarith
  have hg := gridRatio_sharp
  norm_num at hg
  have l2 : Real.log 2 ≤ 0.69315 := by have := Real.log_two_lt_d9; norm_num at this ⊢; linarith
  have l1 : Real.log 10.332 ≤ 2.34 := by
    have h : Real.log (10.332 ^ 8) ≤ Real.log (2 ^ 27) := Real.log_le_log (by norm_num) (by norm_num)
    rw [Real.log_pow, Real.log_pow] at h
    norm_num at h l2 ⊢
    linarith
  have l3 : Real.log 19.57 ≤ 3 := by
    rw [Real.log_le_iff_le_exp (by norm_num)]
    have e1 : Real.exp (3 : ℝ) = Real.exp 1 ^ 3 := by rw [← Real.exp_nat_mul]; norm_num
    rw [e1]
    refine le_trans ?_ (pow_le_pow_left₀ (by norm_num) Real.exp_one_gt_d9.le 3)
    norm_num
  refine quarter_law_negative env hj (slowProton 0) 1 (hydrogenGas 0) .default (proton_hydrogen_in 0 0).computable
    (proton_stopping_steady env _ _ _ (proton_hydrogen_in 0 0)) d hd e0 (by linarith) ?_ (fun x => K1 * reducedNuclear (K2 * x)) ?_ ?_ debug
  · rw [hx0]; norm_num [slowProton]; linarith
  · rw [hx0]
    intro x hx hx'
    norm_num at hx'
    have xp : 0 < x := by linarith
    have q0 : 1 ≤ x / x0 := (one_le_div x0p).mpr hx
    have z1 : 1 ≤ (x / x0) ^ (0.25 : ℝ) := Real.one_le_rpow q0 (by norm_num)
    obtain ⟨r1, r2⟩ := reducedNuclear_le 8.1968 10.332 0.1437 (K2 * x) (by norm_num) (by norm_num) (by norm_num at l1 ⊢; linarith) (by norm_num)
      (by norm_num; nlinarith)
    refine ⟨?_, mul_nonneg k1.le r2, ?_, fun h2 => ?_⟩
    · rw [dedx_eq env _ _ _ xp, hK x xp, bind_ok, he x hx (by norm_num; linarith), bind_ok]
      exact congrArg Except.ok (add_comm _ _)
    · have i1 : K1 * reducedNuclear (K2 * x) ≤ 1264 * 0.1437 := mul_le_mul k2 r1 r2 (by norm_num)
      have i2 : 845 * 1 ≤ e0 * (x / x0) ^ (0.25 : ℝ) := mul_le_mul e1 z1 (by norm_num) (by linarith)
      refine i1.trans ?_
      norm_num at i2 ⊢
      linarith
    · obtain ⟨r3, -⟩ := reducedNuclear_le 16.31 19.57 0.0946 (K2 * x) (by norm_num) (by norm_num) (by norm_num at l3 ⊢; linarith) (by norm_num)
        (by norm_num at h2 ⊢; nlinarith)
      have z2 : 1.18 ≤ (x / x0) ^ (0.25 : ℝ) := by
        have e := rpow_root (x / x0) 1 4 0.25 (by positivity) (by norm_num)
        refine le_of_pow_le_pow_left₀ (n := 4) (by norm_num) (by positivity) ?_
        rw [e, pow_one]
        refine le_trans (by norm_num) ((le_div_iff₀ x0p).mpr h2)
      have i1 : K1 * reducedNuclear (K2 * x) ≤ 1264 * 0.0946 := mul_le_mul k2 r3 r2 (by norm_num)
      have i2 : 845 * 1.18 ≤ e0 * (x / x0) ^ (0.25 : ℝ) := mul_le_mul e1 z2 (by norm_num) (by linarith)
      refine i1.trans ?_
      norm_num at i2 ⊢
      linarith
  · intro x hx
    have h := (reducedNuclear_step (K2 * x) gridRatio (by nlinarith) (by linarith) (by norm_num; linarith)).scale K1 (by linarith)
    have e3 : K2 * (gridRatio * x) = gridRatio * (K2 * x) := by ring
    simp only [e3]
    exact ⟨h.up, h.down⟩

end Catima
