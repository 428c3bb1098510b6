import Verif.Lemmas.PowerLaw
import Verif.Lemmas.ProtonSteady
import Verif.Props.ProtonRanges

/-!
# Helper lemmas: protons below 25 keV in lead
-/

namespace Catima

/-- A sheet of lead. -/
def leadSheet (th : ℝ) : Material ℝ := ⟨11.34, th, 207.2, 0, [⟨207.2, 82, 1⟩]⟩

def slowProton (T : ℝ) : Projectile ℝ := ⟨1.00794, 1, 1, T⟩

/-- The default configuration with the coefficients of 1995 for the low energies. -/
noncomputable def config95 : Config ℝ := { Config.default with low_energy := 1 }

theorem rpow_root (x : ℝ) (a b : ℕ) (c : ℝ) (hx : 0 < x) (hb : c * b = a) : (x ^ c) ^ b = x ^ a := by
  rw [← Real.rpow_natCast, ← Real.rpow_mul hx.le, hb, Real.rpow_natCast]

theorem lead_row : rd pse_95 (srimIdx 82) = .ok [⟨306995, 5⟩, ⟨405334, 8⟩, ⟨662045, 5⟩, ⟨452822, 6⟩, ⟨338058, 2⟩, ⟨860267, 6⟩, ⟨263856, 2⟩, ⟨153938, 7⟩] := by
  have h := rd_nat pse_95 81 (by rw [pse_95_ok.1]; norm_num)
  have e : pse_95[81]'(by rw [pse_95_ok.1]; norm_num) =
      [⟨306995, 5⟩, ⟨405334, 8⟩, ⟨662045, 5⟩, ⟨452822, 6⟩, ⟨338058, 2⟩, ⟨860267, 6⟩, ⟨263856, 2⟩, ⟨153938, 7⟩] := by decide +kernel
  rw [e] at h
  exact h

theorem pseRow_eight (a b c d k f g h e : ℝ) : pseRow [a, b, c, d, k, f, g, h] e =
    .ok ((a * e ^ b + c * e ^ d) * (k / e ^ f * Real.log (g / e + h * e)) / ((a * e ^ b + c * e ^ d) + (k / e ^ f * Real.log (g / e + h * e)))) := rfl

theorem lead_row_value : pseRow (α := ℝ) (List.map Dec.toScalar [⟨306995, 5⟩, ⟨405334, 8⟩, ⟨662045, 5⟩, ⟨452822, 6⟩, ⟨338058, 2⟩, ⟨860267, 6⟩, ⟨263856, 2⟩, ⟨153938, 7⟩]) 25 =
    .ok ((3.06995 * 25 ^ (0.00405334 : ℝ) + 6.62045 * 25 ^ (0.452822 : ℝ)) * (3380.58 / 25 ^ (0.860267 : ℝ) * Real.log (2638.56 / 25 + 0.0153938 * 25)) /
      ((3.06995 * 25 ^ (0.00405334 : ℝ) + 6.62045 * 25 ^ (0.452822 : ℝ)) + 3380.58 / 25 ^ (0.860267 : ℝ) * Real.log (2638.56 / 25 + 0.0153938 * 25))) := by
  simp only [List.map_cons, List.map_nil]
  rw [pseRow_eight]
  have t : ∀ (m : ℤ) (e : ℕ) (v : ℝ), (m : ℝ) / 10 ^ e = v → (Dec.toScalar ⟨m, e⟩ : ℝ) = v := fun m e v h => by rw [Dec.toScalar_real]; exact h
  rw [t 306995 5 3.06995 (by norm_num), t 405334 8 0.00405334 (by norm_num), t 662045 5 6.62045 (by norm_num), t 452822 6 0.452822 (by norm_num),
    t 338058 2 3380.58 (by norm_num), t 860267 6 0.860267 (by norm_num), t 263856 2 2638.56 (by norm_num), t 153938 7 0.0153938 (by norm_num)]

/-- Proton stopping of lead at 25 keV (10^-15 eV cm2). -/
theorem lead_25 : ∃ s : ℝ, 30.07 ≤ s ∧ s ≤ 31.78 ∧ ∀ x : ℝ, 0 < x → x ≤ 0.025 →
    p_se 82 x = .ok (s * (40 * x) ^ (0.45 : ℝ)) := by
  have hrow := lead_row
  have l1 : (1 : ℝ) ≤ 25 ^ (0.00405334 : ℝ) := Real.one_le_rpow (by norm_num) (by norm_num)
  have l2 : (25 : ℝ) ^ (0.00405334 : ℝ) ≤ 1.02 := by
    have h : (25 : ℝ) ^ (0.00405334 : ℝ) ≤ 25 ^ (0.005 : ℝ) := Real.rpow_le_rpow_of_exponent_le (by norm_num) (by norm_num)
    refine h.trans ?_
    have e := rpow_root 25 1 200 0.005 (by norm_num) (by norm_num)
    refine le_of_pow_le_pow_left₀ (n := 200) (by norm_num) (by norm_num) ?_
    rw [e]; norm_num
  have l3 : (4.256 : ℝ) ≤ 25 ^ (0.452822 : ℝ) := by
    have h : (25 : ℝ) ^ (0.45 : ℝ) ≤ 25 ^ (0.452822 : ℝ) := Real.rpow_le_rpow_of_exponent_le (by norm_num) (by norm_num)
    refine le_trans ?_ h
    have e := rpow_root 25 9 20 0.45 (by norm_num) (by norm_num)
    refine le_of_pow_le_pow_left₀ (n := 20) (by norm_num) (by positivity) ?_
    rw [e]; norm_num
  have l4 : (25 : ℝ) ^ (0.452822 : ℝ) ≤ 4.327 := by
    have h : (25 : ℝ) ^ (0.452822 : ℝ) ≤ 25 ^ (0.455 : ℝ) := Real.rpow_le_rpow_of_exponent_le (by norm_num) (by norm_num)
    refine h.trans ?_
    have e := rpow_root 25 91 200 0.455 (by norm_num) (by norm_num)
    refine le_of_pow_le_pow_left₀ (n := 200) (by norm_num) (by norm_num) ?_
    rw [e]; norm_num
  have l5 : (25 : ℝ) ^ (0.860267 : ℝ) ≤ 16.73 := by
    have h : (25 : ℝ) ^ (0.860267 : ℝ) ≤ 25 ^ (0.875 : ℝ) := Real.rpow_le_rpow_of_exponent_le (by norm_num) (by norm_num)
    refine h.trans ?_
    have e := rpow_root 25 7 8 0.875 (by norm_num) (by norm_num)
    refine le_of_pow_le_pow_left₀ (n := 8) (by norm_num) (by norm_num) ?_
    rw [e]; norm_num
  have l5' : (0 : ℝ) < 25 ^ (0.860267 : ℝ) := by positivity
  have l6 : (4 : ℝ) ≤ Real.log (2638.56 / 25 + 0.0153938 * 25) := by
    rw [Real.le_log_iff_exp_le (by norm_num)]
    have e1 : Real.exp (4 : ℝ) = Real.exp 1 ^ 4 := by rw [← Real.exp_nat_mul]; norm_num
    rw [e1]
    have h := Real.exp_one_lt_d9.le
    have := pow_le_pow_left₀ (Real.exp_pos 1).le h 4
    refine this.trans ?_
    norm_num
  have hval := lead_row_value
  generalize (25 : ℝ) ^ (0.00405334 : ℝ) = u1 at *
  generalize (25 : ℝ) ^ (0.452822 : ℝ) = u2 at *
  generalize (25 : ℝ) ^ (0.860267 : ℝ) = u3 at *
  generalize Real.log (2638.56 / 25 + 0.0153938 * 25) = u4 at *
  generalize hsl : 3.06995 * u1 + 6.62045 * u2 = sl at *
  generalize hsh : 3380.58 / u3 * u4 = sh at *
  have sl1 : 31.24 ≤ sl := by rw [← hsl]; norm_num at l1 l3 ⊢; linarith
  have sl2 : sl ≤ 31.78 := by rw [← hsl]; norm_num at l2 l4 ⊢; linarith
  have sh1 : 808 ≤ sh := by
    rw [← hsh, div_mul_eq_mul_div, le_div_iff₀ l5']
    norm_num at l5 l6 ⊢; linarith
  refine ⟨sl * sh / (sl + sh), ?_, ?_, fun x x0 hx => ?_⟩
  · rw [le_div_iff₀ (by norm_num at *; linarith)]
    norm_num at sl1 sh1 ⊢
    nlinarith
  · rw [div_le_iff₀ (by norm_num at *; linarith)]
    norm_num at sl1 sl2 sh1 ⊢
    nlinarith
  · unfold p_se pseGen
    have c1 : Scalar.le (1000.0 * x) 25.0 = true := by rw [le_real]; norm_num at hx ⊢; linarith
    have e25 : (25.0 : ℝ) = 25 := by norm_num
    simp only [hrow, bind_ok, if_pos c1, pow_real]
    rw [if_pos (by norm_num), e25, hval, bind_ok]
    show Except.ok _ = _
    refine congrArg Except.ok ?_
    rw [show (1000.0 : ℝ) * x / 25 = 40 * x by norm_num; ring]

/-- The factors of the nuclear stopping of protons in lead. -/
theorem lead_z : 2.75 ≤ (82 : ℝ) ^ (0.23 : ℝ) ∧ (82 : ℝ) ^ (0.23 : ℝ) ≤ 2.76 := by
  have e := rpow_root 82 23 100 0.23 (by norm_num) (by norm_num)
  constructor
  · refine le_of_pow_le_pow_left₀ (n := 100) (by norm_num) (by positivity) ?_
    rw [e]; norm_num
  · refine le_of_pow_le_pow_left₀ (n := 100) (by norm_num) (by norm_num) ?_
    rw [e]; norm_num

/-- The nuclear part is at most 4.8 % of a power 0.45 that is large enough at the first point of the table. -/
theorem nuclear_small (K1 K2 e0 x0 x : ℝ) (hx0 : 0 < x0) (hx : x0 ≤ x) (hK1 : 0 < K1) (hK2 : 0 < K2) (he0 : 0 < e0)
    (hx1 : K2 * x ≤ 30) (hw : 0.32 ≤ √(K2 * x0)) (hb : K1 * 0.56915 * √(K2 * x0) ≤ 0.048 * e0 * (√(K2 * x0) + 0.19593)) :
    K1 * reducedNuclear (K2 * x) ≤ 0.048 * (e0 * (x / x0) ^ (0.45 : ℝ)) ∧ 0 ≤ K1 * reducedNuclear (K2 * x) := by
  have x1 : 0 < x := by linarith
  set z := (x / x0) ^ (0.05 : ℝ) with hz
  have q1 : 1 ≤ x / x0 := (one_le_div hx0).mpr hx
  have z1 : 1 ≤ z := Real.one_le_rpow q1 (by norm_num)
  have z9 : (x / x0) ^ (0.45 : ℝ) = z ^ 9 := by
    rw [hz, ← Real.rpow_natCast, ← Real.rpow_mul (by linarith)]; norm_num
  have z10 : √(x / x0) = z ^ 10 := by
    rw [hz, ← Real.rpow_natCast, ← Real.rpow_mul (by linarith), Real.sqrt_eq_rpow]; norm_num
  set w0 := √(K2 * x0) with hw0
  have e1 : √(K2 * x) = w0 * z ^ 10 := by
    rw [← z10, hw0, ← Real.sqrt_mul (by positivity)]
    congr 1; field_simp
  set ε := K2 * x with hε
  have ε0 : 0 < ε := by positivity
  have e2 : ε = (w0 * z ^ 10) ^ 2 := by rw [← e1, Real.sq_sqrt ε0.le]
  have e3 : ε ^ (0.5 : ℝ) = w0 * z ^ 10 := by rw [← e1, Real.sqrt_eq_rpow]; norm_num
  have v0 : 0 < ε ^ (0.21226 : ℝ) := Real.rpow_pos_of_pos ε0 _
  have W0 : 0 < w0 := by norm_num at hw; linarith
  have zp : 0 < z ^ 10 := by positivity
  have bern : 1 + 10 * (z - 1) ≤ z ^ 10 := by
    have := one_add_mul_le_pow (by linarith : -2 ≤ z - 1) 10
    norm_num at this ⊢; linarith
  have red : reducedNuclear ε ≤ 0.56915 * (w0 * z ^ 10) / (w0 * z ^ 10 + 0.19593) ∧ 0 ≤ reducedNuclear ε := by
    unfold reducedNuclear
    rw [if_pos hx1, e3]
    have hl : Real.log (1 + 1.1383 * ε) ≤ 1.1383 * ε := by
      have := Real.log_le_sub_one_of_pos (by positivity : 0 < 1 + 1.1383 * ε)
      linarith
    have hl0 : 0 ≤ Real.log (1 + 1.1383 * ε) := Real.log_nonneg (by have : 0 < 1.1383 * ε := by positivity
                                                                    linarith)
    generalize ε ^ (0.21226 : ℝ) = v at *
    generalize Real.log (1 + 1.1383 * ε) = l at *
    rw [e2] at hl ⊢
    have W : 0 < w0 * z ^ 10 := by positivity
    generalize w0 * z ^ 10 = W1 at *
    constructor
    · rw [div_le_div_iff₀ (by positivity) (by positivity)]
      have h1 : l * (W1 + 0.19593) ≤ 1.1383 * W1 ^ 2 * (W1 + 0.19593) := mul_le_mul_of_nonneg_right hl (by positivity)
      have h2 : 0 ≤ W1 * v := by positivity
      norm_num at h1 ⊢
      nlinarith
    · positivity
  refine ⟨?_, mul_nonneg hK1.le red.2⟩
  rw [z9]
  have h1 := mul_le_mul_of_nonneg_left red.1 hK1.le
  refine h1.trans ?_
  have D : 0 < w0 * z ^ 10 + 0.19593 := by positivity
  rw [← mul_div_assoc, div_le_iff₀ D]
  -- K1 0.56915 w0 z ≤ 0.048 e0 (w0 z^10 + 0.19593)
  have key : K1 * 0.56915 * w0 * z ≤ 0.048 * e0 * (w0 * z ^ 10 + 0.19593) := by
    have k1 : w0 * (1 + 10 * (z - 1)) ≤ w0 * z ^ 10 := mul_le_mul_of_nonneg_left bern W0.le
    have k2 : 0.048 * e0 * (w0 * (1 + 10 * (z - 1)) + 0.19593) ≤ 0.048 * e0 * (w0 * z ^ 10 + 0.19593) :=
      mul_le_mul_of_nonneg_left (by linarith) (by positivity)
    refine le_trans ?_ k2
    have k3 : K1 * 0.56915 * w0 * (z - 1) ≤ 0.048 * e0 * (w0 + 0.19593) * (z - 1) := mul_le_mul_of_nonneg_right hb (by linarith)
    have k4 : 0.048 * e0 * (w0 + 0.19593) * (z - 1) ≤ 0.048 * e0 * (w0 * 10) * (z - 1) := by
      refine mul_le_mul_of_nonneg_right (mul_le_mul_of_nonneg_left ?_ (by positivity)) (by linarith)
      norm_num at hw ⊢; linarith
    have s1 : K1 * 0.56915 * w0 * z = K1 * 0.56915 * w0 + K1 * 0.56915 * w0 * (z - 1) := by ring
    have s2 : 0.048 * e0 * (w0 * (1 + 10 * (z - 1)) + 0.19593) = 0.048 * e0 * (w0 + 0.19593) + 0.048 * e0 * (w0 * 10) * (z - 1) := by ring
    rw [s1, s2]
    linarith
  have zz : 0 < z ^ 9 := by positivity
  have := mul_le_mul_of_nonneg_right key zz.le
  calc K1 * (0.56915 * (w0 * z ^ 10)) = K1 * 0.56915 * w0 * z * z ^ 9 := by ring
    _ ≤ _ := this
    _ = _ := by ring

theorem lead_nuclear (debug : Bool) (th : ℝ) : ∃ K1 K2 : ℝ, 2.59 ≤ K1 ∧ K1 ≤ 2.604 ∧ 105.7 ≤ K2 ∧ K2 ≤ 106.2 ∧
    ∀ x, 0 < x → dedx_n debug ((slowProton 0).withT x) (leadSheet th) = .ok (K1 * reducedNuclear (K2 * x)) := by
  have hv := fun x hx => nuclear_target_value debug (slowProton 0) ⟨207.2, 82, 1⟩ (by norm_num [slowProton]) (by norm_num [slowProton])
    (by norm_num) (by norm_num) x hx
  have hz := lead_z
  have h1 : (1 : ℝ) ^ (0.23 : ℝ) = 1 := Real.one_rpow _
  have hN : (Avogadro : ℝ) = 6.022140857 := by norm_num [Avogadro]
  dsimp only [slowProton] at hv
  rw [show ((82 : ℤ) : ℝ) = 82 by norm_num, h1, hN] at hv
  generalize (82 : ℝ) ^ (0.23 : ℝ) = z at *
  refine ⟨100.0 * 8.4621 * 1 * 82 * 1.00794 * 6.022140857 / ((1.00794 + 207.2) * (1 + z) * 207.2),
    32.53 * 207.2 * 1000.0 * 1.00794 / (1 * 82 * (1.00794 + 207.2) * (1 + z)), ?_, ?_, ?_, ?_, fun x hx => ?_⟩
  · rw [le_div_iff₀ (by nlinarith)]; norm_num at hz ⊢; linarith
  · rw [div_le_iff₀ (by nlinarith)]; norm_num at hz ⊢; linarith
  · rw [le_div_iff₀ (by nlinarith)]; norm_num at hz ⊢; linarith
  · rw [div_le_iff₀ (by nlinarith)]; norm_num at hz ⊢; linarith
  · exact (componentSum_only (leadSheet th) ⟨207.2, 82, 1⟩ (by norm_num) _).trans (hv x hx)

/-- The electronic stopping of protons below 25 keV in lead grows as the power 0.45 of the energy. -/
theorem lead_electronic (env : Env ℝ) (th : ℝ) (x0 : ℝ) (h0 : |x0 - 1e-3| ≤ 1e-17) : ∃ e0 : ℝ, 20.5 ≤ e0 ∧ e0 ≤ 21.72 ∧
    ∀ x, x0 ≤ x → x ≤ 0.025 → electronic env ((slowProton 0).withT x) (leadSheet th) config95 = .ok (e0 * (x / x0) ^ (0.45 : ℝ)) := by
  obtain ⟨s, s1, s2, hs⟩ := lead_25
  obtain ⟨a, b⟩ := abs_le.mp h0
  norm_num at a b s1 s2
  have x0p : 0 < x0 := by linarith
  have e := rpow_root (40 * x0) 9 20 0.45 (by positivity) (by norm_num)
  have u1 : 0.2349 ≤ (40 * x0) ^ (0.45 : ℝ) := by
    refine le_of_pow_le_pow_left₀ (n := 20) (by norm_num) (by positivity) ?_
    rw [e]
    refine le_trans ?_ (pow_le_pow_left₀ (by norm_num) (show (0.0399999 : ℝ) ≤ 40 * x0 by norm_num; linarith) 9)
    norm_num
  have u2 : (40 * x0) ^ (0.45 : ℝ) ≤ 0.235 := by
    refine le_of_pow_le_pow_left₀ (n := 20) (by norm_num) (by norm_num) ?_
    rw [e]
    refine le_trans (pow_le_pow_left₀ (by positivity) (show 40 * x0 ≤ (0.0400001 : ℝ) by norm_num; linarith) 9) ?_
    norm_num
  refine ⟨602.2140857 * (s * (40 * x0) ^ (0.45 : ℝ)) / 207.2, ?_, ?_, fun x hx hx' => ?_⟩
  · generalize (40 * x0) ^ (0.45 : ℝ) = u at *
    have : 30.07 * 0.2349 ≤ s * u := mul_le_mul (by norm_num; linarith) u1 (by norm_num) (by linarith)
    norm_num at this ⊢; linarith
  · generalize (40 * x0) ^ (0.45 : ℝ) = u at *
    have : s * u ≤ 31.78 * 0.235 := mul_le_mul (by norm_num; linarith) u2 (by norm_num at u1; linarith) (by norm_num)
    norm_num at this ⊢; linarith
  · have xp : 0 < x := by linarith
    have ion : (slowProton 0).Ion 1 := ⟨by norm_num [slowProton], by norm_num, by norm_num, by norm_num [slowProton]⟩
    have hp : srim_dedx_e 1 82 x (config95.low_energy == 1) = .ok (s * (40 * x) ^ (0.45 : ℝ)) := by
      rw [← hs x xp hx']
      simp [srim_dedx_e, config95]
    have := (electronic_only env ion (leadSheet th) ⟨207.2, 82, 1⟩ (by norm_num) config95 x _ 0 hp).1 (by norm_num at hx' ⊢; linarith)
    refine (show electronic env ((slowProton 0).withT x) (leadSheet th) config95 = _ from this).trans (congrArg Except.ok ?_)
    have : (40 * x) ^ (0.45 : ℝ) = (40 * x0) ^ (0.45 : ℝ) * (x / x0) ^ (0.45 : ℝ) := by
      rw [← Real.mul_rpow (by positivity) (by positivity)]
      congr 1; field_simp
    rw [this]
    generalize (40 * x0) ^ (0.45 : ℝ) = u
    generalize (x / x0) ^ (0.45 : ℝ) = v
    ring

theorem proton_lead_hydrogen (T th : ℝ) : HydrogenIn (slowProton T) (leadSheet th) config95 where
  computable := ⟨⟨by norm_num [slowProton], by norm_num, by norm_num, by norm_num [slowProton]⟩, by norm_num,
    ⟨by simp [leadSheet], by simp [leadSheet], by simp [leadSheet]; norm_num, by simp [leadSheet], by norm_num [leadSheet]⟩, by simp [leadSheet], Or.inl rfl⟩
  heavy := by norm_num [slowProton]
  light := by
    have : (element_atomic_weight 1 : ℝ) = (Dec.toScalar ⟨100794, 5⟩ : ℝ) := rfl
    rw [this, Dec.toScalar_real]; norm_num [slowProton]
  charge := rfl
  excitation := by simp [TypicalI, leadSheet]
  excitation' := by norm_num [leadSheet]
  elements := by simp [leadSheet]

theorem proton_lead_nonDefault (T th : ℝ) : NonDefault (slowProton T) (leadSheet th) config95 := by
  simp only [NonDefault, Key.eq, Key.default, Projectile.eq, Projectile.default, slowProton]
  simp
  intro h
  norm_num at h

/-- Protons of 23 to 25 keV in lead: the search for the energy behind a sheet ends with 0, although the range exceeds the
thickness of the sheet by at least 2e-5 g/cm2. -/
theorem lead_stops (env : Env ℝ) (hj : SmallJunk env.junk) (d : DataPoint ℝ)
    (hd : calculate_DataPoint env (slowProton 0) (leadSheet 0) config95 = .ok d) (debug : Bool) :
    ∃ s, Spline.new env.junk (energy_table.grid env.calcIndex) d.range = .ok s ∧ ∃ T th R, 0.023 ≤ T ∧ T ≤ 0.025 ∧ 1e-4 ≤ th ∧
      s.evaluate T = .ok R ∧ th + 2e-5 ≤ R ∧ energy_out_spline debug T th s = .ok 0 := by
  have hX := energy_table_range.2.1
  obtain ⟨e0, e1, e2, he⟩ := lead_electronic env 0 _ hX
  obtain ⟨K1, K2, k1, k2, k3, k4, hK⟩ := lead_nuclear env.debug 0
  obtain ⟨a, b⟩ := abs_le.mp hX
  generalize hx0 : (energy_table : EnergyTable ℝ).val 0 = x0 at *
  norm_num at a b k1 k2 k3 k4 e1 e2
  have x0p : 0 < x0 := by linarith
  have w1 : 0.325 ≤ √(K2 * x0) := Real.le_sqrt_of_sq_le (by norm_num; nlinarith)
  have w2 : √(K2 * x0) ≤ 0.326 := Real.sqrt_le_iff.mpr ⟨by norm_num, by norm_num; nlinarith⟩
  have hb : K1 * 0.56915 * √(K2 * x0) ≤ 0.048 * e0 * (√(K2 * x0) + 0.19593) := by
    generalize √(K2 * x0) = w at *
    norm_num at w1 w2
    have q1 : K1 * w ≤ 2.604 * 0.326 := mul_le_mul (by norm_num; linarith) (by norm_num; linarith) (by linarith) (by norm_num)
    have q2 : 20.5 * (0.325 + 0.19593) ≤ e0 * (w + 0.19593) :=
      mul_le_mul (by norm_num; linarith) (by norm_num; linarith) (by norm_num) (by linarith)
    norm_num at q1 q2 ⊢
    linarith
  have hg := gridRatio_sharp
  norm_num at hg
  refine power_law_stops env hj (slowProton 0) 1 (leadSheet 0) config95 (proton_lead_hydrogen 0 0).computable
    (proton_stopping_steady env _ _ _ (proton_lead_hydrogen 0 0)) d hd e0 (by linarith) ?_ (fun x => K1 * reducedNuclear (K2 * x)) ?_ ?_ debug
  · rw [hx0]; norm_num [slowProton]; linarith
  · rw [hx0]
    intro x hx hx'
    norm_num at hx'
    have xp : 0 < x := by linarith
    have hn := nuclear_small K1 K2 e0 x0 x x0p hx (by linarith) (by linarith) (by linarith) (by nlinarith) (by norm_num at w1 ⊢; linarith) hb
    refine ⟨?_, hn.2, hn.1⟩
    rw [dedx_eq env _ _ _ xp, hK x xp, bind_ok, he x hx (by norm_num; linarith), bind_ok]
    exact congrArg Except.ok (add_comm _ _)
  · intro x hx
    have h := (reducedNuclear_step (K2 * x) gridRatio (by nlinarith) (by linarith) (by norm_num; linarith)).scale K1 (by linarith)
    have e3 : K2 * (gridRatio * x) = gridRatio * (K2 * x) := by ring
    simp only [e3]
    exact ⟨h.up, h.down⟩

end Catima
