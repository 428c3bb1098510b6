import Verif.Model.Calculations
import Verif.Lemmas.Basic
import Verif.Lemmas.Quadrature
import Verif.Spec.Stopping
import Mathlib.Tactic.Linarith
import Mathlib.Tactic.FieldSimp

/-!
# Positivity of the low-energy stopping model
-/

namespace Catima

theorem Dec.toScalar_pos (d : Dec) (h : 0 < d.m) : (0 : ℝ) < d.toScalar := by
  rw [Dec.toScalar_real]
  have : (0 : ℝ) < d.m := by exact_mod_cast h
  positivity

theorem rdDec_get (xs : List Dec) (i : Int) (h0 : 0 ≤ i) (h1 : i < xs.length) :
    ∃ d ∈ xs, rdDec (α := ℝ) xs i = .ok d.toScalar := by
  obtain ⟨k, rfl⟩ := Int.eq_ofNat_of_zero_le h0
  have hk : k < xs.length := by exact_mod_cast h1
  refine ⟨xs[k], List.getElem_mem hk, ?_⟩
  unfold rdDec
  have := rd_nat xs k hk
  rw [this]
  rfl

/-- The conditions on a row of eight proton coefficients that make the fit positive. -/
def pseRowOk (r : List Dec) : Bool :=
  match r with
  | [a, b, c, d, e, f, g, h] =>
    decide (0 < a.m ∧ 0 < b.m ∧ 0 < c.m ∧ 0 < d.m ∧ 0 < e.m ∧ 0 < f.m ∧ 0 < g.m ∧ 0 < h.m ∧
      (10 : Int) ^ (g.e + h.e) < 4 * (g.m * h.m))
  | _ => false

set_option maxRecDepth 8000 in
theorem pse_95_ok : pse_95.length = 92 ∧ ∀ r ∈ pse_95, pseRowOk r = true := by decide +kernel
set_option maxRecDepth 8000 in
theorem proton_ok : proton_stopping_coef.length = 92 ∧
    ∀ r ∈ proton_stopping_coef, pseRowOk r = true := by decide +kernel
set_option maxRecDepth 8000 in
theorem vfermi_ok : atima_vfermi.length = 92 ∧ ∀ d ∈ atima_vfermi, 0 < d.m := by decide +kernel
set_option maxRecDepth 8000 in
theorem lambda_ok : atima_lambda_screening.length = 92 ∧ ∀ d ∈ atima_lambda_screening, 0 < d.m := by
  decide +kernel

/-- The logarithm in the high-energy part of the proton fit is positive at every energy. -/
theorem log_pos_of_product (g h e : ℝ) (hg : 0 < g) (hh : 0 < h) (he : 0 < e) (hp : 1 < 4 * (g * h)) :
    0 < Real.log (g / e + h * e) := by
  apply Real.log_pos
  have h1 : 0 < g / e := by positivity
  have h2 : 0 < h * e := by positivity
  have h3 : g / e * (h * e) = g * h := by field_simp
  nlinarith [sq_nonneg (g / e - h * e)]

theorem pseRow_pos (r : List Dec) (hr : pseRowOk r = true) (e : ℝ) (he : 0 < e) :
    ∃ s, pseRow (r.map Dec.toScalar) e = .ok s ∧ 0 < s := by
  unfold pseRowOk at hr
  split at hr
  case h_2 => cases hr
  case h_1 a b c d e' f g h =>
    simp only [decide_eq_true_eq] at hr
    obtain ⟨ha, -, hc, -, he', -, hg, hh, hgh⟩ := hr
    have ha := a.toScalar_pos ha
    have hc := c.toScalar_pos hc
    have he' := e'.toScalar_pos he'
    have hg' := g.toScalar_pos hg
    have hh' := h.toScalar_pos hh
    have hp : (1 : ℝ) < 4 * (g.toScalar * h.toScalar) := by
      rw [Dec.toScalar_real, Dec.toScalar_real, div_mul_div_comm, ← pow_add, ← mul_div_assoc,
        lt_div_iff₀ (by positivity), one_mul]
      exact_mod_cast hgh
    refine ⟨_, rfl, ?_⟩
    simp only [pow_real, log_real]
    have hl := log_pos_of_product _ _ e hg' hh' he hp
    generalize Real.log _ = L at hl ⊢
    positivity

theorem srimIdx_range (Z : Int) (hZ : 1 ≤ Z) : 0 ≤ srimIdx Z ∧ srimIdx Z < 92 := by
  unfold srimIdx
  split <;> omega

theorem pseGen_pos (tab : List (List Dec)) (hl : tab.length = 92)
    (hr : ∀ r ∈ tab, pseRowOk r = true) (Z : Int) (hZ : 1 ≤ Z) (e : ℝ) (he : 0 < e) :
    ∃ s, pseGen tab Z e = .ok s ∧ 0 < s := by
  obtain ⟨h0, h1⟩ := srimIdx_range Z hZ
  obtain ⟨k, hk⟩ := Int.eq_ofNat_of_zero_le h0
  have hk' : k < tab.length := by omega
  have hrow := rd_nat tab k hk'
  unfold pseGen
  rw [hk, hrow]
  have he0 : (0 : ℝ) < 1000.0 * e := by norm_num; linarith
  generalize (1000.0 * e : ℝ) = e0 at he0
  have hee : (0 : ℝ) < (if Scalar.le e0 25.0 then 25.0 else e0) := by
    split
    · norm_num
    · exact he0
  obtain ⟨s, hs, hs0⟩ := pseRow_pos _ (hr _ (List.getElem_mem hk')) _ hee
  simp only [bind_ok, hs]
  refine ⟨_, rfl, ?_⟩
  have hq : (0 : ℝ) < e0 / 25.0 := by
    apply div_pos he0; norm_num
  simp only [pow_real]
  split
  · apply mul_pos hs0
    split <;> exact Real.rpow_pos_of_pos hq _
  · exact hs0

/-- The helium polynomial is positive for every non-negative logarithm of the energy. -/
theorem heliumPoly_pos (b : ℝ) (hb : 0 ≤ b) : 0 < (0.2865 : ℝ) +
    b * (0.1266 + b * (-0.001429 + b * (0.02402 + b * (-0.01135 + b * 0.001475)))) := by
  norm_num
  have h1 : (0.002 : ℝ) < 0.02402 + b * (-0.01135 + b * 0.001475) := by
    norm_num
    nlinarith [sq_nonneg (b - 3.8475)]
  have h2 : (0 : ℝ) ≤ b ^ 3 * (0.02402 + b * (-0.01135 + b * 0.001475) - 0.002) := by
    apply mul_nonneg (by positivity); linarith
  have h3 : (0 : ℝ) ≤ b * (0.1266 - 0.001429 * b + 0.002 * b ^ 2) := by
    apply mul_nonneg hb
    nlinarith [sq_nonneg (b - 0.35)]
  norm_num at h2 h3
  nlinarith

theorem smin_real (a b : ℝ) : smin a b = min a b := by
  unfold smin
  rcases lt_or_ge b a with h | h
  · rw [if_pos (by simpa using h), min_eq_right h.le]
  · rw [if_neg (by simpa using h), min_eq_left h]

theorem smax_real (a b : ℝ) : smax a b = max a b := by
  unfold smax
  rcases lt_or_ge a b with h | h
  · rw [if_pos (by simpa using h), max_eq_right h.le]
  · rw [if_neg (by simpa using h), max_eq_left h]

theorem srimHelium_pos (fp : ℝ → M ℝ) (hfp : ∀ e, 0 < e → ∃ s, fp e = .ok s ∧ 0 < s) (tZ : Int)
    (htZ : 1 ≤ tZ) (e : ℝ) (he : 0 < e) : ∃ s, srimHelium fp tZ e = .ok s ∧ 0 < s := by
  obtain ⟨s, hs, hs0⟩ := hfp e he
  unfold srimHelium
  simp only [hs, bind_ok]
  refine ⟨_, rfl, ?_⟩
  simp only [smin_real, smax_real, exp_real, log_real, sqrt_real, ofInt_real]
  have he1 : (1 : ℝ) ≤ (if Scalar.le (e * 1000.0) 1.0 then 1.0 else e * 1000.0) := by
    split
    · norm_num
    · rename_i h
      simp only [Bool.not_eq_true, le_real_false] at h
      norm_num at h ⊢
      linarith
  generalize (if Scalar.le (e * 1000.0) 1.0 then (1.0 : ℝ) else e * 1000.0) = e1 at he1
  have hp := heliumPoly_pos (Real.log e1) (Real.log_nonneg he1)
  generalize (0.2865 : ℝ) + Real.log e1 * (0.1266 + Real.log e1 * (-0.001429 + Real.log e1 *
    (0.02402 + Real.log e1 * (-0.01135 + Real.log e1 * 0.001475)))) = a at hp ⊢
  have h1 : 0 < (1.0 : ℝ) - Real.exp (-min 30.0 a) := by
    have : Real.exp (-min (30.0 : ℝ) a) < 1 := by
      rw [Real.exp_lt_one_iff]
      have : (0 : ℝ) < min 30.0 a := lt_min (by norm_num) hp
      linarith
    norm_num
    linarith
  have htz : (0 : ℝ) < tZ := by exact_mod_cast (by omega : 0 < tZ)
  have h2 : 0 < (1.0 : ℝ) + (0.007 + 0.00005 * (tZ : ℝ)) *
      Real.exp (-(7.6 - max 0.0 (Real.log e1)) * (7.6 - max 0.0 (Real.log e1))) := by
    have := Real.exp_pos (-(7.6 - max 0.0 (Real.log e1)) * (7.6 - max 0.0 (Real.log e1)))
    positivity
  generalize (1.0 : ℝ) - Real.exp (-min 30.0 a) = x at h1 ⊢
  generalize (1.0 : ℝ) + (0.007 + 0.00005 * (tZ : ℝ)) *
      Real.exp (-(7.6 - max 0.0 (Real.log e1)) * (7.6 - max 0.0 (Real.log e1))) = y at h2 ⊢
  have h4 : (0 : ℝ) < s * (x * (y * y)) * 4.0 := by positivity
  split
  · have : 0 < Real.sqrt e1 := Real.sqrt_pos.mpr (by linarith)
    positivity
  · exact h4

theorem hiQ_range (yr : ℝ) : 0 ≤ hiQ yr ∧ hiQ yr ≤ 1 := by
  unfold hiQ
  simp only [smin_real, smax_real]
  constructor
  · apply le_min
    · norm_num
    · have := le_max_left (0.0 : ℝ) (1.0 - Scalar.exp (-(min (-0.803 * Scalar.pow yr 0.3 +
        1.3167 * Scalar.pow yr 0.6 + 0.38157 * yr + 0.008983 * yr * yr) 50.0)))
      norm_num at this ⊢
  · refine (min_le_left _ _).trans ?_
    norm_num

/-- The screening part of the charge fraction is positive. -/
theorem zeta_pos (q l vf : ℝ) (hq0 : 0 ≤ q) (hq1 : q ≤ 1) (hv : 0 < vf) (hl : q = 0 → 0 < l) :
    0 < q + (1.0 / (2.0 * (vf * vf))) * (1.0 - q) * Real.log (1 + 4.0 * l * vf / 1.919 *
      (4.0 * l * vf / 1.919)) := by
  have hw : (0 : ℝ) < 1.0 / (2.0 * (vf * vf)) := by positivity
  have h1q : (0 : ℝ) ≤ 1.0 - q := by norm_num; linarith
  have hsq := mul_self_nonneg (4.0 * l * vf / 1.919)
  have hlog : 0 ≤ Real.log (1 + 4.0 * l * vf / 1.919 * (4.0 * l * vf / 1.919)) :=
    Real.log_nonneg (by linarith)
  rcases hq0.eq_or_lt with h | h
  · subst h
    have hl := hl rfl
    have : 0 < Real.log (1 + 4.0 * l * vf / 1.919 * (4.0 * l * vf / 1.919)) := by
      apply Real.log_pos
      have : 0 < 4.0 * l * vf / 1.919 := by positivity
      nlinarith
    have h10 : (0 : ℝ) < 1.0 - 0 := by norm_num
    have := mul_pos (mul_pos hw h10) this
    linarith
  · have := mul_nonneg (mul_nonneg hw.le h1q) hlog
    linarith

theorem srimHeavy_pos (fp : ℝ → M ℝ) (hfp : ∀ e, 0 < e → ∃ s, fp e = .ok s ∧ 0 < s) (pZ tZ : Int)
    (hpZ : 1 ≤ pZ) (htZ : 1 ≤ tZ) (e : ℝ) (he : 0 < e) :
    ∃ s, srimHeavy fp pZ tZ e = .ok s ∧ 0 < s := by
  obtain ⟨v0, v1⟩ := srimIdx_range tZ htZ
  obtain ⟨l0, l1⟩ := srimIdx_range pZ hpZ
  obtain ⟨dv, hdv, hv⟩ := rdDec_get atima_vfermi _ v0 (by rw [vfermi_ok.1]; exact_mod_cast v1)
  obtain ⟨dl, hdl, hl⟩ := rdDec_get atima_lambda_screening _ l0
    (by rw [lambda_ok.1]; exact_mod_cast l1)
  have hv0 := dv.toScalar_pos (vfermi_ok.2 _ hdv)
  have hl0 := dl.toScalar_pos (lambda_ok.2 _ hdl)
  unfold srimHeavy
  simp only [hv, hl, bind_ok]
  generalize (dv.toScalar : ℝ) = vf at hv0 ⊢
  generalize (dl.toScalar : ℝ) = lam at hl0 ⊢
  have hpz : (0 : ℝ) < (pZ : ℝ) := by exact_mod_cast (by omega : 0 < pZ)
  have htz : (0 : ℝ) < (tZ : ℝ) := by exact_mod_cast (by omega : 0 < tZ)
  simp only [smin_real, smax_real, exp_real, log_real, sqrt_real, ofInt_real, pow_real, log1p_real,
    Int.cast_mul]
  have hi : (0 : ℝ) < 1.0 / (pZ : ℝ) ^ ((1.0 : ℝ) / 3.0) := by
    have := Real.rpow_pos_of_pos hpz ((1.0 : ℝ) / 3.0)
    positivity
  generalize (1.0 : ℝ) / (pZ : ℝ) ^ ((1.0 : ℝ) / 3.0) = iz at hi ⊢
  generalize hvr : (if Scalar.le 1.0 (√(e * 1000.0 / 25.0) / vf) = true then
      √(e * 1000.0 / 25.0) / vf * vf * (1.0 + 0.2 / (√(e * 1000.0 / 25.0) / vf * (√(e * 1000.0 / 25.0) / vf)))
    else
      3.0 * vf / 4.0 *
        (1.0 + √(e * 1000.0 / 25.0) / vf * (√(e * 1000.0 / 25.0) / vf) *
          (2.0 / 3.0 - √(e * 1000.0 / 25.0) / vf * (√(e * 1000.0 / 25.0) / vf) / 15.0))) = vr
  generalize max (max (0.130 : ℝ) (vr * (iz * iz))) (1.0 * (iz * iz)) = yr
  obtain ⟨hq0, hq1⟩ := hiQ_range yr
  generalize hq : hiQ yr = q at hq0 hq1 ⊢
  have hll : q = 0 → 0 < max (hiL1 (pZ : ℝ) q iz)
      ((0.8 - q * min 1.2 (0.6 + (pZ : ℝ) / 30.0)) * iz * lam) := by
    intro h0
    apply lt_max_of_lt_right
    rw [h0]
    norm_num
    positivity
  generalize max (hiL1 (pZ : ℝ) q iz) ((0.8 - q * min 1.2 (0.6 + (pZ : ℝ) / 30.0)) * iz * lam) = l
    at hll ⊢
  have hz := zeta_pos q l vf hq0 hq1 hv0 hll
  generalize q + (1.0 / (2.0 * (vf * vf))) * (1.0 - q) * Real.log (1 + 4.0 * l * vf / 1.919 *
      (4.0 * l * vf / 1.919)) = zeta at hz ⊢
  generalize (7.6 : ℝ) - max 0.0 (Real.log (e * 1000.0)) = a
  have hfac : (0 : ℝ) < 1.0 + 1.0 / ((pZ : ℝ) * (pZ : ℝ)) * (0.18 + 0.0015 * (tZ : ℝ)) *
      Real.exp (-a * a) := by
    have := Real.exp_pos (-a * a)
    positivity
  have hc1 := mul_pos (mul_pos hz hfac) hpz
  generalize zeta * (1.0 + 1.0 / ((pZ : ℝ) * (pZ : ℝ)) * (0.18 + 0.0015 * (tZ : ℝ)) *
      Real.exp (-a * a)) * (pZ : ℝ) = c1 at hc1 ⊢
  split
  · have hvm : (0 : ℝ) < max 1.0 (0.130 / (iz * iz)) := lt_max_of_lt_left (by norm_num)
    generalize max (1.0 : ℝ) (0.130 / (iz * iz)) = vm at hvm ⊢
    have hw : (0 : ℝ) < 0.5 * (vm + √(max 0.0 (vm * vm - 0.8 * vf * vf))) := by
      have := Real.sqrt_nonneg (max 0.0 (vm * vm - 0.8 * vf * vf))
      positivity
    generalize (0.5 : ℝ) * (vm + √(max 0.0 (vm * vm - 0.8 * vf * vf))) = w at hw ⊢
    obtain ⟨s, hs, hs0⟩ := hfp (25.0 * w * w * 0.001) (by positivity)
    simp only [hs, bind_ok]
    refine ⟨_, rfl, ?_⟩
    have hb : (0 : ℝ) < e * 1000.0 / (25.0 * w * w) := by positivity
    have := Real.rpow_pos_of_pos hb (if tZ = 6 ∨ (tZ = 14 ∨ tZ = 32) ∧ pZ ≤ 19 then 0.35 else 0.5)
    positivity
  · obtain ⟨s, hs, hs0⟩ := hfp e he
    simp only [hs, bind_ok]
    refine ⟨_, rfl, ?_⟩
    have := Real.rpow_pos_of_pos hc1 2.0
    positivity

theorem srim_pos (pZ tZ : Int) (hpZ : 1 ≤ pZ) (htZ : 1 ≤ tZ) (e : ℝ) (he : 0 < e) (b : Bool) :
    ∃ s, srim_dedx_e pZ tZ e b = .ok s ∧ 0 < s := by
  have hfp : ∀ e : ℝ, 0 < e → ∃ s, (if b then p_se tZ else p_se85 tZ : ℝ → M ℝ) e = .ok s ∧ 0 < s := by
    intro e he
    cases b
    · exact pseGen_pos _ proton_ok.1 proton_ok.2 tZ htZ e he
    · exact pseGen_pos _ pse_95_ok.1 pse_95_ok.2 tZ htZ e he
  unfold srim_dedx_e
  dsimp only
  split
  · exact hfp e he
  split
  · exact srimHelium_pos _ hfp tZ htZ e he
  · exact srimHeavy_pos _ hfp pZ tZ hpZ htZ e he

end Catima
