import Verif.Lemmas.ProtonSteady

/-!
# Helper lemmas: the proton stopping power over slightly more than one step of the energy table
-/

namespace Catima

theorem log_wide (r : ℝ) (h1 : 1 ≤ r) (h2 : r ≤ 1.0445) : 0 ≤ Real.log r ∧ Real.log r ≤ 0.0436 := by
  refine ⟨Real.log_nonneg h1, ?_⟩
  rw [Real.log_le_iff_le_exp (by linarith)]
  have := Real.quadratic_le_exp_of_nonneg (show (0 : ℝ) ≤ 0.0436 by norm_num)
  norm_num at this h2 ⊢
  linarith

theorem rpow_wide (r a A B : ℝ) (h1 : 1 ≤ r) (h2 : r ≤ 1.0445) (ha : 0 ≤ a) (haA : a ≤ A) (hB : Real.exp (0.0436 * A) ≤ B) :
    r ^ a ≤ B := by
  have hl := log_wide r h1 h2
  refine le_trans ?_ hB
  rw [Real.rpow_def_of_pos (by linarith)]
  exact Real.exp_le_exp.mpr (mul_le_mul hl.2 haA ha (by norm_num))

theorem pseLow_wide (a b c d e r : ℝ) (ha : 0 < a) (hb : 0 ≤ b) (hb' : b ≤ 3.54) (hc : 0 < c) (hd : 0 ≤ d) (hd' : d ≤ 3.54)
    (he : 0 < e) (h1 : 1 ≤ r) (h2 : r ≤ 1.0445) : Step 1.17 1 (pseLow a b c d e) (pseLow a b c d (r * e)) := by
  have hq : Real.exp (0.0436 * 3.54) ≤ 1.17 := by
    have := exp_le_quartic (0.0436 * 3.54) (by norm_num) (by norm_num)
    norm_num at this ⊢; linarith
  exact (((rpow_step r b h1 hb e he).mono (rpow_wide r b 3.54 1.17 h1 h2 hb hb' hq) le_rfl).scale a ha).add
    (((rpow_step r d h1 hd e he).mono (rpow_wide r d 3.54 1.17 h1 h2 hd hd' hq) le_rfl).scale c hc)

/-- The high-energy branch, in terms of bounds `F` of the exponent and `l` of the logarithm. -/
theorem pseHigh_wide (k f g h e r F l : ℝ) (hk : 0 < k) (hf : 0 ≤ f) (hf' : f ≤ F) (hg : 0 < g) (hh : 0 < h)
    (l0 : 0 < l) (hgh : Real.exp (2 * l) ≤ 4 * (g * h)) (he : 0 < e) (h1 : 1 ≤ r) (h2 : r ≤ 1.0445)
    (B a : ℝ) (hB : Real.exp (0.0436 * F) ≤ B) (ha : 0.0436 ≤ a * l) (a0 : 0 ≤ a) (a1 : 1 + a ≤ 1.17) (ab : B * (1 + a) ≤ 1.22) :
    Step 1.17 1.22 (pseHigh k f g h e) (pseHigh k f g h (r * e)) := by
  have hl := log_wide r h1 h2
  have hre : 0 < r * e := by positivity
  have hr2 : 1 ≤ r * r := by nlinarith
  have hP : Step 1 B (k / e ^ f) (k / (r * e) ^ f) := by
    rw [div_eq_mul_inv, div_eq_mul_inv]
    exact ((rpow_step r f h1 hf e he).inv.mono le_rfl (rpow_wide r f F B h1 h2 hf hf' hB)).scale k hk
  have low : ∀ y, 0 < y → l ≤ Real.log (g / y + h * y) := by
    intro y hy
    rw [Real.le_log_iff_exp_le (by positivity)]
    have h3 : g / y * (h * y) = g * h := by field_simp
    have e1 : Real.exp l ^ 2 ≤ 4 * (g * h) := by
      rw [← Real.exp_nat_mul]
      push_cast
      exact hgh
    apply le_of_pow_le_pow_left₀ (n := 2) (by norm_num) (by positivity)
    have : 0 < g / y := by positivity
    have : 0 < h * y := by positivity
    nlinarith [sq_nonneg (g / y - h * y)]
  have w1 : g / (r * e) + h * (r * e) ≤ r * (g / e + h * e) := by
    have : g / (r * e) ≤ r * (g / e) := by
      rw [← mul_div_assoc, div_le_div_iff₀ hre he]
      nlinarith [mul_le_mul_of_nonneg_left hr2 (mul_pos hg he).le]
    nlinarith
  have w2 : g / e + h * e ≤ r * (g / (r * e) + h * (r * e)) := by
    have e1 : r * (g / (r * e)) = g / e := by field_simp
    rw [mul_add, e1]
    nlinarith [mul_le_mul_of_nonneg_left hr2 (mul_pos hh he).le]
  have hw : 0 < g / e + h * e := by positivity
  have hw' : 0 < g / (r * e) + h * (r * e) := by positivity
  have d1 : Real.log (g / (r * e) + h * (r * e)) ≤ Real.log r + Real.log (g / e + h * e) := by
    rw [← Real.log_mul (by linarith) hw.ne']; exact Real.log_le_log hw' w1
  have d2 : Real.log (g / e + h * e) ≤ Real.log r + Real.log (g / (r * e) + h * (r * e)) := by
    rw [← Real.log_mul (by linarith) hw'.ne']; exact Real.log_le_log hw w2
  have hL : Step (1 + a) (1 + a) (Real.log (g / e + h * e)) (Real.log (g / (r * e) + h * (r * e))) :=
    Step.of_diff (l := l) l0 (low e he) (low _ hre) (by linarith) (by linarith) a0 a0
  have B0 : 0 ≤ B := (Real.exp_pos _).le.trans hB
  exact (hP.mul hL).mono (by linarith) ab

/-- What is used of a row besides `pseRowSteady`: a flat fit or a large logarithm. -/
def pseRowFlat (r : List Dec) : Bool :=
  match r with
  | [_, _, _, _, _, f, g, h] => decide (f.rat ≤ 94 / 100 ∨ 24 / 10 ≤ 4 * (g.rat * h.rat))
  | _ => false

set_option maxRecDepth 8000 in
theorem pse_95_flat : ∀ r ∈ pse_95, pseRowFlat r = true := by decide +kernel
set_option maxRecDepth 8000 in
theorem proton_flat : ∀ r ∈ proton_stopping_coef, pseRowFlat r = true := by decide +kernel

theorem pseRow_wide (row : List Dec) (hr : pseRowSteady row = true) (hr' : pseRowFlat row = true) (e r : ℝ) (he : 0 < e) (h1 : 1 ≤ r) (h2 : r ≤ 1.0445) :
    ∃ s s', pseRow (row.map Dec.toScalar) e = .ok s ∧ pseRow (row.map Dec.toScalar) (r * e) = .ok s' ∧ Step 1.17 1.22 s s' := by
  unfold pseRowSteady at hr
  split at hr
  case h_2 => cases hr
  case h_1 a b c d k f g h =>
    simp only [decide_eq_true_eq] at hr
    simp only [pseRowFlat, decide_eq_true_eq] at hr'
    obtain ⟨ha, hb, hb', hc, hd, hd', hk, hf, hf', hg, hh, hgh, hgh1, hh2⟩ := hr
    refine ⟨_, _, rfl, rfl, ?_⟩
    simp only [pow_real, log_real, ← Dec.rat_cast]
    have ha' : (0 : ℝ) < a.rat := by exact_mod_cast ha
    have hc' : (0 : ℝ) < c.rat := by exact_mod_cast hc
    have hk' : (0 : ℝ) < k.rat := by exact_mod_cast hk
    have hg' : (0 : ℝ) < g.rat := by exact_mod_cast hg
    have hh' : (0 : ℝ) < h.rat := by exact_mod_cast hh
    have hb0 : (0 : ℝ) ≤ b.rat := by exact_mod_cast hb
    have hd0 : (0 : ℝ) ≤ d.rat := by exact_mod_cast hd
    have hf0 : (0 : ℝ) ≤ f.rat := by exact_mod_cast hf
    have hb1 : (b.rat : ℝ) ≤ 3.54 := by
      have := (Rat.cast_le (K := ℝ)).mpr hb'
      push_cast at this; norm_num at this ⊢; exact this
    have hd1 : (d.rat : ℝ) ≤ 3.54 := by
      have := (Rat.cast_le (K := ℝ)).mpr hd'
      push_cast at this; norm_num at this ⊢; exact this
    have hf1 : (f.rat : ℝ) ≤ 1.19 := by
      have := (Rat.cast_le (K := ℝ)).mpr hf'
      push_cast at this; norm_num at this ⊢; exact this
    have hG : (1.683 : ℝ) ≤ 4 * (g.rat * h.rat) := by
      have := (Rat.cast_le (K := ℝ)).mpr hgh
      push_cast at this; norm_num at this ⊢; exact this
    have hL := (pseLow_wide a.rat b.rat c.rat d.rat e r ha' hb0 hb1 hc' hd0 hd1 he h1 h2).mono (u' := 1.17) (d' := 1.22) le_rfl (by norm_num)
    refine harmonic_step hL ?_
    rcases hr' with q | q
    · have q : (f.rat : ℝ) ≤ 0.94 := by
        have := (Rat.cast_le (K := ℝ)).mpr q
        push_cast at this; norm_num at this ⊢; exact this
      refine pseHigh_wide k.rat f.rat g.rat h.rat e r 0.94 0.259 hk' hf0 q hg' hh' (by norm_num) (le_trans ?_ hG) he h1 h2 1.0419 0.1684 ?_
        (by norm_num) (by norm_num) (by norm_num) (by norm_num)
      · have := exp_le_quartic (2 * 0.259) (by norm_num) (by norm_num)
        norm_num at this ⊢; linarith
      · have := exp_le_quartic (0.0436 * 0.94) (by norm_num) (by norm_num)
        norm_num at this ⊢; linarith
    · have q : (2.4 : ℝ) ≤ 4 * (g.rat * h.rat) := by
        have := (Rat.cast_le (K := ℝ)).mpr q
        push_cast at this; norm_num at this ⊢; exact this
      refine pseHigh_wide k.rat f.rat g.rat h.rat e r 1.19 0.43 hk' hf0 hf1 hg' hh' (by norm_num) (le_trans ?_ q) he h1 h2 1.054 0.11 ?_
        (by norm_num) (by norm_num) (by norm_num) (by norm_num)
      · have := exp_le_quartic (2 * 0.43) (by norm_num) (by norm_num)
        norm_num at this ⊢; linarith
      · have := exp_le_quartic (0.0436 * 1.19) (by norm_num) (by norm_num)
        norm_num at this ⊢; linarith

theorem pseGen_wide (tab : List (List Dec)) (hl : tab.length = 92) (hr : ∀ r ∈ tab, pseRowSteady r = true) (hr' : ∀ r ∈ tab, pseRowFlat r = true)
    (Z : Int) (hZ : 1 ≤ Z) (x r : ℝ) (hx : 0 < x) (h1 : 1 ≤ r) (h2 : r ≤ 1.0445) (h25 : 25 < 1000 * (r * x)) :
    ∃ s s', pseGen tab Z x = .ok s ∧ pseGen tab Z (r * x) = .ok s' ∧ Step 1.195 1.22 s s' := by
  obtain ⟨h0, h92⟩ := srimIdx_range Z hZ
  obtain ⟨k, hk⟩ := Int.eq_ofNat_of_zero_le h0
  have hk' : k < tab.length := by omega
  have hrow := rd_nat tab k hk'
  have hs := hr _ (List.getElem_mem hk')
  have hs' := hr' _ (List.getElem_mem hk')
  generalize tab[k] = row at hrow hs hs'
  have hval : ∀ y : ℝ, pseGen tab Z y = (do
      let sp ← pseRow (row.map Dec.toScalar) (if 1000 * y ≤ 25 then 25 else 1000 * y)
      return if 1000 * y ≤ 25 then sp * (if Z > 6 then (1000 * y / 25) ^ (0.45 : ℝ) else (1000 * y / 25) ^ (0.25 : ℝ)) else sp) := by
    intro y
    unfold pseGen
    rw [hk]
    simp only [hrow, bind_ok, pow_real]
    have e25 : (25.0 : ℝ) = 25 := by norm_num
    have e1000 : (1000.0 : ℝ) = 1000 := by norm_num
    rw [e25, e1000]
    by_cases h : 1000 * y ≤ 25
    · simp only [if_pos h, if_pos ((le_real _ _).mpr h)]
    · have h' : ¬ Scalar.le (1000 * y) 25 = true := fun hh => h ((le_real _ _).mp hh)
      simp only [if_neg h, if_neg h']
  have hpow : ∀ u, 0 < u → u ≤ 1 → 1 ≤ r * u → ∀ a : ℝ, 0 ≤ a → a ≤ 0.45 → Step 1.021 1 (u ^ a) 1 := by
    intro u hu hu1 hru a ha ha'
    have e1 := rpow_wide r a 0.45 1.021 h1 h2 ha ha' (by
      have := exp_le_quartic (0.0436 * 0.45) (by norm_num) (by norm_num)
      norm_num at this ⊢; linarith)
    have e2 : 1 ≤ r ^ a * u ^ a := by
      rw [← Real.mul_rpow (by linarith) hu.le]; exact Real.one_le_rpow hru ha
    have e3 : u ^ a ≤ 1 := Real.rpow_le_one hu.le hu1 ha
    have := Real.rpow_pos_of_pos hu a
    exact ⟨this, one_pos, by nlinarith, by linarith⟩
  rw [hval, hval]
  rcases le_or_gt (1000 * x) 25 with h' | h'
  · have hr1 : 1 ≤ 1000 * (r * x) / 25 := by rw [le_div_iff₀ (by norm_num)]; linarith
    have hr2 : 1000 * (r * x) / 25 ≤ 1.0445 := by rw [div_le_iff₀ (by norm_num)]; norm_num at h2 ⊢; nlinarith
    obtain ⟨s, s', hs1, hs2, hst⟩ := pseRow_wide row hs hs' 25 (1000 * (r * x) / 25) (by norm_num) hr1 hr2
    rw [div_mul_cancel₀ _ (by norm_num)] at hs2
    rw [if_pos h', if_neg (not_le.mpr h25), hs1, hs2]
    refine ⟨_, _, rfl, rfl, ?_⟩
    rw [if_pos h', if_neg (not_le.mpr h25)]
    have hu : 0 < 1000 * x / 25 := by positivity
    have hu1 : 1000 * x / 25 ≤ 1 := by rw [div_le_one (by norm_num)]; exact h'
    have hru : 1 ≤ r * (1000 * x / 25) := by
      have : r * (1000 * x / 25) = 1000 * (r * x) / 25 := by ring
      rw [this]; exact hr1
    have fin : ∀ a : ℝ, 0 ≤ a → a ≤ 0.45 → Step 1.195 1.22 (s * (1000 * x / 25) ^ a) s' := fun a ha ha' => by
      have := hst.mul (hpow _ hu hu1 hru a ha ha')
      rw [mul_one s'] at this
      exact this.mono (by norm_num) (by norm_num)
    split
    · exact fin 0.45 (by norm_num) le_rfl
    · exact fin 0.25 (by norm_num) (by norm_num)
  · obtain ⟨s, s', hs1, hs2, hst⟩ := pseRow_wide row hs hs' (1000 * x) r (by linarith) h1 h2
    rw [show r * (1000 * x) = 1000 * (r * x) by ring] at hs2
    rw [if_neg (not_le.mpr h'), if_neg (not_le.mpr h25), hs1, hs2]
    refine ⟨_, _, rfl, rfl, ?_⟩
    rw [if_neg (not_le.mpr h'), if_neg (not_le.mpr h25)]; exact hst.mono (by norm_num) le_rfl

/-- The proton stopping of both tables over at most 4.45 % of the energy, ending above 25 keV. -/
theorem proton_wide (b : Bool) (Z : Int) (hZ : 1 ≤ Z) (x r : ℝ) (hx : 0 < x) (h1 : 1 ≤ r) (h2 : r ≤ 1.0445) (h25 : 25 < 1000 * (r * x)) :
    ∃ s s', (if b then p_se Z else p_se85 Z : ℝ → M ℝ) x = .ok s ∧ (if b then p_se Z else p_se85 Z : ℝ → M ℝ) (r * x) = .ok s' ∧
      Step 1.195 1.22 s s' := by
  cases b
  · exact pseGen_wide _ proton_ok.1 proton_steady proton_flat Z hZ x r hx h1 h2 h25
  · exact pseGen_wide _ pse_95_ok.1 pse_95_steady pse_95_flat Z hZ x r hx h1 h2 h25

end Catima
