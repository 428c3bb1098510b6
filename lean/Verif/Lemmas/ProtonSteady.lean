import Verif.Lemmas.Steady
import Verif.Lemmas.Srim
import Verif.Lemmas.BetheBounds

/-!
# Helper lemmas: small steps of the nuclear and the proton stopping
-/

namespace Catima

/-! ## Nuclear stopping -/

/-- The nuclear stopping of one component in terms of the reduced energy. -/
theorem nuclear_target_value (debug : Bool) (p : Projectile ℝ) (t : Target ℝ) (hZ : 0 < p.Z) (hA : 0 < p.A) (tZ : 1 ≤ t.Z)
    (tA : 0 < t.A) (y : ℝ) (hy : 0 < y) :
    dedx_n_target debug (p.withT y) t = .ok ((100.0 * 8.4621 * p.Z * t.Z * p.A * Avogadro /
      ((p.A + t.A) * (p.Z ^ (0.23 : ℝ) + (t.Z : ℝ) ^ (0.23 : ℝ)) * t.A)) *
      reducedNuclear ((32.53 * t.A * 1000.0 * p.A / (p.Z * t.Z * (p.A + t.A) * (p.Z ^ (0.23 : ℝ) + (t.Z : ℝ) ^ (0.23 : ℝ)))) * y)) := by
  have htz : (0 : ℝ) < t.Z := by exact_mod_cast (by omega : 0 < t.Z)
  have p1 := Real.rpow_pos_of_pos hZ 0.23
  have p2 := Real.rpow_pos_of_pos htz 0.23
  have he : 0 < (32.53 * t.A * 1000.0 * p.A / (p.Z * t.Z * (p.A + t.A) * (p.Z ^ (0.23 : ℝ) + (t.Z : ℝ) ^ (0.23 : ℝ)))) * y := by
    positivity
  have ee : 32.53 * t.A * 1000.0 * y * p.A / (p.Z * t.Z * (p.A + t.A) * (p.Z ^ (0.23 : ℝ) + (t.Z : ℝ) ^ (0.23 : ℝ))) =
      (32.53 * t.A * 1000.0 * p.A / (p.Z * t.Z * (p.A + t.A) * (p.Z ^ (0.23 : ℝ) + (t.Z : ℝ) ^ (0.23 : ℝ)))) * y := by
    generalize (32.53 : ℝ) = k1
    generalize (1000.0 : ℝ) = k2
    generalize p.Z ^ (0.23 : ℝ) = k3
    generalize (t.Z : ℝ) ^ (0.23 : ℝ) = k4
    ring
  unfold dedx_n_target
  dsimp only [Projectile.withT]
  simp only [pow_real, ofInt_real, log1p_real, log_real]
  rw [ee]
  generalize (32.53 * t.A * 1000.0 * p.A / (p.Z * t.Z * (p.A + t.A) * (p.Z ^ (0.23 : ℝ) + (t.Z : ℝ) ^ (0.23 : ℝ)))) * y = ε at he
  rw [if_neg (by rw [le_real]; norm_num; exact he), cassert_true _ _ (by rw [lt_real]; norm_num; exact hA),
    bind_ok, cassert_true _ _ (by rw [lt_real]; norm_num; exact he), bind_ok]
  refine congrArg Except.ok ?_
  unfold reducedNuclear
  have e2 : (if Scalar.le ε 30.0 = true then Real.log (1 + 1.1383 * ε) /
      (2.0 * (ε + 0.01321 * ε ^ (0.21226 : ℝ) + 0.19593 * ε ^ (0.5 : ℝ))) else Real.log ε / (2.0 * ε)) =
      if ε ≤ 30 then Real.log (1 + 1.1383 * ε) / (2 * (ε + 0.01321 * ε ^ (0.21226 : ℝ) + 0.19593 * ε ^ (0.5 : ℝ)))
      else Real.log ε / (2 * ε) := by
    rw [show (2.0 : ℝ) = 2 by norm_num]
    by_cases h : ε ≤ 30
    · rw [if_pos (by rw [le_real]; norm_num; exact h), if_pos h]
    · rw [if_neg (by rw [le_real]; norm_num; exact lt_of_not_ge h), if_neg h]
  rw [e2]
  generalize (if ε ≤ 30 then _ else _ : ℝ) = sn
  generalize (100.0 : ℝ) = k1
  generalize (8.4621 : ℝ) = k2
  generalize p.Z ^ (0.23 : ℝ) = k3
  generalize (t.Z : ℝ) ^ (0.23 : ℝ) = k4
  ring

theorem nuclear_target_step (debug : Bool) (p : Projectile ℝ) (t : Target ℝ) (hZ : 0 < p.Z) (hA : 0 < p.A) (tZ : 1 ≤ t.Z)
    (tA : 0 < t.A) (x r : ℝ) (hx : 0 < x) (h1 : 1 ≤ r) (h2 : r ≤ 1.0393) :
    ∃ v v', dedx_n_target debug (p.withT x) t = .ok v ∧ dedx_n_target debug (p.withT (r * x)) t = .ok v' ∧ Step 1.2 1.2 v v' := by
  have htz : (0 : ℝ) < t.Z := by exact_mod_cast (by omega : 0 < t.Z)
  have p1 := Real.rpow_pos_of_pos hZ 0.23
  have p2 := Real.rpow_pos_of_pos htz 0.23
  have hN : (0 : ℝ) < Avogadro := by norm_num [Avogadro]
  have key := nuclear_target_value debug p t hZ hA tZ tA
  refine ⟨_, _, key x hx, key (r * x) (by positivity), ?_⟩
  have e3 : ∀ k : ℝ, k * (r * x) = r * (k * x) := fun k => by ring
  rw [e3]
  exact (reducedNuclear_step _ r (by positivity) h1 h2).scale _ (by positivity)

theorem nuclear_step (debug : Bool) (p : Projectile ℝ) (hZ : 0 < p.Z) (hA : 0 < p.A) (m : Material ℝ) (hm : m.Sound)
    (x r : ℝ) (hx : 0 < x) (h1 : 1 ≤ r) (h2 : r ≤ 1.0393) :
    ∃ v v', dedx_n debug (p.withT x) m = .ok v ∧ dedx_n debug (p.withT (r * x)) m = .ok v' ∧ Step 1.2 1.2 v v' := by
  choose! g g' h using fun t (ht : t ∈ m.atoms) => nuclear_target_step debug p t hZ hA (hm.Z t ht) (hm.A t ht) x r hx h1 h2
  exact ⟨_, _, componentSum_ok m _ g fun t ht => (h t ht).1, componentSum_ok m _ g' fun t ht => (h t ht).2.1,
    Step.sum _ _ _ _ hm.nonempty (m.wfrac_pos hm) fun t ht => (h t ht).2.2⟩

/-! ## Proton stopping -/

/-- What is needed of a row of eight proton coefficients. -/
def pseRowSteady (r : List Dec) : Bool :=
  match r with
  | [a, b, c, d, e, f, g, h] =>
    decide (0 < a.rat ∧ 0 ≤ b.rat ∧ b.rat ≤ 354 / 100 ∧ 0 < c.rat ∧ 0 ≤ d.rat ∧ d.rat ≤ 354 / 100 ∧ 0 < e.rat ∧ 0 ≤ f.rat ∧
      f.rat ≤ 119 / 100 ∧ 0 < g.rat ∧ 0 < h.rat ∧ 1683 / 1000 ≤ 4 * (g.rat * h.rat) ∧ g.rat ≤ 1000000 * h.rat ∧
      55 ≤ 10000 * h.rat)
  | _ => false

set_option maxRecDepth 8000 in
theorem pse_95_steady : ∀ r ∈ pse_95, pseRowSteady r = true := by decide +kernel
set_option maxRecDepth 8000 in
theorem proton_steady : ∀ r ∈ proton_stopping_coef, pseRowSteady r = true := by decide +kernel

theorem rpow_small (r a A B : ℝ) (h1 : 1 ≤ r) (h2 : r ≤ 1.0393) (ha : 0 ≤ a) (haA : a ≤ A) (hB : Real.exp (0.0386 * A) ≤ B) :
    r ^ a ≤ B := by
  have hl := log_step_le r h1 h2
  refine le_trans ?_ hB
  rw [Real.rpow_def_of_pos (by linarith)]
  exact Real.exp_le_exp.mpr (mul_le_mul hl.2 haA ha (by norm_num))

theorem exp_le_quartic (x : ℝ) (h0 : 0 ≤ x) (h1 : x ≤ 1) : Real.exp x ≤ 1 + x + x ^ 2 / 2 + x ^ 3 / 6 + x ^ 4 / 16 := by
  have h := Real.exp_bound' h0 h1 (n := 4) (by norm_num)
  simp only [Finset.sum_range_succ, Finset.sum_range_zero, Nat.factorial] at h
  norm_num at h
  have : 0 ≤ x ^ 4 := by positivity
  linarith

/-- The low-energy branch of the proton fit. -/
noncomputable def pseLow (a b c d e : ℝ) : ℝ := a * e ^ b + c * e ^ d
/-- The high-energy branch of the proton fit. -/
noncomputable def pseHigh (k f g h e : ℝ) : ℝ := k / e ^ f * Real.log (g / e + h * e)

theorem pseLow_step (a b c d e r : ℝ) (ha : 0 < a) (hb : 0 ≤ b) (hb' : b ≤ 3.54) (hc : 0 < c) (hd : 0 ≤ d) (hd' : d ≤ 3.54)
    (he : 0 < e) (h1 : 1 ≤ r) (h2 : r ≤ 1.0393) : Step 1.15 1 (pseLow a b c d e) (pseLow a b c d (r * e)) := by
  have hq : Real.exp (0.0386 * 3.54) ≤ 1.15 := by
    have := exp_le_quartic (0.0386 * 3.54) (by norm_num) (by norm_num)
    norm_num at this ⊢; linarith
  exact (((rpow_step r b h1 hb e he).mono (rpow_small r b 3.54 1.15 h1 h2 hb hb' hq) le_rfl).scale a ha).add
    (((rpow_step r d h1 hd e he).mono (rpow_small r d 3.54 1.15 h1 h2 hd hd' hq) le_rfl).scale c hc)

theorem pseHigh_step (k f g h e r : ℝ) (hk : 0 < k) (hf : 0 ≤ f) (hf' : f ≤ 1.19) (hg : 0 < g) (hh : 0 < h)
    (hgh : 1.683 ≤ 4 * (g * h)) (he : 0 < e) (h1 : 1 ≤ r) (h2 : r ≤ 1.0393) :
    Step 1.15 1.21 (pseHigh k f g h e) (pseHigh k f g h (r * e)) ∧
    (g ≤ 1000000 * h → 55 ≤ 10000 * h → 10000 ≤ e → Step 1.01 1.0475 (pseHigh k f g h e) (pseHigh k f g h (r * e))) := by
  have hl := log_step_le r h1 h2
  have hq : Real.exp (0.0386 * 1.19) ≤ 1.0475 := by
    have := exp_le_quartic (0.0386 * 1.19) (by norm_num) (by norm_num)
    norm_num at this ⊢; linarith
  have hre : 0 < r * e := by positivity
  have hr2 : 1 ≤ r * r := by nlinarith
  have hP : Step 1 1.0475 (k / e ^ f) (k / (r * e) ^ f) := by
    rw [div_eq_mul_inv, div_eq_mul_inv]
    exact ((rpow_step r f h1 hf e he).inv.mono le_rfl (rpow_small r f 1.19 1.0475 h1 h2 hf hf' hq)).scale k hk
  have low : ∀ y, 0 < y → 0.259 ≤ Real.log (g / y + h * y) := by
    intro y hy
    rw [Real.le_log_iff_exp_le (by positivity)]
    have h3 : g / y * (h * y) = g * h := by field_simp
    have e1 : Real.exp 0.259 ^ 2 ≤ 1.683 := by
      rw [← Real.exp_nat_mul]
      have := exp_le_quartic (2 * 0.259) (by norm_num) (by norm_num)
      push_cast
      norm_num at this ⊢; linarith
    apply le_of_pow_le_pow_left₀ (n := 2) (by norm_num) (by positivity)
    have : 0 < g / y := by positivity
    have : 0 < h * y := by positivity
    nlinarith [sq_nonneg (g / y - h * y)]
  have w1 : g / (r * e) + h * (r * e) ≤ r * (g / e + h * e) := by
    have : g / (r * e) ≤ r * (g / e) := by
      rw [← mul_div_assoc, div_le_div_iff₀ hre he]
      nlinarith [mul_le_mul_of_nonneg_left hr2 (mul_pos hg he).le]
    nlinarith
  have w2 : g / e + h * e ≤ r * (g / (r * e) + h * (r * e)) := by
    have e1 : r * (g / (r * e)) = g / e := by field_simp
    rw [mul_add, e1]
    nlinarith [mul_le_mul_of_nonneg_left hr2 (mul_pos hh he).le]
  have hw : 0 < g / e + h * e := by positivity
  have hw' : 0 < g / (r * e) + h * (r * e) := by positivity
  have d1 : Real.log (g / (r * e) + h * (r * e)) ≤ Real.log r + Real.log (g / e + h * e) := by
    rw [← Real.log_mul (by linarith) hw.ne']; exact Real.log_le_log hw' w1
  have d2 : Real.log (g / e + h * e) ≤ Real.log r + Real.log (g / (r * e) + h * (r * e)) := by
    rw [← Real.log_mul (by linarith) hw'.ne']; exact Real.log_le_log hw w2
  constructor
  · have hL : Step (1 + 0.15) (1 + 0.15) (Real.log (g / e + h * e)) (Real.log (g / (r * e) + h * (r * e))) :=
      Step.of_diff (l := 0.259) (by norm_num) (low e he) (low _ hre) (by norm_num at hl ⊢; linarith) (by norm_num at hl ⊢; linarith)
        (by norm_num) (by norm_num)
    exact (hP.mul hL).mono (by norm_num) (by norm_num)
  · intro q1 q2 q3
    have e4 : 4 ≤ Real.log (g / e + h * e) := by
      rw [Real.le_log_iff_exp_le hw]
      have : Real.exp 4 = Real.exp 1 ^ 4 := by rw [← Real.exp_nat_mul]; norm_num
      have h5 : Real.exp 1 ^ 4 ≤ 2.7182818286 ^ 4 := by
        have := Real.exp_pos 1
        have := Real.exp_one_lt_d9
        gcongr
      have : 0 < g / e := by positivity
      norm_num at h5
      nlinarith
    have hmono : g / e + h * e ≤ g / (r * e) + h * (r * e) := by
      have hge : g ≤ h * (e * e) := by nlinarith [mul_pos hh he]
      have e1 : g / e - g / (r * e) = g * (r - 1) / (r * e) := by field_simp
      have e2 : g * (r - 1) / (r * e) ≤ h * (r - 1) * e := by
        rw [div_le_iff₀ hre]
        have h3 : 0 ≤ (r - 1) * (h * (e * e) - g) := mul_nonneg (by linarith) (by linarith)
        have h4 : 0 ≤ (r - 1) * (r - 1) * (h * (e * e)) := by positivity
        nlinarith
      nlinarith
    have hL : Step 1.01 1 (Real.log (g / e + h * e)) (Real.log (g / (r * e) + h * (r * e))) :=
      ⟨by linarith, by linarith [low _ hre], by norm_num at hl ⊢; linarith, by rw [one_mul]; exact Real.log_le_log hw hmono⟩
    exact (hP.mul hL).mono (by norm_num) (by norm_num)

theorem harmonic_step {u d a b a' b' : ℝ} (h : Step u d a b) (h' : Step u d a' b') :
    Step u d (a * a' / (a + a')) (b * b' / (b + b')) := by
  have e : ∀ x y : ℝ, 0 < x → 0 < y → x * y / (x + y) = (x⁻¹ + y⁻¹)⁻¹ := fun x y hx hy => by
    field_simp
    ring
  rw [e _ _ h.pos h'.pos, e _ _ h.pos' h'.pos']
  exact (h.inv.add h'.inv).inv

theorem pseRow_step (row : List Dec) (hr : pseRowSteady row = true) (e r : ℝ) (he : 0 < e) (h1 : 1 ≤ r) (h2 : r ≤ 1.0393) :
    ∃ s s', pseRow (row.map Dec.toScalar) e = .ok s ∧ pseRow (row.map Dec.toScalar) (r * e) = .ok s' ∧
      Step 1.15 1.21 s s' ∧ (10000 ≤ e → Step 1.15 1.0475 s s') := by
  unfold pseRowSteady at hr
  split at hr
  case h_2 => cases hr
  case h_1 a b c d k f g h =>
    simp only [decide_eq_true_eq] at hr
    obtain ⟨ha, hb, hb', hc, hd, hd', hk, hf, hf', hg, hh, hgh, hgh1, hh2⟩ := hr
    refine ⟨_, _, rfl, rfl, ?_⟩
    simp only [pow_real, log_real, ← Dec.rat_cast]
    have ha' : (0 : ℝ) < a.rat := by exact_mod_cast ha
    have hc' : (0 : ℝ) < c.rat := by exact_mod_cast hc
    have hk' : (0 : ℝ) < k.rat := by exact_mod_cast hk
    have hg' : (0 : ℝ) < g.rat := by exact_mod_cast hg
    have hh' : (0 : ℝ) < h.rat := by exact_mod_cast hh
    have hb0 : (0 : ℝ) ≤ b.rat := by exact_mod_cast hb
    have hd0 : (0 : ℝ) ≤ d.rat := by exact_mod_cast hd
    have hf0 : (0 : ℝ) ≤ f.rat := by exact_mod_cast hf
    have hb1 : (b.rat : ℝ) ≤ 3.54 := by
      have := (Rat.cast_le (K := ℝ)).mpr hb'
      push_cast at this; norm_num at this ⊢; exact this
    have hd1 : (d.rat : ℝ) ≤ 3.54 := by
      have := (Rat.cast_le (K := ℝ)).mpr hd'
      push_cast at this; norm_num at this ⊢; exact this
    have hf1 : (f.rat : ℝ) ≤ 1.19 := by
      have := (Rat.cast_le (K := ℝ)).mpr hf'
      push_cast at this; norm_num at this ⊢; exact this
    have hG : (1.683 : ℝ) ≤ 4 * (g.rat * h.rat) := by
      have := (Rat.cast_le (K := ℝ)).mpr hgh
      push_cast at this; norm_num at this ⊢; exact this
    have hG1 : (g.rat : ℝ) ≤ 1000000 * h.rat := by
      have := (Rat.cast_le (K := ℝ)).mpr hgh1
      push_cast at this; exact this
    have hG2 : (55 : ℝ) ≤ 10000 * h.rat := by
      have := (Rat.cast_le (K := ℝ)).mpr hh2
      push_cast at this; exact this
    have hL := pseLow_step a.rat b.rat c.rat d.rat e r ha' hb0 hb1 hc' hd0 hd1 he h1 h2
    obtain ⟨H1, H2⟩ := pseHigh_step k.rat f.rat g.rat h.rat e r hk' hf0 hf1 hg' hh' hG he h1 h2
    exact ⟨harmonic_step (hL.mono le_rfl (by norm_num)) H1,
      fun q => harmonic_step (hL.mono le_rfl (by norm_num)) ((H2 hG1 hG2 q).mono (by norm_num) le_rfl)⟩

theorem pseGen_step (tab : List (List Dec)) (hl : tab.length = 92) (hr : ∀ r ∈ tab, pseRowSteady r = true) (Z : Int)
    (hZ : 1 ≤ Z) (x r : ℝ) (hx : 0 < x) (h1 : 1 ≤ r) (h2 : r ≤ 1.0393) :
    ∃ s s', pseGen tab Z x = .ok s ∧ pseGen tab Z (r * x) = .ok s' ∧ Step 1.175 1.21 s s' ∧ (10 ≤ x → Step 1.15 1.0475 s s') := by
  obtain ⟨h0, h92⟩ := srimIdx_range Z hZ
  obtain ⟨k, hk⟩ := Int.eq_ofNat_of_zero_le h0
  have hk' : k < tab.length := by omega
  have hrow := rd_nat tab k hk'
  have hs := hr _ (List.getElem_mem hk')
  generalize tab[k] = row at hrow hs
  have hval : ∀ y : ℝ, pseGen tab Z y = (do
      let sp ← pseRow (row.map Dec.toScalar) (if 1000 * y ≤ 25 then 25 else 1000 * y)
      return if 1000 * y ≤ 25 then sp * (if Z > 6 then (1000 * y / 25) ^ (0.45 : ℝ) else (1000 * y / 25) ^ (0.25 : ℝ)) else sp) := by
    intro y
    unfold pseGen
    rw [hk]
    simp only [hrow, bind_ok, pow_real]
    have e25 : (25.0 : ℝ) = 25 := by norm_num
    have e1000 : (1000.0 : ℝ) = 1000 := by norm_num
    rw [e25, e1000]
    by_cases h : 1000 * y ≤ 25
    · simp only [if_pos h, if_pos ((le_real _ _).mpr h)]
    · have h' : ¬ Scalar.le (1000 * y) 25 = true := fun hh => h ((le_real _ _).mp hh)
      simp only [if_neg h, if_neg h']
  have hx1 : x ≤ r * x := by nlinarith
  have hpow : ∀ u, 0 < u → u ≤ 1 → 1 ≤ r * u → ∀ a : ℝ, 0 ≤ a → a ≤ 0.45 → Step 1.02 1 (u ^ a) 1 := by
    intro u hu hu1 hru a ha ha'
    have e1 := rpow_small r a 0.45 1.02 h1 h2 ha ha' (by
      have := exp_le_quartic (0.0386 * 0.45) (by norm_num) (by norm_num)
      norm_num at this ⊢; linarith)
    have e2 : 1 ≤ r ^ a * u ^ a := by
      rw [← Real.mul_rpow (by linarith) hu.le]; exact Real.one_le_rpow hru ha
    have e3 : u ^ a ≤ 1 := Real.rpow_le_one hu.le hu1 ha
    have := Real.rpow_pos_of_pos hu a
    exact ⟨this, one_pos, by nlinarith, by linarith⟩
  rw [hval, hval]
  rcases le_or_gt (1000 * (r * x)) 25 with h | h
  · have h' : 1000 * x ≤ 25 := by linarith
    obtain ⟨s, _, hs1, -, hst, -⟩ := pseRow_step row hs 25 1 (by norm_num) le_rfl (by norm_num)
    rw [if_pos h, if_pos h', hs1]
    refine ⟨_, _, rfl, rfl, ?_, fun h10 => by linarith⟩
    rw [if_pos h, if_pos h']
    have e : 1000 * (r * x) / 25 = r * (1000 * x / 25) := by ring
    rw [e]
    have hu : 0 < 1000 * x / 25 := by positivity
    have st : ∀ a : ℝ, 0 ≤ a → a ≤ 0.45 → Step 1.02 1 ((1000 * x / 25) ^ a) ((r * (1000 * x / 25)) ^ a) := fun a ha ha' =>
      (rpow_step r a h1 ha _ hu).mono (rpow_small r a 0.45 1.02 h1 h2 ha ha' (by
        have := exp_le_quartic (0.0386 * 0.45) (by norm_num) (by norm_num)
        norm_num at this ⊢; linarith)) le_rfl
    split
    · exact ((st 0.45 (by norm_num) le_rfl).scale s hst.pos).mono (by norm_num) (by norm_num)
    · exact ((st 0.25 (by norm_num) (by norm_num)).scale s hst.pos).mono (by norm_num) (by norm_num)
  · rcases le_or_gt (1000 * x) 25 with h' | h'
    · have hr1 : 1 ≤ 1000 * (r * x) / 25 := by rw [le_div_iff₀ (by norm_num)]; linarith
      have hr2 : 1000 * (r * x) / 25 ≤ 1.0393 := by rw [div_le_iff₀ (by norm_num)]; norm_num at h2 ⊢; nlinarith
      obtain ⟨s, s', hs1, hs2, hst, -⟩ := pseRow_step row hs 25 (1000 * (r * x) / 25) (by norm_num) hr1 hr2
      rw [div_mul_cancel₀ _ (by norm_num)] at hs2
      rw [if_pos h', if_neg (not_le.mpr h), hs1, hs2]
      refine ⟨_, _, rfl, rfl, ?_, fun h10 => by linarith⟩
      rw [if_pos h', if_neg (not_le.mpr h)]
      have hu : 0 < 1000 * x / 25 := by positivity
      have hu1 : 1000 * x / 25 ≤ 1 := by rw [div_le_one (by norm_num)]; exact h'
      have hru : 1 ≤ r * (1000 * x / 25) := by
        have : r * (1000 * x / 25) = 1000 * (r * x) / 25 := by ring
        rw [this]; exact hr1
      have fin : ∀ a : ℝ, 0 ≤ a → a ≤ 0.45 → Step 1.175 1.21 (s * (1000 * x / 25) ^ a) s' := fun a ha ha' => by
        have := hst.mul (hpow _ hu hu1 hru a ha ha')
        rw [mul_one s'] at this
        exact this.mono (by norm_num) (by norm_num)
      split
      · exact fin 0.45 (by norm_num) le_rfl
      · exact fin 0.25 (by norm_num) (by norm_num)
    · obtain ⟨s, s', hs1, hs2, hst, hst'⟩ := pseRow_step row hs (1000 * x) r (by linarith) h1 h2
      rw [show r * (1000 * x) = 1000 * (r * x) by ring] at hs2
      rw [if_neg (not_le.mpr h'), if_neg (not_le.mpr h), hs1, hs2]
      refine ⟨_, _, rfl, rfl, ?_, fun h10 => ?_⟩
      · rw [if_neg (not_le.mpr h'), if_neg (not_le.mpr h)]; exact hst.mono (by norm_num) le_rfl
      · rw [if_neg (not_le.mpr h'), if_neg (not_le.mpr h)]; exact hst' (by linarith)

/-- The proton stopping of both tables. -/
theorem proton_step (b : Bool) (Z : Int) (hZ : 1 ≤ Z) (x r : ℝ) (hx : 0 < x) (h1 : 1 ≤ r) (h2 : r ≤ 1.0393) :
    ∃ s s', (if b then p_se Z else p_se85 Z : ℝ → M ℝ) x = .ok s ∧ (if b then p_se Z else p_se85 Z : ℝ → M ℝ) (r * x) = .ok s' ∧
      Step 1.175 1.21 s s' ∧ (10 ≤ x → Step 1.15 1.0475 s s') := by
  cases b
  · exact pseGen_step _ proton_ok.1 proton_steady Z hZ x r hx h1 h2
  · exact pseGen_step _ pse_95_ok.1 pse_95_steady Z hZ x r hx h1 h2

end Catima
