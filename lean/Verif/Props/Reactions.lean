import Verif.Props.CalculateDefined
import Mathlib.Analysis.SpecialFunctions.Pow.Continuity
import Mathlib.Analysis.SpecialFunctions.Log.Base

/-!
# C67-C69: reaction rates
-/

namespace Catima

/-! ## C67 -/

/-- C67: the two probabilities are complementary. -/
theorem reaction_complement (s t : ℝ) : reaction_rate s t + nonreaction_rate_sigma s t = 1 := by
  unfold reaction_rate nonreaction_rate_sigma
  norm_num

/-- C67: both lie in `[0, 1]`, and some projectiles always survive. -/
theorem reaction_bounds (s t : ℝ) (hs : 0 ≤ s) (ht : 0 ≤ t) :
    0 < nonreaction_rate_sigma s t ∧ nonreaction_rate_sigma s t ≤ 1 ∧
      0 ≤ reaction_rate s t ∧ reaction_rate s t < 1 := by
  have h := reaction_complement s t
  have h1 : 0 < nonreaction_rate_sigma s t := by
    unfold nonreaction_rate_sigma
    rw [exp_real]; exact Real.exp_pos _
  have h2 : nonreaction_rate_sigma s t ≤ 1 := by
    unfold nonreaction_rate_sigma
    rw [exp_real, Real.exp_le_one_iff]
    have := mul_nonneg hs ht
    norm_num
    linarith
  exact ⟨h1, h2, by linarith, by linarith⟩

/-- C67: surviving two thicknesses is surviving both; likewise for two independent processes. -/
theorem nonreaction_multiplicative (s s' t t' : ℝ) :
    nonreaction_rate_sigma s (t + t') = nonreaction_rate_sigma s t * nonreaction_rate_sigma s t' ∧
    nonreaction_rate_sigma (s + s') t = nonreaction_rate_sigma s t * nonreaction_rate_sigma s' t ∧
    nonreaction_rate_sigma s 0 = 1 := by
  unfold nonreaction_rate_sigma
  simp only [exp_real]
  refine ⟨?_, ?_, ?_⟩
  · rw [← Real.exp_add]; congr 1; ring
  · rw [← Real.exp_add]; congr 1; ring
  · norm_num

/-- C67: a positive cross section makes the survival strictly decreasing in the thickness. -/
theorem nonreaction_decreasing (s t t' : ℝ) (hs : 0 < s) (h : t < t') :
    nonreaction_rate_sigma s t' < nonreaction_rate_sigma s t ∧ reaction_rate s t < reaction_rate s t' := by
  have e : nonreaction_rate_sigma s t' < nonreaction_rate_sigma s t := by
    unfold nonreaction_rate_sigma
    simp only [exp_real]
    rw [Real.exp_lt_exp]
    have := mul_lt_mul_of_pos_left h hs
    norm_num
    linarith
  exact ⟨e, by linarith [reaction_complement s t, reaction_complement s t']⟩

/-- C67: the overload taking a function agrees with the other for a constant cross section, up to a
relative change of 1e-15 of that cross section. -/
theorem reaction_rate_constant (s t : ℝ) : ∃ s', |s' - s| ≤ 1e-15 * |s| ∧
    reaction_rate_f (fun _ => .ok s) t = .ok (reaction_rate s' t) := by
  obtain ⟨I, hI, hb⟩ := gl_const GL_data8 (by simp [GLData.supported]) s 0 t
  rw [sub_zero] at hb
  by_cases ht : t = 0
  · refine ⟨s, by rw [sub_self, abs_zero]; positivity, ?_⟩
    have h0 : I = 0 := by
      rw [ht] at hb
      simpa using hb
    unfold reaction_rate_f reaction_rate
    have e : GL_data8.integrate (fun _ => (.ok s : M ℝ)) (0.0 : ℝ) t = .ok I := by
      rw [show (0.0 : ℝ) = 0 by norm_num]; exact hI
    rw [e, h0, ht]
    show (Except.ok _ : M ℝ) = _
    simp only [exp_real]
    norm_num
  · refine ⟨I / t, ?_, ?_⟩
    · have e : I / t - s = (I - s * t) / t := by field_simp
      rw [e, abs_div, div_le_iff₀ (abs_pos.mpr ht)]
      rw [abs_mul] at hb
      linarith
    · unfold reaction_rate_f reaction_rate
      have e : GL_data8.integrate (fun _ => (.ok s : M ℝ)) (0.0 : ℝ) t = .ok I := by
        rw [show (0.0 : ℝ) = 0 by norm_num]; exact hI
      rw [e]
      show (Except.ok _ : M ℝ) = _
      congr 3
      rw [neg_mul, neg_mul, div_mul_cancel₀ _ ht, neg_mul]

/-! ## C68 -/

/-- C68: the number of products lies between the numbers for the larger and the smaller of the two
removal cross sections (all in mb; `n` is the number of atoms per cm²).  Both branches of the code are
covered. -/
theorem production_bounds (cs r1 r2 n : ℝ) (t : Material ℝ) (hcs : 0 ≤ cs) (hn : 0 ≤ n)
    (ht : t.number_density_cm2 = n) :
    1e-4 * cs * n * Real.exp (-1e-4 * max r1 r2 * n) ≤ production_rate cs r1 r2 t ∧
    production_rate cs r1 r2 t ≤ 1e-4 * cs * n * Real.exp (-1e-4 * min r1 r2 * n) := by
  have h4 : (0.0001 : ℝ) = 1e-4 := by norm_num
  have hpre : 0 ≤ 1e-4 * cs * n := mul_nonneg (mul_nonneg (by norm_num) hcs) hn
  have hmono : ∀ a b : ℝ, a ≤ b → Real.exp (-1e-4 * b * n) ≤ Real.exp (-1e-4 * a * n) := by
    intro a b hab
    rw [Real.exp_le_exp]
    have := mul_le_mul_of_nonneg_right hab hn
    norm_num
    linarith
  unfold production_rate
  rw [ht]
  dsimp only
  split
  · rw [exp_real, h4]
    exact ⟨mul_le_mul_of_nonneg_left (hmono _ _ (le_max_right _ _)) hpre,
      mul_le_mul_of_nonneg_left (hmono _ _ (min_le_right _ _)) hpre⟩
  · rename_i hfar
    have hne : r2 - r1 ≠ 0 := by
      intro h0
      apply hfar
      rw [lt_real, fabs_real, h0, abs_zero]
      norm_num
    simp only [exp_real]
    -- the difference quotient of `exp (-a x)`
    have key : ∀ x y : ℝ, x < y →
        1e-4 * n * Real.exp (-1e-4 * y * n) * (y - x) ≤ Real.exp (-1e-4 * x * n) - Real.exp (-1e-4 * y * n) ∧
        Real.exp (-1e-4 * x * n) - Real.exp (-1e-4 * y * n) ≤ 1e-4 * n * Real.exp (-1e-4 * x * n) * (y - x) := by
      intro x y hxy
      have e1 : Real.exp (-1e-4 * x * n) = Real.exp (-1e-4 * y * n) * Real.exp (1e-4 * n * (y - x)) := by
        rw [← Real.exp_add]; congr 1; ring
      have e2 : Real.exp (-1e-4 * y * n) = Real.exp (-1e-4 * x * n) * Real.exp (-(1e-4 * n * (y - x))) := by
        rw [← Real.exp_add]; congr 1; ring
      constructor
      · have := Real.add_one_le_exp (1e-4 * n * (y - x))
        have hp := Real.exp_pos (-1e-4 * y * n)
        rw [e1]
        nlinarith
      · have := Real.add_one_le_exp (-(1e-4 * n * (y - x)))
        have hp := Real.exp_pos (-1e-4 * x * n)
        rw [e2]
        nlinarith
    have hquot : ∀ D lo hi d : ℝ, 0 < d → lo * d ≤ D → D ≤ hi * d → cs * lo ≤ cs * D / d ∧ cs * D / d ≤ cs * hi := by
      intro D lo hi d hd h1 h2
      rw [le_div_iff₀ hd, div_le_iff₀ hd, mul_assoc, mul_assoc]
      exact ⟨mul_le_mul_of_nonneg_left h1 hcs, mul_le_mul_of_nonneg_left h2 hcs⟩
    rcases lt_or_gt_of_ne (sub_ne_zero.mp hne) with h | h
    · -- r2 < r1
      rw [max_eq_left h.le, min_eq_right h.le]
      obtain ⟨k1, k2⟩ := key r2 r1 h
      obtain ⟨q1, q2⟩ := hquot _ _ _ (r1 - r2) (sub_pos.mpr h) k1 k2
      have e : cs * (Real.exp (-1e-4 * r1 * n) - Real.exp (-1e-4 * r2 * n)) / (r2 - r1) =
          cs * (Real.exp (-1e-4 * r2 * n) - Real.exp (-1e-4 * r1 * n)) / (r1 - r2) := by
        rw [← neg_sub r1 r2, div_neg, ← neg_div]
        congr 1
        ring
      rw [e]
      constructor <;> linarith
    · rw [max_eq_right h.le, min_eq_left h.le]
      obtain ⟨k1, k2⟩ := key r1 r2 h
      obtain ⟨q1, q2⟩ := hquot _ _ _ (r2 - r1) (sub_pos.mpr h) k1 k2
      constructor <;> linarith

/-- C68: no negative production; none in an empty target; never more than one product per reaction in
the absence of losses. -/
theorem production_nonneg (cs r1 r2 : ℝ) (t : Material ℝ) (hcs : 0 ≤ cs) (hr1 : 0 ≤ r1) (hr2 : 0 ≤ r2)
    (hn : 0 ≤ t.number_density_cm2) :
    0 ≤ production_rate cs r1 r2 t ∧ production_rate cs r1 r2 t ≤ 1e-4 * cs * t.number_density_cm2 ∧
    (t.number_density_cm2 = 0 → production_rate cs r1 r2 t = 0) := by
  obtain ⟨h1, h2⟩ := production_bounds cs r1 r2 _ t hcs hn rfl
  have hpre : 0 ≤ 1e-4 * cs * t.number_density_cm2 := mul_nonneg (mul_nonneg (by norm_num) hcs) hn
  have hup : production_rate cs r1 r2 t ≤ 1e-4 * cs * t.number_density_cm2 := by
    refine h2.trans (mul_le_of_le_one_right hpre ?_)
    rw [Real.exp_le_one_iff]
    have := mul_nonneg (le_min hr1 hr2) hn
    norm_num
    linarith
  refine ⟨le_trans (mul_nonneg hpre (Real.exp_pos _).le) h1, hup, fun h0 => ?_⟩
  have hlo := le_trans (mul_nonneg hpre (Real.exp_pos _).le) h1
  rw [h0] at hup
  linarith

/-- C68: a carbon target of 1 g/cm² is in the scope (5.01e22 atoms per cm²; in units of 1e23 as the
code counts them). -/
example : 0 < production_rate 1 1000 1100 (Material.ofElement (12 : ℝ) 6 2 1) := by
  have hn : (Material.ofElement (12 : ℝ) 6 2 1).number_density_cm2 = (Avogadro : ℝ) / 12 := by
    unfold Material.number_density_cm2 Material.ofElement Material.add_element
    norm_num
  have hA : (0 : ℝ) < Avogadro := by unfold Avogadro; norm_num
  have h := (production_bounds 1 1000 1100 _ _ (by norm_num) (by rw [hn]; positivity) rfl).1
  refine lt_of_lt_of_le ?_ h
  rw [hn]
  positivity

/-! ## C69: the Kox cross section -/

theorem cube_root {a : ℝ} (ha : 0 ≤ a) : (a ^ ((1.0 : ℝ) / 3.0)) ^ 3 = a := by
  rw [← Real.rpow_natCast, ← Real.rpow_mul ha]
  norm_num

/-- Kinetic energy in the centre of mass at the Coulomb barrier, converted to MeV/u of the projectile;
a separate reading of the formula in Kox et al. with the interaction radius `1.3 (Ap^(1/3)+At^(1/3))`
and without the factor `e² = 1.44 MeV fm`, which the code leaves out. -/
noncomputable def koxBarrier (Ap Zp At Zt : ℝ) : ℝ :=
  Zp * Zt / (1.3 * (Ap ^ ((1 : ℝ) / 3) + At ^ ((1 : ℝ) / 3))) * ((Ap + At) / (Ap * At))

/-- C69: the Kox cross section is non-negative at and above the barrier. -/
theorem kox_nonneg (Ap Zp At Zt : Int) (E : ℝ) (hAp : 0 < Ap) (hAt : 0 < At) (hE : 0 < E)
    (hB : koxBarrier Ap Zp At Zt ≤ E) : 0 ≤ SigmaR_Kox Ap Zp E At Zt := by
  have hap : (0 : ℝ) < Ap := by exact_mod_cast hAp
  have hat : (0 : ℝ) < At := by exact_mod_cast hAt
  unfold SigmaR_Kox Ecm_from_T
  dsimp only
  simp only [ofInt_real, pow_real]
  refine mul_nonneg ?_ ?_
  · rw [mul_assoc, mul_assoc]
    refine mul_nonneg (by norm_num) ?_
    rw [← mul_assoc, mul_assoc]
    refine mul_nonneg ?_ (mul_self_nonneg _)
    show (0 : ℝ) ≤ PI
    unfold PI
    norm_num
  · have e3 : ((1.0 : ℝ) / 3.0) = 1 / 3 := by norm_num
    rw [e3]
    unfold koxBarrier at hB
    set s := (Ap : ℝ) ^ ((1 : ℝ) / 3) + (At : ℝ) ^ ((1 : ℝ) / 3) with hs
    have hs0 : 0 < s := by positivity
    have hden : 0 < E * Ap * At / (Ap + At) := by positivity
    have hle : ((Zp * Zt : Int) : ℝ) / (1.3 * s) / (E * Ap * At / (Ap + At)) ≤ 1 := by
      rw [div_le_one hden]
      push_cast
      have hm := mul_le_mul_of_nonneg_right hB (show (0 : ℝ) ≤ Ap * At / (Ap + At) by positivity)
      have e1 : (Zp : ℝ) * Zt / (1.3 * s) * ((Ap + At) / (Ap * At)) * (Ap * At / (Ap + At)) = Zp * Zt / (1.3 * s) := by
        have : (Ap : ℝ) + At ≠ 0 := by positivity
        field_simp
      rw [e1] at hm
      calc _ ≤ _ := hm
        _ = _ := by ring
    have : (1.0 : ℝ) = 1 := by norm_num
    linarith

/-- C69: below the barrier the formula gives zero or negative values, so the hypothesis cannot be
dropped. -/
theorem kox_negative : SigmaR_Kox 12 6 (1 / 10) 12 6 < (0 : ℝ) := by
  have h0 : (0 : ℝ) < (12 : ℝ) ^ ((1 : ℝ) / 3) := by positivity
  have hc : ((12 : ℝ) ^ ((1 : ℝ) / 3)) ^ 3 = 12 := by
    have := cube_root (show (0 : ℝ) ≤ 12 by norm_num)
    rwa [show ((1.0 : ℝ) / 3.0) = 1 / 3 by norm_num] at this
  unfold SigmaR_Kox Ecm_from_T
  dsimp only
  simp only [ofInt_real, pow_real, log10_real]
  have e3 : ((1.0 : ℝ) / 3.0) = 1 / 3 := by norm_num
  rw [e3]
  push_cast
  set s := (12 : ℝ) ^ ((1 : ℝ) / 3) with hs
  have hs3 : s < 3 := by
    by_contra h
    push Not at h
    have : (3 : ℝ) ^ 3 ≤ s ^ 3 := pow_le_pow_left₀ (by norm_num) h 3
    rw [hc] at this
    norm_num at this
  have hlog : Real.logb 10 (1 / 10) = -1 := by
    rw [one_div, Real.logb_inv, Real.logb_self_eq_one (by norm_num)]
  rw [hlog, if_pos (by rw [lt_real]; norm_num)]
  have hneg : (1.0 : ℝ) - 36 / (1.3 * (s + s)) / (1 / 10 * 12 * 12 / (12 + 12)) < 0 := by
    have : (1 : ℝ) < 36 / (1.3 * (s + s)) / (1 / 10 * 12 * 12 / (12 + 12)) := by
      rw [div_div, lt_div_iff₀ (by positivity)]
      norm_num
      linarith
    have e : (1.0 : ℝ) = 1 := by norm_num
    linarith
  apply mul_neg_of_pos_of_neg _ hneg
  have hpow : ((-1 : ℝ) / 1.5) ^ (3.0 : ℝ) = -(8 / 27) := by
    rw [show (3.0 : ℝ) = ((3 : ℕ) : ℝ) by norm_num, Real.rpow_natCast]
    norm_num
  rw [hpow]
  have hPI : (0 : ℝ) < PI := by unfold PI; norm_num
  have hR : 0 < 1.1 * (s + s) + (1.1 * (1.85 * s * s / (s + s) -
      (2.0 - 10.0 / (1.5 * 1.5 * 1.5 * 1.5 * 1.5)) * -(8 / 27)) + 5.0 * 0 * 6 / 144) := by
    have : 0 ≤ 1.85 * s * s / (s + s) := by positivity
    norm_num at this ⊢
    nlinarith
  have := mul_pos (mul_pos (mul_pos (show (0 : ℝ) < 10.0 by norm_num) hPI) hR) hR
  exact this

/-- C69: for nuclei with `Z ≤ A ≤ 240` the barrier is below 30 MeV/u, the least energy at which the
library uses the formula. -/
theorem kox_nonneg_above_limit (Ap Zp At Zt : Int) (E : ℝ) (hZt : 0 ≤ Zt)
    (hAp : Zp ≤ Ap) (hAt : Zt ≤ At) (hAp0 : 0 < Ap) (hAt0 : 0 < At) (hAp1 : Ap ≤ 240) (hAt1 : At ≤ 240)
    (hE : 30 ≤ E) : 0 ≤ SigmaR_Kox Ap Zp E At Zt := by
  apply kox_nonneg _ _ _ _ _ hAp0 hAt0 (by linarith)
  refine le_trans ?_ hE
  have hap : (0 : ℝ) < Ap := by exact_mod_cast hAp0
  have hat : (0 : ℝ) < At := by exact_mod_cast hAt0
  have hap1 : (Ap : ℝ) ≤ 240 := by exact_mod_cast hAp1
  have hat1 : (At : ℝ) ≤ 240 := by exact_mod_cast hAt1
  have hroot : ∀ a : ℝ, 0 < a → a ≤ 240 → a ≤ 39 * a ^ ((1 : ℝ) / 3) := by
    intro a ha h1
    have h0 : (0 : ℝ) < a ^ ((1 : ℝ) / 3) := by positivity
    have hc : (a ^ ((1 : ℝ) / 3)) ^ 3 = a := by
      have := cube_root ha.le
      rwa [show ((1.0 : ℝ) / 3.0) = 1 / 3 by norm_num] at this
    set x := a ^ ((1 : ℝ) / 3) with hx
    have hx2 : x ≤ 6.24 := by
      by_contra h
      push Not at h
      have : (6.24 : ℝ) ^ 3 ≤ x ^ 3 := pow_le_pow_left₀ (by norm_num) h.le 3
      rw [hc] at this
      norm_num at this
      linarith
    have : x ^ 2 ≤ 39 := by nlinarith
    calc a = x ^ 2 * x := by rw [← hc]; ring
      _ ≤ 39 * x := mul_le_mul_of_nonneg_right this h0.le
  unfold koxBarrier
  set s := (Ap : ℝ) ^ ((1 : ℝ) / 3) + (At : ℝ) ^ ((1 : ℝ) / 3) with hs
  have hs0 : 0 < s := by positivity
  have hsum : (Ap : ℝ) + At ≤ 39 * s := by
    rw [hs]; linarith [hroot Ap hap hap1, hroot At hat hat1]
  have hzz : (Zp : ℝ) * Zt ≤ Ap * At :=
    mul_le_mul (by exact_mod_cast hAp) (by exact_mod_cast hAt) (by exact_mod_cast hZt) hap.le
  rw [div_mul_div_comm, div_le_iff₀ (by positivity)]
  calc (Zp : ℝ) * Zt * (Ap + At) ≤ Ap * At * (39 * s) :=
        mul_le_mul hzz hsum (by positivity) (by positivity)
    _ = 30 * (1.3 * s * (Ap * At)) := by norm_num; ring

/-- C69: the two branches of the energy-dependent term meet: the Kox cross section is continuous in the
energy above 1 MeV/u. -/
theorem kox_continuous (Ap Zp At Zt : Int) (hAp : 0 < Ap) (hAt : 0 < At) :
    ContinuousOn (fun E : ℝ => SigmaR_Kox Ap Zp E At Zt) (Set.Ioi 0) := by
  have hap : (0 : ℝ) < Ap := by exact_mod_cast hAp
  have hat : (0 : ℝ) < At := by exact_mod_cast hAt
  have hlog : ContinuousOn (fun E : ℝ => Real.logb 10 E) (Set.Ioi 0) := by
    intro x hx
    exact (Real.continuousAt_logb (ne_of_gt hx)).continuousWithinAt
  have hc : Continuous fun L : ℝ =>
      if (Scalar.lt L 1.5) = true then
        ((2.0 : ℝ) - 10.0 / (1.5 * 1.5 * 1.5 * 1.5 * 1.5)) * (L / 1.5) ^ (3.0 : ℝ)
      else -10.0 / L ^ (5.0 : ℝ) + 2.0 := by
    have e : (fun L : ℝ => if (Scalar.lt L 1.5) = true then
        ((2.0 : ℝ) - 10.0 / (1.5 * 1.5 * 1.5 * 1.5 * 1.5)) * (L / 1.5) ^ (3.0 : ℝ)
      else -10.0 / L ^ (5.0 : ℝ) + 2.0) = fun L : ℝ => if L ≤ 1.5 then
        ((2.0 : ℝ) - 10.0 / (1.5 * 1.5 * 1.5 * 1.5 * 1.5)) * (L / 1.5) ^ 3
      else -10.0 / L ^ 5 + 2.0 := by
      funext L
      have h3 : (L / 1.5) ^ (3.0 : ℝ) = (L / 1.5) ^ 3 := by
        rw [show (3.0 : ℝ) = ((3 : ℕ) : ℝ) by norm_num, Real.rpow_natCast]
      have h5 : L ^ (5.0 : ℝ) = L ^ 5 := by
        rw [show (5.0 : ℝ) = ((5 : ℕ) : ℝ) by norm_num, Real.rpow_natCast]
      rw [h3, h5]
      by_cases h1 : L < 1.5
      · rw [if_pos (by rw [lt_real]; exact h1), if_pos h1.le]
      · rw [if_neg (by rw [lt_real]; exact h1)]
        by_cases h2 : L = 1.5
        · rw [h2, if_pos le_rfl]; norm_num
        · rw [if_neg (fun h => h1 (lt_of_le_of_ne h h2))]
    rw [e]
    have hm : Continuous fun L : ℝ => if L ≤ 1.5 then
        ((2.0 : ℝ) - 10.0 / (1.5 * 1.5 * 1.5 * 1.5 * 1.5)) * (L / 1.5) ^ 3
      else -10.0 / (max L 1.5) ^ 5 + 2.0 := by
      apply Continuous.if_le (by fun_prop) _ continuous_id continuous_const
      · intro L hL
        simp only [id] at hL
        rw [hL]; norm_num
      · refine Continuous.add (Continuous.div continuous_const (by fun_prop) fun L => ?_) continuous_const
        have : (0 : ℝ) < max L 1.5 := lt_of_lt_of_le (by norm_num) (le_max_right _ _)
        positivity
    convert hm using 3 with L
    rename_i h
    rw [max_eq_left (le_of_lt (not_le.mp h))]
  have hcE := hc.comp_continuousOn hlog
  unfold SigmaR_Kox Ecm_from_T
  dsimp only
  simp only [ofInt_real, pow_real, log10_real]
  refine ContinuousOn.mul ?_ ?_
  · refine ContinuousOn.mul (ContinuousOn.mul continuousOn_const ?_) ?_ <;>
    · refine ContinuousOn.add continuousOn_const (ContinuousOn.add (ContinuousOn.mul continuousOn_const
        (ContinuousOn.sub continuousOn_const hcE)) continuousOn_const)
  · refine ContinuousOn.sub continuousOn_const (ContinuousOn.div continuousOn_const ?_ ?_)
    · fun_prop
    · intro E hE
      have : (0 : ℝ) < E := hE
      positivity

/-! ## C69: the non-reaction probability of a projectile -/

/-- C69: the decisions of `nonreaction_rate`: -1 for a projectile entering below 30 MeV/u, otherwise 1
without material, otherwise -1 if it leaves below 30 MeV/u, otherwise a positive number. -/
theorem nonreaction_cases (env : Env ℝ) (p : Projectile ℝ) (t : Material ℝ) (c : Config ℝ)
    (w w' : World ℝ) (v : ℝ) (h : nonreaction_rate env p t c w = .ok (v, w')) :
    (p.T < 30 → v = -1) ∧ (30 ≤ p.T → t.th ≤ 0 → v = 1) ∧
    (30 ≤ p.T → 0 < t.th → ∃ E, energy_out env p t c w = .ok (E, w') ∧
      (E < 30 → v = -1) ∧ (30 ≤ E → 0 < v)) := by
  have e30 : (emin_reaction : ℝ) = 30 := by unfold emin_reaction; norm_num
  unfold nonreaction_rate at h
  by_cases h1 : p.T < 30
  · rw [if_pos (by rw [lt_real, e30]; exact h1), api_pure] at h
    obtain ⟨rfl, -⟩ := h
    exact ⟨fun _ => by norm_num, fun h2 => absurd h1 (not_lt.mpr h2), fun h2 => absurd h1 (not_lt.mpr h2)⟩
  · rw [if_neg (by rw [lt_real, e30]; exact h1)] at h
    refine ⟨fun h2 => absurd h2 h1, ?_⟩
    by_cases h2 : t.th ≤ 0
    · rw [if_pos (by rw [le_real]; norm_num; exact h2), api_pure] at h
      obtain ⟨rfl, -⟩ := h
      exact ⟨fun _ _ => by norm_num, fun _ h3 => absurd h3 (not_lt.mpr h2)⟩
    · rw [if_neg (by rw [le_real]; norm_num; exact not_le.mp h2)] at h
      refine ⟨fun _ h3 => absurd h3 h2, fun _ _ => ?_⟩
      simp only [api_bind, api_pureM, ok_bind] at h
      obtain ⟨d, w1, hd, ⟨rs, hrs, hv⟩, rfl⟩ := h
      unfold nonreaction_rate_from at hv
      rw [ok_bind] at hv
      obtain ⟨E, hE, hv⟩ := hv
      refine ⟨E, ?_, ?_⟩
      · unfold energy_out
        simp only [api_bind, api_pureM, ok_bind]
        exact ⟨d, w1, hd, ⟨rs, hrs, hE⟩, rfl⟩
      · by_cases h3 : E < 30
        · rw [if_pos (by rw [lt_real, e30]; exact h3), ok_pure] at hv
          exact ⟨fun _ => by rw [← hv]; norm_num, fun h4 => absurd h3 (not_lt.mpr h4)⟩
        · rw [if_neg (by rw [lt_real, e30]; exact h3)] at hv
          refine ⟨fun h4 => absurd h4 h3, fun _ => ?_⟩
          rw [ok_bind] at hv
          obtain ⟨s0, -, hv⟩ := hv
          rw [ok_bind] at hv
          obtain ⟨s1, -, hv⟩ := hv
          dsimp only at hv
          split at hv
          · rw [ok_bind] at hv
            obtain ⟨cs, -, hv⟩ := hv
            rw [ok_pure] at hv
            rw [← hv, exp_real]; exact Real.exp_pos _
          · simp only [ok_bind] at hv
            obtain ⟨i, -, hv⟩ := hv
            obtain ⟨cs, -, hv⟩ := hv
            rw [ok_pure] at hv
            rw [← hv, exp_real]; exact Real.exp_pos _

theorem isotope_zero_bounds (z : Int) (h1 : 1 ≤ z) (h2 : z ≤ 92) :
    ∃ a, get_isotope_a z 0 = .ok a ∧ z ≤ a ∧ 0 < a ∧ a ≤ 240 := by
  have key : ∀ z : Fin 92, (match get_isotope_a (z.val + 1) 0 with
      | .ok a => decide ((z.val : Int) + 1 ≤ a ∧ 0 < a ∧ a ≤ 240)
      | .error _ => false) = true := by decide +kernel
  have h := key ⟨(z - 1).toNat, by omega⟩
  have e : (((z - 1).toNat : ℕ) : Int) + 1 = z := by omega
  simp only [e] at h
  cases hz : get_isotope_a z 0 with
  | error _ => rw [hz] at h; cases h
  | ok a =>
    rw [hz] at h
    exact ⟨a, rfl, of_decide_eq_true h⟩

theorem mfrac_pos {t : Material ℝ} (h : t.Sound) {a : Target ℝ} (ha : a ∈ t.atoms) : 0 < t.mfrac a := by
  have := h.A a ha
  have := h.stn a ha
  have := h.molar
  unfold Material.mfrac
  split <;> positivity

/-- A weighted mean of non-negative cross sections is non-negative. -/
theorem sigma_r_nonneg (debug : Bool) (p : Projectile ℝ) (t : Material ℝ) (ap zp : Int) (rs : Spline ℝ)
    (ht : t.Sound) (hZ : ∀ a ∈ t.atoms, a.Z ≤ 92) (hzp : zp ≤ ap) (hap : 0 < ap) (hap1 : ap ≤ 240)
    (x E : ℝ) (hE : energy_out_spline debug p.T x rs = .ok E) (hE30 : 30 ≤ E) :
    ∃ v, sigma_r debug p t ap zp rs x = .ok v ∧ 0 ≤ v := by
  unfold sigma_r
  rw [hE, bind_ok]
  have key : ∀ (l : List (Target ℝ)) (acc : ℝ × ℝ), (∀ a ∈ l, a ∈ t.atoms) → 0 ≤ acc.1 → 0 ≤ acc.2 →
      ∃ r : ℝ × ℝ, l.foldlM (fun (acc : ℝ × ℝ) t_1 => (do
        let at_ ← get_isotope_a t_1.Z 0
        return (acc.1 + t.mfrac t_1, acc.2 + t.mfrac t_1 * SigmaR_Kox ap zp E at_ t_1.Z) : M (ℝ × ℝ))) acc
        = .ok r ∧ 0 ≤ r.1 ∧ 0 ≤ r.2 := by
    intro l
    induction l with
    | nil => intro acc _ h1 h2; exact ⟨acc, rfl, h1, h2⟩
    | cons a l ih =>
      intro acc hl h1 h2
      have ha := hl a (by simp)
      obtain ⟨at_, e, b1, b2, b3⟩ := isotope_zero_bounds a.Z (ht.Z a ha) (hZ a ha)
      rw [List.foldlM_cons, e, bind_ok, pure_bind]
      have hm := mfrac_pos ht ha
      have hk := kox_nonneg_above_limit ap zp at_ a.Z E (by have := ht.Z a ha; omega) hzp b1 hap b2 hap1 b3 hE30
      exact ih _ (fun b hb => hl b (by simp [hb])) (by positivity) (by positivity)
  obtain ⟨r, hr, h1, h2⟩ := key t.atoms (0.0, 0.0) (fun _ h => h) (by norm_num) (by norm_num)
  rw [hr, bind_ok]
  exact ⟨_, rfl, div_nonneg h2 h1⟩

/-- C69: if the projectile stays at or above 30 MeV/u all the way through the material, the result is a
probability.  Nuclei up to mass number 240, elements up to uranium. -/
theorem nonreaction_probability (env : Env ℝ) (hdbg : env.debug = false) (w : World ℝ)
    (hr : ReachableW env w) (p : Projectile ℝ) (n : Int) (t : Material ℝ) (c : Config ℝ)
    (h : Computable p n t c) (hk : NonDefault p t c) (hA : (n : ℝ) ≤ p.A + 1 / 2) (hA1 : p.A < 240 + 1 / 2)
    (hA0 : 1 / 2 ≤ p.A) (hZ : ∀ a ∈ t.atoms, a.Z ≤ 92) (hT : 30 ≤ p.T) (hth : 0 < t.th)
    (hE : ∀ x, 0 ≤ x → x ≤ t.th → ∀ E w1, energy_out env p (t.set_thickness x) c w = .ok (E, w1) → 30 ≤ E) :
    ∃ v w', nonreaction_rate env p t c w = .ok (v, w') ∧ 0 < v ∧ v ≤ 1 := by
  obtain ⟨d0, rs, -, -, -, trs, hview⟩ := range_spline env p n t c h hk
  have hEs : ∀ x, 0 ≤ x → x ≤ t.th → ∃ E, energy_out_spline env.debug p.T x rs = .ok E ∧ 30 ≤ E := by
    intro x h0 h1
    obtain ⟨E, hEx⟩ := trs.2 p.T x
    obtain ⟨d, w1, hd, hrs⟩ := hview w hr p.T x
    refine ⟨E, hdbg ▸ hEx, hE x h0 h1 E w1 ?_⟩
    unfold energy_out
    simp only [api_bind, api_pureM, ok_bind]
    exact ⟨d, w1, hd, ⟨rs, hrs, hdbg ▸ hEx⟩, rfl⟩
  obtain ⟨d, w1, hd, hrs⟩ := hview w hr p.T t.th
  have hround : Scalar.lround p.A = ⌊p.A + 1 / 2⌋ := if_pos (by linarith : (0 : ℝ) ≤ p.A)
  have hzround : Scalar.lround p.Z = n := by
    rw [h.ion.Z]
    have h1 : (1 : ℝ) ≤ n := by exact_mod_cast h.ion.pos
    refine (if_pos (by linarith : (0 : ℝ) ≤ (n : ℝ))).trans ?_
    rw [Int.floor_eq_iff]
    constructor <;> linarith
  have hap : 0 < Scalar.lround p.A := by
    rw [hround]
    exact Int.floor_pos.mpr (by linarith)
  have hap1 : Scalar.lround p.A ≤ 240 := by
    rw [hround]
    have : ⌊p.A + 1 / 2⌋ < 241 := Int.floor_lt.mpr (by push_cast; linarith)
    omega
  have hzp : Scalar.lround p.Z ≤ Scalar.lround p.A := by
    rw [hround, hzround]
    exact Int.le_floor.mpr hA
  have hsig : ∀ x, 0 ≤ x → x ≤ t.th → ∃ v,
      sigma_r env.debug p t (Scalar.lround p.A) (Scalar.lround p.Z) rs x = .ok v ∧ 0 ≤ v := by
    intro x h0 h1
    obtain ⟨E, hEx, hE30⟩ := hEs x h0 h1
    exact sigma_r_nonneg env.debug p t _ _ rs h.sound hZ hzp hap hap1 x E hEx hE30
  have hnd : 0 ≤ t.number_density_cm2 := by
    unfold Material.number_density_cm2
    have := h.sound.molar
    have hAv : (0 : ℝ) < Avogadro := by unfold Avogadro; norm_num
    positivity
  have z0 : (0.0 : ℝ) = 0 := by norm_num
  have hval : ∃ v, nonreaction_rate_from env p t rs = .ok v ∧ 0 < v ∧ v ≤ 1 := by
    unfold nonreaction_rate_from
    obtain ⟨E, hEx, hE30⟩ := hEs t.th hth.le le_rfl
    obtain ⟨s0, hs0, hs0'⟩ := hsig 0 le_rfl hth.le
    obtain ⟨s1, hs1, hs1'⟩ := hsig t.th hth.le le_rfl
    rw [hEx, bind_ok]
    dsimp only
    rw [if_neg (by rw [lt_real]; unfold emin_reaction; norm_num; exact hE30), z0, hs0, bind_ok, hs1, bind_ok]
    have hexp : ∀ cs : ℝ, 0 ≤ cs → 0 < Scalar.exp (-cs * 0.0001) ∧ Scalar.exp (-cs * 0.0001) ≤ 1 := by
      intro cs hcs
      rw [exp_real]
      refine ⟨Real.exp_pos _, Real.exp_le_one_iff.mpr ?_⟩
      norm_num
      linarith
    split
    · rw [pure_bind]
      exact ⟨_, rfl, hexp _ (by norm_num; positivity)⟩
    · obtain ⟨I, hI, hI0⟩ := integrator_nonneg
        (sigma_r env.debug p t (Scalar.lround p.A) (Scalar.lround p.Z) rs) 0 t.th hth.le
        (fun x hx => hsig x (by have := hx; exact le_of_lt (by unfold Inner at this; linarith [this.1]))
          (by have := hx; unfold Inner at this; linarith [this.2]))
      rw [hI, bind_ok, pure_bind]
      refine ⟨_, rfl, hexp _ ?_⟩
      have := h.sound.molar
      have hAv : (0 : ℝ) < Avogadro := by unfold Avogadro; norm_num
      positivity
  obtain ⟨v, hv, hb⟩ := hval
  refine ⟨v, w1, ?_, hb⟩
  unfold nonreaction_rate
  rw [if_neg (by rw [lt_real]; unfold emin_reaction; norm_num; exact hT),
    if_neg (by rw [le_real]; norm_num; exact hth)]
  simp only [api_bind, api_pureM, ok_bind]
  exact ⟨d, w1, hd, ⟨rs, hrs, hv⟩, rfl⟩

end Catima
