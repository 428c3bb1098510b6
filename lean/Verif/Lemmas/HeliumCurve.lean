import Verif.Lemmas.BetheSteady
import Verif.Lemmas.ProtonSteady
import Verif.Props.EffectiveCharge
import Mathlib.Analysis.Complex.ExponentialBounds

/-!
# The stopping power curve of helium
-/

namespace Catima

/-- The polynomial in the logarithm of the energy (in keV/u). -/
noncomputable def heA (b : ℝ) : ℝ := 0.2865 + b * (0.1266 + b * (-0.001429 + b * (0.02402 + b * (-0.01135 + b * 0.001475))))

/-- Helium stopping over proton stopping. -/
noncomputable def heF (tZ : Int) (b : ℝ) : ℝ :=
  4 * ((1 - Real.exp (-min 30 (heA b))) * (1 + (0.007 + 0.00005 * (tZ : ℝ)) * Real.exp (-(7.6 - b) ^ 2)) ^ 2)

theorem srimHelium_eq (fp : ℝ → M ℝ) (tZ : Int) (x s : ℝ) (hx : 0 < x) (hs : fp x = .ok s) :
    srimHelium fp tZ x = .ok (s * heF tZ (max 0 (Real.log (1000 * x)))) := by
  unfold srimHelium
  simp only [hs, bind_ok, smin_real, smax_real, exp_real, log_real, sqrt_real, ofInt_real]
  have e1000 : x * 1000.0 = 1000 * x := by norm_num; ring
  rw [e1000]
  have e0 : (0.0 : ℝ) = 0 := by norm_num
  have e11 : (1.0 : ℝ) = 1 := by norm_num
  have e30 : (30.0 : ℝ) = 30 := by norm_num
  have e4 : (4.0 : ℝ) = 4 := by norm_num
  rw [e11, e0, e30, e4]
  have fin : ∀ b, s * ((1 - Real.exp (-min 30 (heA b))) * ((1 + (0.007 + 0.00005 * (tZ : ℝ)) * Real.exp (-(7.6 - b) * (7.6 - b))) *
      (1 + (0.007 + 0.00005 * (tZ : ℝ)) * Real.exp (-(7.6 - b) * (7.6 - b))))) * 4 = s * heF tZ b := by
    intro b
    unfold heF
    rw [show -(7.6 - b) * (7.6 - b) = -(7.6 - b) ^ 2 by ring]
    ring
  by_cases h : 1000 * x ≤ 1
  · have hl : Scalar.le (1000 * x) (1 : ℝ) = true := (le_real _ _).mpr h
    have hm : max 0 (Real.log (1000 * x)) = 0 := by
      apply max_eq_left
      exact Real.log_nonpos (by positivity) h
    rw [if_pos hl, hm]
    have hb : Scalar.beq (1 : ℝ) 1 = true := by rw [beq_real]
    rw [if_pos hb, Real.sqrt_one, mul_one, Real.log_one, max_self]
    rw [← fin 0]
    rfl
  · have hl : ¬ Scalar.le (1000 * x) (1 : ℝ) = true := fun hh => h ((le_real _ _).mp hh)
    rw [not_le] at h
    have hm : max 0 (Real.log (1000 * x)) = Real.log (1000 * x) := max_eq_right (Real.log_nonneg h.le)
    have hb : ¬ Scalar.beq (1000 * x) (1 : ℝ) = true := fun hh => by rw [beq_real] at hh; linarith
    rw [if_neg hl, if_neg hb, hm, ← fin]
    rfl

theorem heA_deriv (b : ℝ) : HasDerivAt heA (0.1266 - 0.002858 * b + 0.07206 * b ^ 2 - 0.0454 * b ^ 3 + 0.007375 * b ^ 4) b := by
  have e : heA = fun b => 0.2865 + 0.1266 * b - 0.001429 * b ^ 2 + 0.02402 * b ^ 3 - 0.01135 * b ^ 4 + 0.001475 * b ^ 5 := by
    funext b; unfold heA; ring
  rw [e]
  have h1 := (hasDerivAt_id b).const_mul (0.1266 : ℝ)
  have h2 := (hasDerivAt_pow 2 b).const_mul (0.001429 : ℝ)
  have h3 := (hasDerivAt_pow 3 b).const_mul (0.02402 : ℝ)
  have h4 := (hasDerivAt_pow 4 b).const_mul (0.01135 : ℝ)
  have h5 := (hasDerivAt_pow 5 b).const_mul (0.001475 : ℝ)
  have := ((((((hasDerivAt_const b (0.2865 : ℝ)).add h1).sub h2).add h3).sub h4).add h5)
  refine (this.congr_deriv ?_).congr_of_eventuallyEq (Filter.Eventually.of_forall fun y => ?_)
  · norm_num
    ring
  · simp

/-- The polynomial increases. -/
theorem heA_mono (b b' : ℝ) (h : b ≤ b') : heA b ≤ heA b' := by
  have : Monotone heA := monotone_of_deriv_nonneg (fun b => (heA_deriv b).differentiableAt) fun b => by
    rw [(heA_deriv b).deriv]
    have h1 : 0.002 ≤ 0.07206 - 0.0454 * b + 0.007375 * b ^ 2 := by nlinarith [sq_nonneg (b - 3.0780)]
    have h2 := mul_le_mul_of_nonneg_right h1 (sq_nonneg b)
    nlinarith [sq_nonneg (b - 0.7)]
  exact this h

/-- The polynomial grows no faster than the exponential. -/
theorem heA_growth (b b' : ℝ) (h0 : 0 ≤ b) (h : b ≤ b') : heA b' ≤ Real.exp (b' - b) * heA b := by
  have hd : ∀ b, HasDerivAt (fun b => heA b * Real.exp (-b))
      ((0.1266 - 0.002858 * b + 0.07206 * b ^ 2 - 0.0454 * b ^ 3 + 0.007375 * b ^ 4 - heA b) * Real.exp (-b)) b := by
    intro b
    have := (heA_deriv b).mul ((hasDerivAt_neg b).exp)
    refine this.congr_deriv ?_
    ring
  have : AntitoneOn (fun b => heA b * Real.exp (-b)) (Set.Ici 0) := by
    refine antitoneOn_of_deriv_nonpos (convex_Ici 0) (fun b _ => (hd b).continuousAt.continuousWithinAt)
      (fun b _ => (hd b).differentiableAt.differentiableWithinAt) fun b hb => ?_
    rw [interior_Ici, Set.mem_Ioi] at hb
    rw [(hd b).deriv]
    refine mul_nonpos_of_nonpos_of_nonneg ?_ (Real.exp_pos _).le
    have h1 : 0.0099 ≤ 0.06942 - 0.018725 * b + 0.001475 * b ^ 2 := by nlinarith [sq_nonneg (b - 6.3475)]
    have h2 := mul_le_mul_of_nonneg_right h1 (show 0 ≤ b ^ 3 by positivity)
    have h3 := mul_nonneg hb.le (sq_nonneg (b - 3.71))
    unfold heA
    nlinarith
  have := this h0 (h0.trans h) h
  dsimp only at this
  have e : Real.exp (b' - b) * heA b = heA b * Real.exp (-b) * Real.exp b' := by
    rw [mul_assoc, ← Real.exp_add]; ring_nf
  rw [e]
  calc heA b' = heA b' * Real.exp (-b') * Real.exp b' := by rw [mul_assoc, ← Real.exp_add]; simp
    _ ≤ _ := mul_le_mul_of_nonneg_right this (Real.exp_pos _).le

/-- `1 - exp (-a)` is concave. -/
theorem one_sub_exp_scale (k a : ℝ) (hk : 1 ≤ k) : 1 - Real.exp (-(k * a)) ≤ k * (1 - Real.exp (-a)) := by
  have h := one_add_mul_self_le_rpow_one_add (s := Real.exp (-a) - 1) (by linarith [Real.exp_pos (-a)]) hk
  rw [add_sub_cancel, ← Real.exp_mul] at h
  rw [show -(k * a) = -a * k by ring]
  nlinarith

/-- The Gaussian changes by less than its argument. -/
theorem gauss_lipschitz (u w : ℝ) : |Real.exp (-u ^ 2) - Real.exp (-w ^ 2)| ≤ |u - w| := by
  have hd : ∀ u, HasDerivAt (fun u : ℝ => Real.exp (-u ^ 2)) (Real.exp (-u ^ 2) * (-(2 * u))) u := by
    intro u
    have := ((hasDerivAt_pow 2 u).neg).exp
    refine this.congr_deriv ?_
    norm_num
  have := Convex.norm_image_sub_le_of_norm_deriv_le (f := fun u : ℝ => Real.exp (-u ^ 2)) (C := 1) (s := Set.univ) (x := w) (y := u)
    (fun u _ => (hd u).differentiableAt) (fun u _ => by
      rw [(hd u).deriv, Real.norm_eq_abs, abs_mul, abs_neg, abs_mul, abs_two, abs_of_pos (Real.exp_pos _)]
      have h1 := Real.add_one_le_exp (u ^ 2)
      have h2 : 2 * |u| ≤ u ^ 2 + 1 := by nlinarith [sq_nonneg (|u| - 1), sq_abs u]
      rw [Real.exp_neg, inv_mul_le_iff₀ (Real.exp_pos _)]
      linarith) convex_univ trivial trivial
  rwa [one_mul] at this

/-- The Gaussian factor over a step. -/
theorem gauss_step (k b b' : ℝ) (k0 : 0 ≤ k) (h : b ≤ b') (h' : b' ≤ b + 0.0386) :
    Step (1 + 0.0386 * k) (1 + 0.0386 * k) (1 + k * Real.exp (-(7.6 - b) ^ 2)) (1 + k * Real.exp (-(7.6 - b') ^ 2)) := by
  have hL := gauss_lipschitz (7.6 - b) (7.6 - b')
  have : |7.6 - b - (7.6 - b')| ≤ 0.0386 := by rw [abs_le]; constructor <;> norm_num at h' ⊢ <;> linarith
  have hL := abs_le.mp (hL.trans this)
  have p1 := Real.exp_pos (-(7.6 - b) ^ 2)
  have p2 := Real.exp_pos (-(7.6 - b') ^ 2)
  generalize Real.exp (-(7.6 - b) ^ 2) = g at *
  generalize Real.exp (-(7.6 - b') ^ 2) = g' at *
  have q1 := mul_le_mul_of_nonneg_left hL.1 k0
  have q2 := mul_le_mul_of_nonneg_left hL.2 k0
  have q3 : 0 ≤ k * g := by positivity
  have q4 : 0 ≤ k * g' := by positivity
  refine ⟨by positivity, by positivity, ?_, ?_⟩ <;> norm_num at * <;> nlinarith

theorem heA_pos (b : ℝ) (h : 0 ≤ b) : 0 < heA b := by
  have := heA_mono 0 b h
  have e : heA 0 = 0.2865 := by unfold heA; norm_num
  rw [e] at this
  exact lt_of_lt_of_le (by norm_num) this

theorem heA_big (b : ℝ) (h : 9.2 ≤ b) : 30 ≤ heA b := by
  refine le_trans ?_ (heA_mono _ _ h)
  unfold heA
  norm_num

theorem heF_step (tZ : Int) (hZ : 1 ≤ tZ) (hZ' : tZ ≤ 120) (b b' : ℝ) (h0 : 0 ≤ b) (h : b ≤ b') (h' : b' ≤ b + 0.0386) :
    Step 1.042 1.0011 (heF tZ b) (heF tZ b') ∧ (9.2 ≤ b → Step 1.0011 1.0011 (heF tZ b) (heF tZ b')) := by
  have z0 : (0 : ℝ) ≤ tZ := by exact_mod_cast (by omega : 0 ≤ tZ)
  have z1 : (tZ : ℝ) ≤ 120 := by exact_mod_cast hZ'
  have hk : (0.007 + 0.00005 * (tZ : ℝ)) ≤ 0.013 := by norm_num; linarith
  have hk0 : 0 ≤ (0.007 + 0.00005 * (tZ : ℝ)) := by positivity
  have G := (gauss_step _ b b' hk0 h h').mono (u' := 1.000502) (d' := 1.000502) (by norm_num at hk ⊢; linarith) (by norm_num at hk ⊢; linarith)
  have G2 := G.mul G
  simp only [← sq] at G2
  have p := heA_pos b h0
  have pos : ∀ a : ℝ, 0 < a → 0 < 1 - Real.exp (-min 30 a) := fun a ha => by
    have : Real.exp (-min 30 a) < 1 := by
      rw [Real.exp_lt_one_iff]
      have := lt_min (show (0 : ℝ) < 30 by norm_num) ha
      linarith
    linarith
  have hm := heA_mono b b' h
  have E : Step 1.0395 1 (1 - Real.exp (-min 30 (heA b))) (1 - Real.exp (-min 30 (heA b'))) := by
    have hg := heA_growth b b' h0 h
    have he : Real.exp (b' - b) ≤ 1.0395 := by
      refine (Real.exp_le_exp.mpr (show b' - b ≤ 0.0386 by norm_num at h' ⊢; linarith)).trans ?_
      exact (exp_le_quartic' 0.0386 (by norm_num) (by norm_num)).trans (by norm_num)
    have e1 : 1 ≤ Real.exp (b' - b) := Real.one_le_exp (by linarith)
    generalize Real.exp (b' - b) = k at *
    refine ⟨pos _ p, pos _ (lt_of_lt_of_le p hm), ?_, ?_⟩
    · have m1 : min 30 (heA b') ≤ k * min 30 (heA b) := by
        rcases le_total 30 (heA b) with hh | hh
        · rw [min_eq_left hh]
          exact (min_le_left _ _).trans (by nlinarith)
        · rw [min_eq_right hh]
          exact (min_le_right _ _).trans hg
      have m2 := one_sub_exp_scale k (min 30 (heA b)) e1
      have m3 := Real.exp_le_exp.mpr (neg_le_neg m1)
      have m4 := pos _ p
      have m5 := mul_le_mul_of_nonneg_right he m4.le
      linarith
    · have m1 : min 30 (heA b) ≤ min 30 (heA b') := min_le_min le_rfl hm
      have m3 := Real.exp_le_exp.mpr (neg_le_neg m1)
      linarith
  refine ⟨((E.mul G2).scale 4 (by norm_num)).mono (by norm_num) (by norm_num), fun h9 => ?_⟩
  have a1 := heA_big b h9
  have a2 : 30 ≤ heA b' := a1.trans hm
  unfold heF
  rw [min_eq_left a1, min_eq_left a2]
  have q := pos 30 (by norm_num)
  rw [min_self] at q
  exact ((G2.scale _ q).scale 4 (by norm_num)).mono (by norm_num) (by norm_num)

/-- The logarithm of the energy in keV/u from 10 MeV/u on. -/
theorem log_ten_mev (x : ℝ) (h : 10 ≤ x) : 9.2 ≤ Real.log (1000 * x) := by
  rw [Real.le_log_iff_exp_le (by positivity)]
  have q2 : Real.exp 9.2 = Real.exp 1 ^ 9 * Real.exp 0.2 := by
    rw [← Real.exp_nat_mul, ← Real.exp_add]; norm_num
  have e2 := Real.exp_one_lt_d9
  have q3 : Real.exp 1 ^ 9 ≤ 8103.2 := le_trans (pow_le_pow_left₀ (by positivity) e2.le 9) (by norm_num)
  have q4 : Real.exp 0.2 ≤ 1.2215 := (exp_le_quartic' 0.2 (by norm_num) (by norm_num)).trans (by norm_num)
  rw [q2]
  calc Real.exp 1 ^ 9 * Real.exp 0.2 ≤ 8103.2 * 1.2215 := mul_le_mul q3 q4 (Real.exp_pos _).le (by norm_num)
    _ ≤ 10000 := by norm_num
    _ ≤ _ := by linarith

/-- Values of the factor from 10 MeV/u on. -/
theorem heF_value (tZ : Int) (hZ : 1 ≤ tZ) (hZ' : tZ ≤ 120) (b : ℝ) (h : 9.2 ≤ b) : 3.999 ≤ heF tZ b ∧ heF tZ b ≤ 4.106 := by
  have z0 : (0 : ℝ) ≤ tZ := by exact_mod_cast (by omega : 0 ≤ tZ)
  have z1 : (tZ : ℝ) ≤ 120 := by exact_mod_cast hZ'
  have hk : (0.007 + 0.00005 * (tZ : ℝ)) ≤ 0.013 := by norm_num; linarith
  have hk0 : 0 ≤ (0.007 + 0.00005 * (tZ : ℝ)) := by positivity
  unfold heF
  rw [min_eq_left (heA_big b h)]
  have g0 := Real.exp_pos (-(7.6 - b) ^ 2)
  have g1 : Real.exp (-(7.6 - b) ^ 2) ≤ 1 := Real.exp_le_one_iff.mpr (by nlinarith [sq_nonneg (7.6 - b)])
  have e0 := Real.exp_pos (-30)
  have e1 : Real.exp (-30) ≤ 0.0001 := by
    rw [Real.exp_neg, inv_le_comm₀ (Real.exp_pos _) (by norm_num)]
    have q2 : Real.exp 30 = Real.exp 1 ^ 30 := by rw [← Real.exp_nat_mul]; norm_num
    rw [q2]
    have := pow_le_pow_left₀ (by norm_num) (show (2 : ℝ) ≤ Real.exp 1 by have := Real.exp_one_gt_d9; norm_num at this; linarith) 30
    norm_num at this ⊢
    linarith
  generalize (0.007 + 0.00005 * (tZ : ℝ)) = k at *
  generalize Real.exp (-(7.6 - b) ^ 2) = g at *
  generalize Real.exp (-30) = e at *
  have kg : k * g ≤ 0.013 := by
    calc k * g ≤ 0.013 * 1 := mul_le_mul hk g1 g0.le (by norm_num)
      _ = _ := by norm_num
  have kg0 : 0 ≤ k * g := by positivity
  generalize k * g = w at *
  have w1 : (1 + w) ^ 2 ≤ 1.0262 := by norm_num at kg ⊢; nlinarith
  have w0 : 1 ≤ (1 + w) ^ 2 := by nlinarith
  generalize (1 + w) ^ 2 = W at *
  constructor <;> norm_num at * <;> nlinarith

theorem helium_core (z2 g Z Br P : ℝ) (z0 : 3.92 ≤ z2) (z1 : z2 ≤ 4) (g0 : 3.999 ≤ g) (g1 : g ≤ 4.106) (hZ : 1 ≤ Z) (B0 : 2.53 ≤ Br) (B1 : Br ≤ 9.586)
    (p0 : 2 * Z ≤ P) (p1 : P ≤ 9 * Z) (hb : 11 ≤ Z → P ≤ 7 * Z ∧ 2.53 ≤ Br) (hs : Z < 11 → 3.2 ≤ Br) :
    z2 * Z * Br ≤ 4.99 * (g * P) ∧ g * P ≤ 3.29 * (z2 * Z * Br) := by
  have B00 : 0 ≤ Br := le_trans (by norm_num) B0
  have w0 : 0 ≤ Z * Br := by positivity
  have P0 : 0 ≤ P := le_trans (by positivity) p0
  have k1 : 3.999 * P ≤ g * P := mul_le_mul_of_nonneg_right g0 P0
  have k2 : g * P ≤ 4.106 * P := mul_le_mul_of_nonneg_right g1 P0
  have k3 : z2 * (Z * Br) ≤ 4 * (Z * Br) := mul_le_mul_of_nonneg_right z1 w0
  have k3' : 3.92 * (Z * Br) ≤ z2 * (Z * Br) := mul_le_mul_of_nonneg_right z0 w0
  have k4 : Z * Br ≤ Z * 9.586 := mul_le_mul_of_nonneg_left B1 (by positivity)
  rw [mul_assoc z2]
  generalize z2 * (Z * Br) = W at *
  generalize g * P = G at *
  constructor
  · norm_num at *; linarith
  · rcases lt_or_ge Z 11 with h | h
    · have k5 : Z * 3.2 ≤ Z * Br := mul_le_mul_of_nonneg_left (hs h) (by positivity)
      norm_num at *; linarith
    · have k5 : Z * 2.53 ≤ Z * Br := mul_le_mul_of_nonneg_left B0 (by positivity)
      have := (hb h).1
      norm_num at *; linarith

end Catima
