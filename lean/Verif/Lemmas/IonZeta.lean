import Verif.Lemmas.IonStep
import Verif.Lemmas.ProtonValue

/-!
# The effective charge of ions at the end of the SRIM curve
-/

namespace Catima

theorem zeta0_near (q m : ℝ) (h1 : q ≤ 0.94) (hm : m ≤ 0.05) : q + (1 - q) * m ≤ 0.946 := by
  have : (1 - q) * m ≤ (1 - q) * 0.05 := mul_le_mul_of_nonneg_left hm (by linarith)
  norm_num at *
  linarith

/-- The charge in the low-energy model from 10 MeV/u on. -/
theorem ionZeta_value {pZ tZ : Int} {iz lam vf : ℝ} (h : ScreenIn pZ iz lam vf) (h27 : pZ ≤ 27) (hT : 1 ≤ tZ) (hT' : tZ ≤ 92) (x : ℝ) (hx : 10 ≤ x) :
    0.8639 ≤ ionZeta pZ tZ iz lam vf x ∧ ionZeta pZ tZ iz lam vf x ≤ 1.003 ∧
      (23 ≤ pZ → x ≤ 16 → ionZeta pZ tZ iz lam vf x ≤ 0.95) ∧ ¬ ionY iz vf x ≤ max 0.13 (iz * iz) := by
  have p3 : (3 : ℝ) ≤ pZ := by exact_mod_cast h.three
  have t1 : (1 : ℝ) ≤ tZ := by exact_mod_cast hT
  have t2 : (tZ : ℝ) ≤ 92 := by exact_mod_cast hT'
  have iz27 : 1 ≤ 27 * iz ^ 3 := by
    have : (pZ : ℝ) ≤ 27 := by exact_mod_cast h27
    have := mul_le_mul_of_nonneg_right this (pow_pos h.iz0 3).le
    rw [h.cube] at this
    exact this
  have i3 : 1 / 3 ≤ iz := by
    by_contra hc
    rw [not_le] at hc
    have := pow_lt_pow_left₀ hc h.iz0.le (n := 3) (by norm_num)
    linarith
  have i9 : 1 / 9 ≤ iz * iz := by nlinarith
  have v20 : 20 ≤ √(1000 * x / 25) := by
    rw [Real.le_sqrt' (by norm_num)]
    linarith
  have hp : 0 < √(1000 * x / 25) / vf := div_pos (by linarith) h.vf0
  have l1 : √(1000 * x / 25) ≤ vf * relV (√(1000 * x / 25) / vf) := by
    have := mul_le_mul_of_nonneg_left (relV_low _ hp).1 h.vf0.le
    rwa [mul_div_cancel₀ _ h.vf0.ne'] at this
  have n1 : ¬ ionY iz vf x ≤ max 0.13 (iz * iz) := by
    rw [ionY_low h.iz0]
    have := (ionVR_bounds h.iz0).2 iz27
    norm_num at this
    intro hc
    linarith
  have y20 : 20 / 9 ≤ ionY iz vf x := by
    have h1 : vf * relV (√(1000 * x / 25) / vf) * (iz * iz) ≤ ionY iz vf x := (le_max_right _ _).trans (le_max_left _ _)
    have := mul_le_mul (v20.trans l1) i9 (by norm_num) (by linarith)
    refine le_trans ?_ (this.trans h1)
    norm_num
  have y13 : 0.13 ≤ ionY iz vf x := le_trans (by norm_num) y20
  obtain ⟨eq, s815⟩ := hiQ_eq _ y13
  obtain ⟨r10, -, -⟩ := tenth_root _ (lt_of_lt_of_le (by norm_num) y13)
  have s1 : 1.083 ≤ (ionY iz vf x) ^ (0.1 : ℝ) := by
    by_contra hc
    rw [not_le] at hc
    have := pow_lt_pow_left₀ hc (le_trans (by norm_num) s815) (n := 10) (by norm_num)
    rw [r10] at this
    have := y20.trans_lt this
    norm_num at this
  have A1 : 1.995 ≤ levelA ((ionY iz vf x) ^ (0.1 : ℝ)) := by
    refine le_trans ?_ (levelA_mono 1.083 _ (by norm_num) s1)
    unfold levelA
    norm_num
  have q0 : 0.8639 ≤ hiQ (ionY iz vf x) := by
    have e1 := (exp_50 99).1
    have h2 : 7.242 ≤ expLow 99 := by decide +kernel
    have h3 := (Rat.cast_le (K := ℝ)).mpr h2
    have e : (((99 : Int) : ℝ)) / 50 = 1.98 := by norm_num
    rw [e] at e1
    have h4 := Real.add_one_le_exp (0.015 : ℝ)
    have e5 : (7.242 : ℝ) ≤ Real.exp 1.98 := by
      refine le_trans (le_of_eq ?_) (h3.trans e1)
      norm_num
    have e6 : (7.35 : ℝ) ≤ Real.exp 1.995 := by
      rw [show (1.995 : ℝ) = 1.98 + 0.015 by norm_num, Real.exp_add]
      calc (7.35 : ℝ) ≤ 7.242 * (0.015 + 1) := by norm_num
        _ ≤ _ := mul_le_mul e5 h4 (by norm_num) (Real.exp_pos _).le
    have e7 : Real.exp (-min (levelA ((ionY iz vf x) ^ (0.1 : ℝ))) 50) ≤ 1 / 7.35 := by
      rw [Real.exp_neg, inv_eq_one_div]
      refine one_div_le_one_div_of_le (by norm_num) (e6.trans (Real.exp_le_exp.mpr (le_min A1 (by norm_num))))
    rw [eq]
    norm_num at e7 ⊢
    linarith
  have q1 : hiQ (ionY iz vf x) ≤ 1 := by
    rw [eq]
    have := Real.exp_pos (-min (levelA ((ionY iz vf x) ^ (0.1 : ℝ))) 50)
    linarith
  have G0 : 0 ≤ 1 / ((pZ : ℝ) * pZ) * (0.18 + 0.0015 * (tZ : ℝ)) * Real.exp (-(7.6 - max 0 (Real.log (1000 * x))) ^ 2) := by positivity
  have G1 : 1 / ((pZ : ℝ) * pZ) * (0.18 + 0.0015 * (tZ : ℝ)) * Real.exp (-(7.6 - max 0 (Real.log (1000 * x))) ^ 2) ≤ 0.003 := by
    have a1 : 1 / ((pZ : ℝ) * pZ) ≤ 1 / 9 := one_div_le_one_div_of_le (by norm_num) (by nlinarith)
    have a2 : 0.18 + 0.0015 * (tZ : ℝ) ≤ 0.318 := by norm_num; linarith
    have a3 : Real.exp (-(7.6 - max 0 (Real.log (1000 * x))) ^ 2) ≤ 1 / 12.9 := by
      have m9 : 9.2 ≤ max 0 (Real.log (1000 * x)) := le_max_of_le_right (log_ten_mev x hx)
      generalize max 0 (Real.log (1000 * x)) = m at m9
      have : 2.56 ≤ (7.6 - m) ^ 2 := by norm_num at m9 ⊢; nlinarith
      have e1 := (exp_50 128).1
      have h2 : 12.9 ≤ expLow 128 := by decide +kernel
      have h3 := (Rat.cast_le (K := ℝ)).mpr h2
      have e : (((128 : Int) : ℝ)) / 50 = 2.56 := by norm_num
      rw [e] at e1
      have e5 : (12.9 : ℝ) ≤ Real.exp 2.56 := by
        refine le_trans (le_of_eq ?_) (h3.trans e1)
        norm_num
      rw [Real.exp_neg, inv_eq_one_div]
      exact one_div_le_one_div_of_le (by norm_num) (e5.trans (Real.exp_le_exp.mpr this))
    calc _ ≤ 1 / 9 * 0.318 * (1 / 12.9) := mul_le_mul (mul_le_mul a1 a2 (by positivity) (by norm_num)) a3 (Real.exp_pos _).le (by norm_num)
      _ ≤ _ := by norm_num
  obtain ⟨c0, c1, c2⟩ := scrL_bounds h _ (le_trans (by norm_num) q0) q1
  have M0 := scrM_nonneg vf (scrL pZ iz lam (hiQ (ionY iz vf x)))
  have hiq : 23 ≤ pZ → x ≤ 16 → hiQ (ionY iz vf x) ≤ 0.94 ∧ scrM vf (scrL pZ iz lam (hiQ (ionY iz vf x))) ≤ 0.05 := by
    intro h23 h16
    have p23 : (23 : ℝ) ≤ pZ := by exact_mod_cast h23
    have i2 : iz ^ 2 ≤ 0.1237 := h.sq_le 0.1237 (by norm_num) (by
      have : (23 : ℝ) ^ 2 ≤ (pZ : ℝ) ^ 2 := pow_le_pow_left₀ (by norm_num) p23 2
      norm_num at this ⊢
      linarith)
    have v25 : √(1000 * x / 25) ≤ 25.3 := by
      rw [Real.sqrt_le_left (by norm_num)]
      norm_num
      linarith
    have l2 : vf * relV (√(1000 * x / 25) / vf) ≤ 25.32 := by
      have f1 : 1 ≤ √(1000 * x / 25) / vf := by
        rw [le_div_iff₀ h.vf0]
        have := h.vf1
        norm_num at this
        linarith
      rw [relV_fast _ f1]
      have e : vf * (√(1000 * x / 25) / vf + 0.2 / (√(1000 * x / 25) / vf)) = √(1000 * x / 25) + 0.2 * (vf * vf) / √(1000 * x / 25) := by
        have := h.vf0.ne'
        have : √(1000 * x / 25) ≠ 0 := by positivity
        field_simp
      rw [e]
      have : 0.2 * (vf * vf) / √(1000 * x / 25) ≤ 0.02 := by
        rw [div_le_iff₀ (by linarith)]
        have v1 := h.vf1
        have v0 := h.vf0
        have : vf * vf ≤ 1.29 * 1.29 := mul_le_mul v1 v1 v0.le (by norm_num)
        clear e f1 v25 l1 hp
        generalize √(1000 * x / 25) = V at *
        norm_num at this ⊢
        linarith
      clear e f1 l1 hp
      generalize √(1000 * x / 25) = V at *
      norm_num at this v25 ⊢
      linarith
    have yu : ionY iz vf x ≤ 3.133 := by
      refine max_le (max_le (by norm_num) ?_) ?_
      · have := mul_le_mul l2 (show iz * iz ≤ 0.1237 by rw [← sq]; exact i2) (by positivity) (by norm_num)
        refine this.trans (by norm_num)
      · rw [← sq]; exact i2.trans (by norm_num)
    have s2 : (ionY iz vf x) ^ (0.1 : ℝ) ≤ 1.121 := by
      by_contra hc
      rw [not_le] at hc
      have := pow_lt_pow_left₀ hc (by norm_num) (n := 10) (by norm_num)
      rw [r10] at this
      have := this.trans_le yu
      norm_num at this
    have A2 : levelA ((ionY iz vf x) ^ (0.1 : ℝ)) ≤ 2.78 := by
      refine le_trans (levelA_mono _ 1.121 s815 s2) ?_
      unfold levelA
      norm_num
    constructor
    · have e1 := (exp_50 139).2
      have h2 : expHigh 139 ≤ 16.2 := by decide +kernel
      have h3 := (Rat.cast_le (K := ℝ)).mpr h2
      have e : (((139 : Int) : ℝ)) / 50 = 2.78 := by norm_num
      rw [e] at e1
      have e5 : Real.exp 2.78 ≤ 16.2 := by
        refine (e1.trans h3).trans (le_of_eq ?_)
        norm_num
      have e7 : 1 / 16.2 ≤ Real.exp (-min (levelA ((ionY iz vf x) ^ (0.1 : ℝ))) 50) := by
        rw [Real.exp_neg, inv_eq_one_div]
        exact one_div_le_one_div_of_le (Real.exp_pos _) ((Real.exp_le_exp.mpr ((min_le_left _ _).trans A2)).trans e5)
      rw [eq]
      norm_num at e7 ⊢
      linarith
    · have iz1 : iz ≤ 0.352 := by
        by_contra hc
        rw [not_le] at hc
        have : 0.352 * 0.352 < iz * iz := mul_lt_mul'' hc hc (by norm_num) (by norm_num)
        rw [sq] at i2
        norm_num at this i2
        linarith
      have a1 := (hiL1_bounds pZ h.three iz (hiQ (ionY iz vf x)) h.iz0 q1).2
      have b1 := (bL_bounds pZ iz h.iz0).2.1
      have sl : scrL pZ iz lam (hiQ (ionY iz vf x)) ≤ 0.1514 := by
        unfold scrL
        refine max_le ?_ ?_
        · norm_num at a1 b1 iz1 ⊢
          linarith
        · have : min 1.2 (0.6 + (pZ : ℝ) / 30) = 1.2 := min_eq_left (by norm_num; linarith)
          rw [this]
          have neg : 0.8 - hiQ (ionY iz vf x) * 1.2 ≤ 0 := by norm_num at q0 ⊢; linarith
          have : (0.8 - hiQ (ionY iz vf x) * 1.2) * iz * lam ≤ 0 := by
            rw [mul_assoc]
            exact mul_nonpos_of_nonpos_of_nonneg neg (mul_nonneg h.iz0.le (le_trans (by norm_num) h.lam0))
          exact this.trans (by norm_num)
      refine (scrM_le vf _ c0 h.vf0).trans ?_
      have := pow_le_pow_left₀ c0 sl 2
      norm_num at this ⊢
      linarith
  have hz0 : hiQ (ionY iz vf x) ≤ zeta0 pZ iz lam vf (hiQ (ionY iz vf x)) := (zeta0_low h _ (le_trans (by norm_num) q0) q1).1
  have hz1 : zeta0 pZ iz lam vf (hiQ (ionY iz vf x)) ≤ 1 := by
    unfold zeta0
    norm_num at c2
    nlinarith
  have z0 : 0.8639 ≤ zeta0 pZ iz lam vf (hiQ (ionY iz vf x)) := q0.trans hz0
  have zp : 0 ≤ zeta0 pZ iz lam vf (hiQ (ionY iz vf x)) := le_trans (by norm_num) z0
  unfold ionZeta
  refine ⟨?_, ?_, fun h23 h16 => ?_, n1⟩
  · exact z0.trans (le_mul_of_one_le_right zp (le_add_of_nonneg_right G0))
  · refine (mul_le_mul hz1 (add_le_add_right G1 1) (by positivity) zero_le_one).trans (le_of_eq (by norm_num))
  · obtain ⟨u1, u2⟩ := hiq h23 h16
    have hz2 := zeta0_near _ _ u1 u2
    refine (mul_le_mul hz2 (add_le_add_right G1 1) (by positivity) (by norm_num)).trans (by norm_num)

end Catima
