import Verif.Lemmas.BethePositive
import Mathlib.Analysis.SpecialFunctions.Pow.Continuity

/-!
# C89: the density effect has no jumps
-/

namespace Catima

/-- `l^(10^e) ≤ y^m` for `y = yn / yd`, with integers. -/
def powLe (l y : ℚ) (m e : Nat) : Bool :=
  decide (0 ≤ l.num ∧ 0 < y.num ∧
    l.num.toNat ^ 10 ^ e * y.den ^ m ≤ y.num.toNat ^ m * l.den ^ 10 ^ e)

/-- `y^m ≤ u^(10^e)`. -/
def lePow (u y : ℚ) (m e : Nat) : Bool :=
  decide (0 ≤ u.num ∧ 0 < y.num ∧
    y.num.toNat ^ m * u.den ^ 10 ^ e ≤ u.num.toNat ^ 10 ^ e * y.den ^ m)

/-- At the first knee the two formulae agree to 0.001. -/
def kneeGood (x0 x1 c a m d : Dec) : Bool :=
  decide (0 < a.rat) && decide (0 < m.m) &&
  powLe ((d.rat + c.rat - 4.6052 * x0.rat - 0.001) / a.rat) (x1.rat - x0.rat) m.m.toNat m.e &&
  lePow ((d.rat + c.rat - 4.6052 * x0.rat + 0.001) / a.rat) (x1.rat - x0.rat) m.m.toNat m.e

def kneeRow (i : Nat) : Bool :=
  match density_effect_x0[i]?, density_effect_x1[i]?, density_effect_c[i]?,
    density_effect_a[i]?, density_effect_m[i]?, density_effect_del_0[i]? with
  | some x0, some x1, some c, some a, some m, some d => kneeGood x0 x1 c a m d
  | _, _, _, _, _, _ => false

theorem knee_rows : ∀ i < 97, i ≠ 84 → i ≠ 86 → kneeRow i = true := by
  decide +kernel

theorem real_powLe {l y : ℚ} {m e : Nat} (h : powLe l y m e = true) :
    (l : ℝ) ≤ (y : ℝ) ^ ((m : ℝ) / 10 ^ e) := by
  obtain ⟨hl, hy, h⟩ := of_decide_eq_true h
  have hy0 : 0 < y := Rat.num_pos.mp hy
  have hl0 : 0 ≤ l := Rat.num_nonneg.mp hl
  have key : l ^ 10 ^ e ≤ y ^ m := by
    have hln : ((l.num.toNat : ℕ) : ℚ) = l.num := by
      have : ((l.num.toNat : ℕ) : Int) = l.num := Int.toNat_of_nonneg hl
      exact_mod_cast congrArg (Int.cast : Int → ℚ) this
    have hyn : ((y.num.toNat : ℕ) : ℚ) = y.num := by
      have : ((y.num.toNat : ℕ) : Int) = y.num := Int.toNat_of_nonneg hy.le
      exact_mod_cast congrArg (Int.cast : Int → ℚ) this
    have h' : ((l.num.toNat : ℕ) : ℚ) ^ 10 ^ e * (y.den : ℚ) ^ m ≤
        ((y.num.toNat : ℕ) : ℚ) ^ m * (l.den : ℚ) ^ 10 ^ e := by exact_mod_cast h
    rw [hln, hyn] at h'
    have hld : (0 : ℚ) < l.den := by exact_mod_cast l.den_pos
    have hyd : (0 : ℚ) < y.den := by exact_mod_cast y.den_pos
    rw [← Rat.num_div_den l, ← Rat.num_div_den y, div_pow, div_pow, div_le_div_iff₀ (by positivity) (by positivity)]
    exact h'
  have hyR : (0 : ℝ) < y := by exact_mod_cast hy0
  have key' : (l : ℝ) ^ 10 ^ e ≤ ((y : ℝ) ^ ((m : ℝ) / 10 ^ e)) ^ 10 ^ e := by
    rw [← Real.rpow_natCast ((y : ℝ) ^ ((m : ℝ) / 10 ^ e)), ← Real.rpow_mul hyR.le]
    have : (m : ℝ) / 10 ^ e * ((10 ^ e : ℕ) : ℝ) = (m : ℝ) := by
      push_cast
      exact div_mul_cancel₀ _ (by positivity)
    rw [this, Real.rpow_natCast]
    exact_mod_cast key
  exact le_of_pow_le_pow_left₀ (by positivity) (by positivity) key'

theorem real_lePow {u y : ℚ} {m e : Nat} (h : lePow u y m e = true) :
    (y : ℝ) ^ ((m : ℝ) / 10 ^ e) ≤ u := by
  obtain ⟨hl, hy, h⟩ := of_decide_eq_true h
  have hy0 : 0 < y := Rat.num_pos.mp hy
  have hl0 : 0 ≤ u := Rat.num_nonneg.mp hl
  have key : y ^ m ≤ u ^ 10 ^ e := by
    have hln : ((u.num.toNat : ℕ) : ℚ) = u.num := by
      have : ((u.num.toNat : ℕ) : Int) = u.num := Int.toNat_of_nonneg hl
      exact_mod_cast congrArg (Int.cast : Int → ℚ) this
    have hyn : ((y.num.toNat : ℕ) : ℚ) = y.num := by
      have : ((y.num.toNat : ℕ) : Int) = y.num := Int.toNat_of_nonneg hy.le
      exact_mod_cast congrArg (Int.cast : Int → ℚ) this
    have h' : ((y.num.toNat : ℕ) : ℚ) ^ m * (u.den : ℚ) ^ 10 ^ e ≤
        ((u.num.toNat : ℕ) : ℚ) ^ 10 ^ e * (y.den : ℚ) ^ m := by exact_mod_cast h
    rw [hln, hyn] at h'
    have hld : (0 : ℚ) < u.den := by exact_mod_cast u.den_pos
    have hyd : (0 : ℚ) < y.den := by exact_mod_cast y.den_pos
    rw [← Rat.num_div_den u, ← Rat.num_div_den y, div_pow, div_pow, div_le_div_iff₀ (by positivity) (by positivity)]
    exact h'
  have hyR : (0 : ℝ) < y := by exact_mod_cast hy0
  have hu : (0 : ℝ) ≤ u := by exact_mod_cast hl0
  have key' : ((y : ℝ) ^ ((m : ℝ) / 10 ^ e)) ^ 10 ^ e ≤ (u : ℝ) ^ 10 ^ e := by
    rw [← Real.rpow_natCast ((y : ℝ) ^ ((m : ℝ) / 10 ^ e)), ← Real.rpow_mul hyR.le]
    have : (m : ℝ) / 10 ^ e * ((10 ^ e : ℕ) : ℝ) = (m : ℝ) := by
      push_cast
      exact div_mul_cancel₀ _ (by positivity)
    rw [this, Real.rpow_natCast]
    exact_mod_cast key
  exact le_of_pow_le_pow_left₀ (by positivity) hu key'

theorem kneeGood_real {x0 x1 c a m d : Dec} (h : kneeGood x0 x1 c a m d = true) :
    0 < (m.rat : ℝ) ∧
    |4.6052 * (x0.rat : ℝ) - c.rat + a.rat * ((x1.rat : ℝ) - x0.rat) ^ (m.rat : ℝ) - d.rat| ≤ 0.001 := by
  unfold kneeGood at h
  simp only [Bool.and_eq_true, decide_eq_true_eq] at h
  obtain ⟨⟨⟨ha, hm⟩, h1⟩, h2⟩ := h
  have hm' : ((m.m.toNat : ℕ) : ℝ) / 10 ^ m.e = (m.rat : ℝ) := by
    have h3 : ((m.m.toNat : ℕ) : Int) = m.m := Int.toNat_of_nonneg hm.le
    have h4 : ((m.m.toNat : ℕ) : ℝ) = (m.m : ℝ) := by exact_mod_cast congrArg (Int.cast : Int → ℝ) h3
    unfold Dec.rat
    rw [h4]
    push_cast
    rfl
  have h1 := real_powLe h1
  have h2 := real_lePow h2
  rw [hm'] at h1 h2
  have haR : (0 : ℝ) < a.rat := by exact_mod_cast ha
  have hmR : (0 : ℝ) < m.rat := by
    rw [← hm']
    have : 0 < m.m.toNat := by omega
    positivity
  refine ⟨hmR, ?_⟩
  push_cast at h1 h2
  rw [div_le_iff₀ haR] at h1
  rw [le_div_iff₀ haR] at h2
  rw [abs_le]
  norm_num at h1 h2 ⊢
  constructor <;> linarith

/-- Two continuous pieces that meet at `x0` up to `J` do not jump by more than `J` anywhere. -/
theorem two_pieces (L H : ℝ → ℝ) (hL : Continuous L) (hH : Continuous H) (x0 J : ℝ)
    (hJ : |H x0 - L x0| ≤ J) (x : ℝ) (ε : ℝ) (hε : 0 < ε) :
    ∃ δ > 0, ∀ y, |y - x| < δ →
      |(if y < x0 then L y else H y) - (if x < x0 then L x else H x)| ≤ J + ε := by
  have hJ0 : 0 ≤ J := (abs_nonneg _).trans hJ
  obtain ⟨d1, hd1, h1⟩ := Metric.continuousAt_iff.mp (hL.continuousAt (x := x)) ε hε
  obtain ⟨d2, hd2, h2⟩ := Metric.continuousAt_iff.mp (hH.continuousAt (x := x)) ε hε
  simp only [Real.dist_eq] at h1 h2
  by_cases hx : x = x0
  · refine ⟨min d1 d2, lt_min hd1 hd2, fun y hy => ?_⟩
    obtain ⟨hy1, hy2⟩ := lt_min_iff.mp hy
    rw [if_neg (show ¬ x < x0 by rw [hx]; exact lt_irrefl _)]
    split
    · have a1 := h1 hy1
      rw [hx] at a1 ⊢
      have : L y - H x0 = (L y - L x0) - (H x0 - L x0) := by ring
      rw [this]
      have := abs_sub (L y - L x0) (H x0 - L x0)
      linarith
    · have := h2 hy2
      linarith
  · have hne : 0 < |x - x0| := abs_pos.mpr (sub_ne_zero.mpr hx)
    refine ⟨min (min d1 d2) |x - x0|, lt_min (lt_min hd1 hd2) hne, fun y hy => ?_⟩
    obtain ⟨hy12, hy3⟩ := lt_min_iff.mp hy
    obtain ⟨hy1, hy2⟩ := lt_min_iff.mp hy12
    obtain ⟨ha, hb⟩ := abs_lt.mp hy3
    rcases lt_or_gt_of_ne hx with h | h
    · rw [abs_of_neg (by linarith)] at ha hb
      rw [if_pos h, if_pos (by linarith)]
      linarith [h1 hy1]
    · rw [abs_of_pos (by linarith)] at ha hb
      rw [if_neg (by linarith), if_neg (by linarith)]
      linarith [h2 hy2]

/-- The formula in terms of `x = log(beta gamma) / 2.3025851`. -/
noncomputable def densityFormula (x0 x1 c a m d : ℝ) (x : ℝ) : ℝ :=
  if x < x0 then d * (10 : ℝ) ^ (2 * (x - x0))
  else if x ≤ x1 then 4.6052 * x - c + a * (x1 - x) ^ m else 4.6052 * x - c

theorem densityFormula_jump (x0 x1 c a m d : ℝ) (hm : 0 < m)
    (hJ : |4.6052 * x0 - c + a * (x1 - x0) ^ m - d| ≤ 0.001) (h01 : x0 ≤ x1) (x ε : ℝ) (hε : 0 < ε) :
    ∃ δ > 0, ∀ y, |y - x| < δ →
      |densityFormula x0 x1 c a m d y - densityFormula x0 x1 c a m d x| ≤ 0.001 + ε := by
  refine two_pieces (fun x => d * (10 : ℝ) ^ (2 * (x - x0)))
    (fun x => if x ≤ x1 then 4.6052 * x - c + a * (x1 - x) ^ m else 4.6052 * x - c) ?_ ?_ x0 0.001 ?_ x ε hε
  · refine continuous_const.mul (Continuous.rpow continuous_const (by fun_prop) fun x => Or.inl (by norm_num))
  · refine Continuous.if_le ?_ (by fun_prop) continuous_id continuous_const ?_
    · refine Continuous.add (by fun_prop) (continuous_const.mul ?_)
      exact Continuous.rpow_const (by fun_prop) fun x => Or.inr hm.le
    · intro x hx
      rw [show x = x1 from hx, sub_self, Real.zero_rpow hm.ne', mul_zero, add_zero]
  · show |(if x0 ≤ x1 then _ else _) - d * (10 : ℝ) ^ (2 * (x0 - x0))| ≤ _
    rw [if_pos h01]
    simpa using hJ

theorem density_formula (zt : Int) (h : 1 ≤ zt) : ∃ i < 97, ∃ x0 x1 c a m d : Dec,
    i = (min zt 97).toNat - 1 ∧
    density_effect_x0[i]? = some x0 ∧ density_effect_x1[i]? = some x1 ∧ density_effect_c[i]? = some c ∧
    density_effect_a[i]? = some a ∧ density_effect_m[i]? = some m ∧ density_effect_del_0[i]? = some d ∧
    ∀ beta : ℝ, bethek_density_effect beta zt = .ok (densityFormula x0.rat x1.rat c.rat a.rat m.rat d.rat
      (Real.log (beta * (1 / √(1 - beta * beta))) / 2.3025851)) := by
  obtain ⟨l0, l1, l2, l3, l4, l5⟩ := density_lengths
  obtain ⟨k, hk, e⟩ : ∃ k < 97, (if zt > 97 then (97 : Int) else zt) - 1 = (k : Nat) :=
    ⟨((if zt > 97 then (97 : Int) else zt) - 1).toNat, by split <;> omega, by split <;> omega⟩
  obtain ⟨x0, g0, e0⟩ := rdDec_at density_effect_x0 k (by omega)
  obtain ⟨x1, g1, e1⟩ := rdDec_at density_effect_x1 k (by omega)
  obtain ⟨c, g2, e2⟩ := rdDec_at density_effect_c k (by omega)
  obtain ⟨a, g3, e3⟩ := rdDec_at density_effect_a k (by omega)
  obtain ⟨m, g4, e4⟩ := rdDec_at density_effect_m k (by omega)
  obtain ⟨d, g5, e5⟩ := rdDec_at density_effect_del_0 k (by omega)
  have hg := density_rows k hk _ _ _ _ _ _ g0 g1 g2 g3 g4 g5
  refine ⟨k, hk, x0, x1, c, a, m, d, by split at e <;> omega, g0, g1, g2, g3, g4, g5, fun beta => ?_⟩
  unfold bethek_density_effect densityFormula
  dsimp only
  rw [e]
  simp only [log_real, sqrt_real, pow_real]
  rw [show (1.0 : ℝ) = 1 by norm_num]
  generalize Real.log (beta * (1 / √(1 - beta * beta))) / 2.3025851 = x
  rw [e0, bind_ok]
  by_cases hx : x < (x0.rat : ℝ)
  · rw [if_pos (by rw [lt_real]; exact hx), if_pos hx, e5, bind_ok]
    by_cases hd : (0 : ℝ) < d.rat
    · rw [if_pos (by rw [lt_real]; norm_num; exact_mod_cast hd)]
      show Except.ok _ = Except.ok _
      norm_num
    · rw [if_neg (by rw [lt_real]; norm_num; exact_mod_cast not_lt.mp hd)]
      have : (d.rat : ℝ) = 0 := by
        have h1 : (0 : ℝ) ≤ d.rat := by exact_mod_cast hg.2.2.2.2.2.2.1
        linarith
      rw [this, zero_mul]
      show Except.ok _ = Except.ok _
      norm_num
  · rw [if_neg (by rw [lt_real]; exact hx), if_neg hx, e2, bind_ok, e1, bind_ok]
    by_cases hx1 : x ≤ (x1.rat : ℝ)
    · rw [if_pos (by rw [Bool.and_eq_true, le_real, le_real]; exact ⟨not_lt.mp hx, hx1⟩), if_pos hx1, e3,
        bind_ok, e4, bind_ok]
      rfl
    · rw [if_neg (by rw [Bool.and_eq_true, le_real, le_real]; exact fun h => hx1 h.2), if_neg hx1]
      rfl

theorem betagamma_continuousAt (b : ℝ) (h0 : 0 < b) (h1 : b < 1) :
    ContinuousAt (fun beta : ℝ => Real.log (beta * (1 / √(1 - beta * beta))) / 2.3025851) b := by
  have h2 : 0 < 1 - b * b := by nlinarith
  have h3 : √(1 - b * b) ≠ 0 := (Real.sqrt_pos.mpr h2).ne'
  have h4 : b * (1 / √(1 - b * b)) ≠ 0 := by
    have := Real.sqrt_pos.mpr h2
    positivity
  fun_prop (disch := assumption)

/-- C89, what holds: for every element other than astatine and francium the density effect jumps nowhere
by more than 0.001 (the rounding of the parameters). -/
theorem density_no_jump_partial (zt : Int) (h : 1 ≤ zt) (h85 : zt ≠ 85) (h87 : zt ≠ 87) :
    ∃ D : ℝ → ℝ, (∀ beta, bethek_density_effect beta zt = .ok (D beta)) ∧
      ∀ b, 0 < b → b < 1 → ∀ ε > 0, ∃ δ > 0, ∀ b', |b' - b| < δ → |D b' - D b| ≤ 0.001 + ε := by
  obtain ⟨i, hi, x0, x1, c, a, m, d, hi', g0, g1, g2, g3, g4, g5, hD⟩ := density_formula zt h
  refine ⟨_, hD, fun b hb0 hb1 ε hε => ?_⟩
  have hrow := knee_rows i hi (by omega) (by omega)
  unfold kneeRow at hrow
  rw [g0, g1, g2, g3, g4, g5] at hrow
  obtain ⟨hm, hJ⟩ := kneeGood_real hrow
  have hg := density_rows i hi _ _ _ _ _ _ g0 g1 g2 g3 g4 g5
  have h01 : (x0.rat : ℝ) ≤ x1.rat := by
    have : x0.rat ≤ x1.rat := by linarith [hg.2.2.1]
    exact_mod_cast this
  obtain ⟨δ, hδ, hy⟩ := densityFormula_jump _ _ _ _ _ _ hm hJ h01
    (Real.log (b * (1 / √(1 - b * b))) / 2.3025851) ε hε
  obtain ⟨δ', hδ', hb'⟩ := Metric.continuousAt_iff.mp (betagamma_continuousAt b hb0 hb1) δ hδ
  exact ⟨δ', hδ', fun b' h => hy _ (hb' h)⟩

/-- Every velocity below that of light is reached by `beta gamma`. -/
theorem betagamma_reach (g : ℝ) (hg : 0 < g) : ∃ b, 0 < b ∧ b < 1 ∧ b * (1 / √(1 - b * b)) = g := by
  have h1 : 0 < 1 + g ^ 2 := by positivity
  have hs := Real.sqrt_pos.mpr h1
  have hss := Real.mul_self_sqrt h1.le
  refine ⟨g / √(1 + g ^ 2), by positivity, ?_, ?_⟩
  · rw [div_lt_one hs]
    nlinarith
  · have : 1 - g / √(1 + g ^ 2) * (g / √(1 + g ^ 2)) = (1 / √(1 + g ^ 2)) ^ 2 := by
      field_simp
      rw [Real.sq_sqrt h1.le]
      ring
    rw [this, Real.sqrt_sq (by positivity)]
    field_simp

/-- C89, what fails: for astatine and francium there is a velocity at which the density effect falls from
0 to less than -3. -/
theorem density_jump_wrong (zt : Int) (h : zt = 85 ∨ zt = 87) : ∃ b : ℝ, 0 < b ∧ b < 1 ∧
    (∃ v, bethek_density_effect b zt = .ok v ∧ v < -3) ∧
    ∀ b', 0 < b' → b' < b → bethek_density_effect b' zt = .ok 0 := by
  have key : ∃ x0 x1 c a m d : Dec, (∀ beta : ℝ, bethek_density_effect beta zt =
      .ok (densityFormula x0.rat x1.rat c.rat a.rat m.rat d.rat
        (Real.log (beta * (1 / √(1 - beta * beta))) / 2.3025851))) ∧ d.rat = 0 ∧ x0.rat ≤ x1.rat ∧
      1 ≤ x1.rat - x0.rat ∧ 0 < a.rat ∧ m.rat ≤ 2 ∧
      4.6052 * x0.rat - c.rat + a.rat * (x1.rat - x0.rat) ^ 2 < -3 := by
    obtain ⟨i, hi, x0, x1, c, a, m, d, hi', g0, g1, g2, g3, g4, g5, hD⟩ :=
      density_formula zt (by rcases h with rfl | rfl <;> norm_num)
    refine ⟨x0, x1, c, a, m, d, hD, ?_⟩
    rcases h with rfl | rfl
    · obtain rfl : i = 84 := by omega
      simp only [density_effect_x0, density_effect_x1, density_effect_c, density_effect_a,
        density_effect_m, density_effect_del_0, List.getElem?_cons_succ, List.getElem?_cons_zero,
        Option.some.injEq] at g0 g1 g2 g3 g4 g5
      subst g0 g1 g2 g3 g4 g5
      norm_num [Dec.rat]
    · obtain rfl : i = 86 := by omega
      simp only [density_effect_x0, density_effect_x1, density_effect_c, density_effect_a,
        density_effect_m, density_effect_del_0, List.getElem?_cons_succ, List.getElem?_cons_zero,
        Option.some.injEq] at g0 g1 g2 g3 g4 g5
      subst g0 g1 g2 g3 g4 g5
      norm_num [Dec.rat]
  obtain ⟨x0, x1, c, a, m, d, hD, hd, h01, h1, ha, hm, hval⟩ := key
  obtain ⟨b, hb0, hb1, hb⟩ := betagamma_reach (Real.exp (2.3025851 * x0.rat)) (Real.exp_pos _)
  have hx : Real.log (b * (1 / √(1 - b * b))) / 2.3025851 = (x0.rat : ℝ) := by
    rw [hb, Real.log_exp]
    exact mul_div_cancel_left₀ _ (by norm_num)
  refine ⟨b, hb0, hb1, ⟨_, hD b, ?_⟩, fun b' hb'0 hb'1 => ?_⟩
  · rw [hx]
    unfold densityFormula
    rw [if_neg (lt_irrefl _), if_pos (by exact_mod_cast h01)]
    have h1R : (1 : ℝ) ≤ (x1.rat : ℝ) - x0.rat := by exact_mod_cast h1
    have hpow : ((x1.rat : ℝ) - x0.rat) ^ (m.rat : ℝ) ≤ ((x1.rat : ℝ) - x0.rat) ^ 2 := by
      rw [← Real.rpow_natCast]
      exact Real.rpow_le_rpow_of_exponent_le h1R (by exact_mod_cast hm)
    have haR : (0 : ℝ) < a.rat := by exact_mod_cast ha
    have hvalR : 4.6052 * (x0.rat : ℝ) - c.rat + a.rat * ((x1.rat : ℝ) - x0.rat) ^ 2 < -3 := by
      have := (Rat.cast_lt (K := ℝ)).mpr hval
      push_cast at this
      norm_num at this ⊢
      exact this
    have := mul_le_mul_of_nonneg_left hpow haR.le
    linarith
  · have hlt : Real.log (b' * (1 / √(1 - b' * b'))) / 2.3025851 < (x0.rat : ℝ) := by
      rw [← hx]
      apply div_lt_div_of_pos_right _ (by norm_num)
      have s1 : 0 < 1 - b * b := by nlinarith
      have s2 : 1 - b * b < 1 - b' * b' := by nlinarith
      have s3 := Real.sqrt_pos.mpr s1
      have s4 := Real.sqrt_lt_sqrt s1.le s2
      apply Real.log_lt_log (by have := s3.trans s4; positivity)
      apply mul_lt_mul hb'1 (one_div_le_one_div_of_le s3 s4.le) (by have := s3.trans s4; positivity) hb0.le
    rw [hD b']
    unfold densityFormula
    rw [if_pos hlt, hd]
    simp

/-- Lead. -/
example : ∃ D : ℝ → ℝ, (∀ beta, bethek_density_effect beta 82 = .ok (D beta)) ∧
    ∀ b, 0 < b → b < 1 → ∀ ε > 0, ∃ δ > 0, ∀ b', |b' - b| < δ → |D b' - D b| ≤ 0.001 + ε :=
  density_no_jump_partial 82 (by norm_num) (by norm_num) (by norm_num)

end Catima
