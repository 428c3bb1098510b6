import Verif.Props.EffectiveCharge
import Verif.Lemmas.ExpBounds

/-!
# C41: lower bounds of the effective charge of Hubert and of Winger
-/

namespace Catima

theorem log_5_2 : (0.916 : ℝ) ≤ Real.log 2.5 :=
  le_log_of 2 _ _ (by norm_num) (by norm_num) (by norm_num) (by norm_num)
    (by norm_num [Finset.sum_range_succ, Nat.factorial])

/-- What the branches of the Hubert formula have in common: the product of the prefactor and
the exponential is at most 1 when the exponent is large enough. -/
theorem hubert_core (x1 x2 x3 x4 E z k c y L w e : ℝ) (hE : 2.5 ≤ E) (hz : 1 ≤ z)
    (hL : Real.log z ≤ L) (hx2 : k ≤ x2) (hk : 0 ≤ k) (hx3 : 0 ≤ x3) (hx4 : 0 ≤ x4) (hx1 : x1 ≤ c)
    (hcy : c ≤ Real.exp y) (hw : -w ≤ 0.916 * x3 - x4 * L) (he : Real.exp w ≤ e)
    (hy : y ≤ k / e) : x1 * Real.exp (-x2 * E ^ x3 * z ^ (-x4)) ≤ 1 := by
  have hE0 : (0 : ℝ) < E := by linarith
  have h1 : 0.916 * x3 ≤ Real.log E * x3 :=
    mul_le_mul_of_nonneg_right (log_5_2.trans (Real.log_le_log (by norm_num) hE)) hx3
  have h2 : x4 * Real.log z ≤ x4 * L := mul_le_mul_of_nonneg_left hL hx4
  have h3 : E ^ x3 * z ^ (-x4) = Real.exp (Real.log E * x3 - x4 * Real.log z) := by
    rw [Real.rpow_def_of_pos hE0, Real.rpow_def_of_pos (by linarith), ← Real.exp_add]
    congr 1
    ring
  have h4 : Real.exp (-w) ≤ E ^ x3 * z ^ (-x4) := by
    rw [h3]
    exact Real.exp_le_exp.mpr (by linarith)
  have h5 : 1 / e ≤ Real.exp (-w) := by
    rw [Real.exp_neg, ← one_div]
    exact one_div_le_one_div_of_le (Real.exp_pos _) he
  have h0 := Real.exp_pos (-w)
  have he0 : 0 < e := lt_of_lt_of_le (Real.exp_pos w) he
  have h6 : y ≤ x2 * E ^ x3 * z ^ (-x4) := by
    rw [mul_assoc]
    calc y ≤ k / e := hy
      _ = k * (1 / e) := by ring
      _ ≤ k * Real.exp (-w) := mul_le_mul_of_nonneg_left h5 hk
      _ ≤ x2 * (E ^ x3 * z ^ (-x4)) := mul_le_mul hx2 h4 h0.le (hk.trans hx2)
  have h7 : Real.exp (-x2 * E ^ x3 * z ^ (-x4)) ≤ Real.exp (-y) :=
    Real.exp_le_exp.mpr (by
      have : -x2 * E ^ x3 * z ^ (-x4) = -(x2 * E ^ x3 * z ^ (-x4)) := by ring
      rw [this]
      linarith)
  have h8 := Real.exp_pos (-x2 * E ^ x3 * z ^ (-x4))
  calc x1 * Real.exp (-x2 * E ^ x3 * z ^ (-x4)) ≤ Real.exp y * Real.exp (-x2 * E ^ x3 * z ^ (-x4)) :=
        mul_le_mul_of_nonneg_right (hx1.trans hcy) h8.le
    _ ≤ Real.exp y * Real.exp (-y) := mul_le_mul_of_nonneg_left h7 (Real.exp_pos _).le
    _ = 1 := by rw [← Real.exp_add]; simp

theorem log_118 : Real.log 118 ≤ (4.771 : ℝ) :=
  log_le_of 24 _ _ (by norm_num) (by norm_num) (by norm_num [Finset.sum_range_succ, Nat.factorial])

theorem log_60 : Real.log 60 ≤ (4.0944 : ℝ) :=
  log_le_of 22 _ _ (by norm_num) (by norm_num) (by norm_num [Finset.sum_range_succ, Nat.factorial])

theorem log_30 : Real.log 30 ≤ (3.4013 : ℝ) :=
  log_le_of 20 _ _ (by norm_num) (by norm_num) (by norm_num [Finset.sum_range_succ, Nat.factorial])

/-- `exp (-a) ≤ c` from a lower bound of `exp a`. -/
theorem exp_neg_le (n : ℕ) (a b c : ℝ) (ha : 0 ≤ a) (hc : 0 < c) (hb : b ≤ -a)
    (h : 1 / c ≤ ∑ i ∈ Finset.range n, a ^ i / (Nat.factorial i : ℝ)) : Real.exp b ≤ c := by
  have h1 := exp_ge n a (1 / c) ha h
  refine (Real.exp_le_exp.mpr hb).trans ?_
  rw [Real.exp_neg, ← one_div]
  rw [div_le_iff₀ hc] at h1
  rw [div_le_iff₀ (Real.exp_pos _)]
  linarith

/-- C41, lower bound of Hubert: for projectiles and targets with charges from 1 to 118 the effective
charge is not negative. -/
theorem hubert_nonneg (z E tz : ℝ) (hz : 1 ≤ z) (hz' : z ≤ 118) (ht : 1 ≤ tz) (ht' : tz ≤ 118) :
    0 ≤ z_eff_Hubert z E tz := by
  have key : ∀ a : ℝ, a ≤ 1 → 0 ≤ z * (1.0 - a) := fun a ha => by
    norm_num
    nlinarith
  unfold z_eff_Hubert
  dsimp only
  split
  · norm_num
  rename_i hE
  have hE : (2.5 : ℝ) ≤ E := by
    rw [lt_real] at hE
    linarith
  simp only [exp_real, pow_real, log_real]
  have hlog : ∀ b : ℝ, z ≤ b → Real.log z ≤ Real.log b := fun b hb =>
    Real.log_le_log (by linarith) hb
  split
  · apply key
    by_cases h : z ≤ 60
    · refine hubert_core _ _ _ _ E z 7 4.045 1.4 4.0944 1.4657 4.34 hE hz ((hlog _ h).trans log_60)
        (by norm_num) (by norm_num) (by norm_num) (by norm_num) ?_ ?_ (by norm_num) ?_ (by norm_num)
      · have : Real.exp (-0.04369 * z) ≤ 1 := Real.exp_le_one_iff.mpr (by linarith)
        linarith
      · exact exp_ge 12 _ _ (by norm_num) (by norm_num [Finset.sum_range_succ, Nat.factorial])
      · exact exp_le 2 _ _ (by norm_num) (by norm_num) (by norm_num)
          (by norm_num [Finset.sum_range_succ, Nat.factorial])
    · refine hubert_core _ _ _ _ E z 7 2.2 0.8 4.771 1.748 5.75 hE hz ((hlog _ hz').trans log_118)
        (by norm_num) (by norm_num) (by norm_num) (by norm_num) ?_ ?_ (by norm_num) ?_ (by norm_num)
      · have : Real.exp (-0.04369 * z) ≤ 0.075 :=
          exp_neg_le 10 2.6 _ _ (by norm_num) (by norm_num) (by linarith)
            (by norm_num [Finset.sum_range_succ, Nat.factorial])
        linarith
      · exact exp_ge 12 _ _ (by norm_num) (by norm_num [Finset.sum_range_succ, Nat.factorial])
      · exact exp_le 2 _ _ (by norm_num) (by norm_num) (by norm_num)
          (by norm_num [Finset.sum_range_succ, Nat.factorial])
  split
  · apply key
    by_cases h : z ≤ 60
    · refine hubert_core _ _ _ _ E z 6.933 4.494 1.51 4.0944 1.4023 4.07 hE hz
        ((hlog _ h).trans log_60)
        (by norm_num) (by norm_num) (by norm_num) (by norm_num) ?_ ?_ (by norm_num) ?_ (by norm_num)
      · have : Real.exp (-0.03958 * z) ≤ 1 := Real.exp_le_one_iff.mpr (by linarith)
        linarith
      · exact exp_ge 12 _ _ (by norm_num) (by norm_num [Finset.sum_range_succ, Nat.factorial])
      · exact exp_le 2 _ _ (by norm_num) (by norm_num) (by norm_num)
          (by norm_num [Finset.sum_range_succ, Nat.factorial])
    · refine hubert_core _ _ _ _ E z 6.933 2.78 1.03 4.771 1.6708 5.32 hE hz
        ((hlog _ hz').trans log_118)
        (by norm_num) (by norm_num) (by norm_num) (by norm_num) ?_ ?_ (by norm_num) ?_ (by norm_num)
      · have : Real.exp (-0.03958 * z) ≤ 0.1 :=
          exp_neg_le 10 2.37 _ _ (by norm_num) (by norm_num) (by linarith)
            (by norm_num [Finset.sum_range_succ, Nat.factorial])
        linarith
      · exact exp_ge 12 _ _ (by norm_num) (by norm_num [Finset.sum_range_succ, Nat.factorial])
      · exact exp_le 2 _ _ (by norm_num) (by norm_num) (by norm_num)
          (by norm_num [Finset.sum_range_succ, Nat.factorial])
  · apply key
    have l0 : 0 ≤ Real.log tz := Real.log_nonneg ht
    have l1 : Real.log tz ≤ 4.771 := (Real.log_le_log (by linarith) ht').trans log_118
    have e1 : Real.exp (-0.004302 * tz) ≤ 1 := Real.exp_le_one_iff.mpr (by linarith)
    generalize Real.log tz = l at l0 l1
    by_cases h : z ≤ 30
    · refine hubert_core _ _ _ _ E z 8.144 3.054 1.12 3.4013 1.903 6.72 hE hz
        ((hlog _ h).trans log_30)
        (by linarith) (by norm_num) (by linarith) (by linarith) ?_ ?_ (by linarith) ?_ (by norm_num)
      · have : Real.exp (-0.0517 * z) ≤ 1 := Real.exp_le_one_iff.mpr (by linarith)
        linarith
      · exact exp_ge 12 _ _ (by norm_num) (by norm_num [Finset.sum_range_succ, Nat.factorial])
      · exact exp_le 2 _ _ (by norm_num) (by norm_num) (by norm_num)
          (by norm_num [Finset.sum_range_succ, Nat.factorial])
    by_cases h' : z ≤ 60
    · refine hubert_core _ _ _ _ E z 8.144 1.75 0.56 4.0944 2.36 10.7 hE hz
        ((hlog _ h').trans log_60)
        (by linarith) (by norm_num) (by linarith) (by linarith) ?_ ?_ (by linarith) ?_ (by norm_num)
      · have : Real.exp (-0.0517 * z) ≤ 0.2125 :=
          exp_neg_le 10 1.551 _ _ (by norm_num) (by norm_num) (by linarith)
            (by norm_num [Finset.sum_range_succ, Nat.factorial])
        linarith
      · exact exp_ge 12 _ _ (by norm_num) (by norm_num [Finset.sum_range_succ, Nat.factorial])
      · exact exp_le 3 _ _ (by norm_num) (by norm_num) (by norm_num)
          (by norm_num [Finset.sum_range_succ, Nat.factorial])
    · refine hubert_core _ _ _ _ E z 8.144 1.475 0.39 4.771 2.78 16.2 hE hz
        ((hlog _ hz').trans log_118)
        (by linarith) (by norm_num) (by linarith) (by linarith) ?_ ?_ (by linarith) ?_ (by norm_num)
      · have : Real.exp (-0.0517 * z) ≤ 0.0465 :=
          exp_neg_le 12 3.1 _ _ (by norm_num) (by norm_num) (by linarith)
            (by norm_num [Finset.sum_range_succ, Nat.factorial])
        linarith
      · exact exp_ge 12 _ _ (by norm_num) (by norm_num [Finset.sum_range_succ, Nat.factorial])
      · exact exp_le 3 _ _ (by norm_num) (by norm_num) (by norm_num)
          (by norm_num [Finset.sum_range_succ, Nat.factorial])

/-! ## Winger -/

/-- The exponent of the Winger formula, `l` and `lt` the logarithms of the charges. -/
noncomputable def wingerPoly (l lt x : ℝ) : ℝ :=
  -0.4662 - 0.5491 * Real.exp (0.7028 * l - 0.1089 * l ^ 2 + 0.001644 * l ^ 3 - 0.5155 * lt
    + 0.05633 * lt ^ 2) * x + 0.005447 * Real.exp (0.8795 * l - 1.091 * lt) * x ^ 2
    - 0.0008261 * Real.exp (2.848 * l - 0.2442 * l ^ 3) * x ^ 3 - 0.00009293 * x ^ 4

/-- The replacement of the charge of hydrogen and helium. -/
noncomputable def wingerZ (tz : ℝ) : ℝ := if tz = 1 then 2.6 else if tz = 2 then 2.8 else tz

theorem winger_eq (z b tz : ℝ) : z_eff_Winger z b tz =
    z * (1 - Real.exp (wingerPoly (Real.log z) (Real.log (wingerZ tz))
      (b / 0.012 / z ^ (0.45 : ℝ)))) := by
  have ht : (if (if tz =? 1.0 then (2.6 : ℝ) else tz) =? 2.0 then (2.8 : ℝ)
      else if tz =? 1.0 then 2.6 else tz) = wingerZ tz := by
    unfold wingerZ
    by_cases h1 : tz = 1
    · subst h1
      norm_num [beq_real]
    · have : ¬ (tz =? (1.0 : ℝ)) = true := by
        rw [beq_real]; norm_num; exact h1
      rw [if_neg this, if_neg h1]
      by_cases h2 : tz = 2
      · subst h2
        norm_num [beq_real]
      · rw [if_neg (by rw [beq_real]; norm_num; exact h2), if_neg h2]
  unfold z_eff_Winger wingerPoly
  simp only [exp_real, pow_real, log_real]
  rw [ht]
  generalize Real.log (wingerZ tz) = lt
  generalize Real.log z = l
  generalize b / 0.012 / z ^ (0.45 : ℝ) = x
  have e1 : (0.7028 * l - 0.1089 * l * l + 0.001644 * l * l * l - 0.5155 * lt + 0.05633 * lt * lt : ℝ)
      = 0.7028 * l - 0.1089 * l ^ 2 + 0.001644 * l ^ 3 - 0.5155 * lt + 0.05633 * lt ^ 2 := by ring
  have e2 : (2.848 * l - 0.2442 * l * l * l : ℝ) = 2.848 * l - 0.2442 * l ^ 3 := by ring
  rw [e1, e2]
  generalize Real.exp (0.7028 * l - 0.1089 * l ^ 2 + 0.001644 * l ^ 3 - 0.5155 * lt
    + 0.05633 * lt ^ 2) = p
  generalize Real.exp (0.8795 * l - 1.091 * lt) = q
  generalize Real.exp (2.848 * l - 0.2442 * l ^ 3) = r
  have e3 : (1.0 : ℝ) = 1 := by norm_num
  rw [e3]
  congr 3
  ring

/-- The exponent is not positive when the linear term outweighs the quadratic one. -/
theorem winger_linear (l lt b : ℝ) (hb : 0 ≤ b) (hb' : b ≤ 1)
    (h : 0 ≤ 0.19 + 0.2733 * l - 0.1089 * l ^ 2 + 0.001644 * l ^ 3 + 0.5755 * lt + 0.05633 * lt ^ 2) :
    wingerPoly l lt (b / 0.012 * Real.exp (-(0.45 * l))) ≤ 0 := by
  unfold wingerPoly
  set x := b / 0.012 * Real.exp (-(0.45 * l)) with hx
  have hx0 : 0 ≤ x := by positivity
  have h3 : 0 ≤ 0.0008261 * Real.exp (2.848 * l - 0.2442 * l ^ 3) * x ^ 3 := by positivity
  have h4 : 0 ≤ 0.00009293 * x ^ 4 := by positivity
  have h19 : (0.82666 : ℝ) * Real.exp 0.19 ≤ 1 := by
    have := exp_le 1 0.19 1.20925 (by norm_num) (by norm_num) (by norm_num)
      (by norm_num [Finset.sum_range_succ, Nat.factorial])
    linarith
  have h2 : 0.005447 * Real.exp (0.8795 * l - 1.091 * lt) * x ≤
      0.5491 * Real.exp (0.7028 * l - 0.1089 * l ^ 2 + 0.001644 * l ^ 3 - 0.5155 * lt
        + 0.05633 * lt ^ 2) := by
    have e : Real.exp (0.8795 * l - 1.091 * lt) * Real.exp (-(0.45 * l)) =
        Real.exp (0.4295 * l - 1.091 * lt) := by
      rw [← Real.exp_add]
      congr 1
      ring
    have hle : Real.exp (0.4295 * l - 1.091 * lt) ≤
        Real.exp 0.19 * Real.exp (0.7028 * l - 0.1089 * l ^ 2 + 0.001644 * l ^ 3 - 0.5155 * lt
        + 0.05633 * lt ^ 2) := by
      rw [← Real.exp_add]
      exact Real.exp_le_exp.mpr (by linarith)
    have hq := Real.exp_pos (0.4295 * l - 1.091 * lt)
    have hp := Real.exp_pos (0.7028 * l - 0.1089 * l ^ 2 + 0.001644 * l ^ 3 - 0.5155 * lt
        + 0.05633 * lt ^ 2)
    calc 0.005447 * Real.exp (0.8795 * l - 1.091 * lt) * x
        = 0.005447 / 0.012 * (Real.exp (0.8795 * l - 1.091 * lt) * Real.exp (-(0.45 * l))) * b := by
          rw [hx]; ring
      _ = 0.005447 / 0.012 * Real.exp (0.4295 * l - 1.091 * lt) * b := by rw [e]
      _ ≤ 0.005447 / 0.012 * Real.exp (0.4295 * l - 1.091 * lt) * 1 :=
          mul_le_mul_of_nonneg_left hb' (by positivity)
      _ ≤ 0.5491 * 0.82666 * Real.exp (0.4295 * l - 1.091 * lt) := by
          norm_num
          linarith
      _ ≤ 0.5491 * 0.82666 * (Real.exp 0.19 * Real.exp (0.7028 * l - 0.1089 * l ^ 2
            + 0.001644 * l ^ 3 - 0.5155 * lt + 0.05633 * lt ^ 2)) :=
          mul_le_mul_of_nonneg_left hle (by norm_num)
      _ = 0.5491 * (0.82666 * Real.exp 0.19) * Real.exp (0.7028 * l - 0.1089 * l ^ 2
            + 0.001644 * l ^ 3 - 0.5155 * lt + 0.05633 * lt ^ 2) := by ring
      _ ≤ 0.5491 * 1 * Real.exp (0.7028 * l - 0.1089 * l ^ 2
            + 0.001644 * l ^ 3 - 0.5155 * lt + 0.05633 * lt ^ 2) := by
          apply mul_le_mul_of_nonneg_right _ hp.le
          linarith
      _ = _ := by ring
  have h5 := mul_le_mul_of_nonneg_right h2 hx0
  have h6 : 0.005447 * Real.exp (0.8795 * l - 1.091 * lt) * x * x =
      0.005447 * Real.exp (0.8795 * l - 1.091 * lt) * x ^ 2 := by ring
  rw [h6] at h5
  linarith

/-- The exponent for the heaviest projectiles in hydrogen and helium. -/
theorem winger_heavy (l lt b : ℝ) (hb : 0 ≤ b) (hb' : b ≤ 1) (hl : 4.37 ≤ l) (hl' : l ≤ 4.5952)
    (ht : 0.9555 ≤ lt) (ht' : lt ≤ 1.03) :
    wingerPoly l lt (b / 0.012 * Real.exp (-(0.45 * l))) ≤ 0 := by
  unfold wingerPoly
  set x := b / 0.012 * Real.exp (-(0.45 * l)) with hx
  have hx0 : 0 ≤ x := by positivity
  have h3 : 0 ≤ 0.0008261 * Real.exp (2.848 * l - 0.2442 * l ^ 3) * x ^ 3 := by positivity
  -- the linear term
  have hE : (0.618 : ℝ) ≤ 0.7028 * l - 0.1089 * l ^ 2 + 0.001644 * l ^ 3 - 0.5155 * lt
        + 0.05633 * lt ^ 2 := by
    have h1 : (1.0893 : ℝ) ≤ 0.7028 * l - 0.1089 * l ^ 2 + 0.001644 * l ^ 3 := by
      have : 0 ≤ (l - 4.37) * (4.5952 - l) := mul_nonneg (by linarith) (by linarith)
      nlinarith [mul_nonneg this (by linarith : (0 : ℝ) ≤ l)]
    have h2 : (-0.4713 : ℝ) ≤ - 0.5155 * lt + 0.05633 * lt ^ 2 := by
      nlinarith
    linarith
  have hA : (1.018 : ℝ) ≤ 0.5491 * Real.exp (0.7028 * l - 0.1089 * l ^ 2 + 0.001644 * l ^ 3
      - 0.5155 * lt + 0.05633 * lt ^ 2) := by
    have h1 : (1.8541 : ℝ) ≤ Real.exp 0.618 :=
      exp_ge 8 _ _ (by norm_num) (by norm_num [Finset.sum_range_succ, Nat.factorial])
    have h2 := Real.exp_le_exp.mpr hE
    linarith
  -- the quadratic term
  have hB : 0.005447 * Real.exp (0.8795 * l - 1.091 * lt) * x ≤ 1.1525 * b := by
    have e : Real.exp (0.8795 * l - 1.091 * lt) * Real.exp (-(0.45 * l)) =
        Real.exp (0.4295 * l - 1.091 * lt) := by
      rw [← Real.exp_add]
      congr 1
      ring
    have h1 : Real.exp (0.4295 * l - 1.091 * lt) ≤ 2.5385 := by
      refine (Real.exp_le_exp.mpr (by linarith : _ ≤ (0.9313 : ℝ))).trans ?_
      exact exp_le 1 _ _ (by norm_num) (by norm_num) (by norm_num)
        (by norm_num [Finset.sum_range_succ, Nat.factorial])
    calc 0.005447 * Real.exp (0.8795 * l - 1.091 * lt) * x
        = 0.005447 / 0.012 * (Real.exp (0.8795 * l - 1.091 * lt) * Real.exp (-(0.45 * l))) * b := by
          rw [hx]; ring
      _ = 0.005447 / 0.012 * Real.exp (0.4295 * l - 1.091 * lt) * b := by rw [e]
      _ ≤ 1.1525 * b := by
          apply mul_le_mul_of_nonneg_right _ hb
          norm_num at h1 ⊢
          linarith
  -- the quartic term
  have hs1 : (0.1264 : ℝ) ≤ Real.exp (-(0.45 * l)) := by
    have h1 : Real.exp (0.45 * l) ≤ 7.91 := by
      refine (Real.exp_le_exp.mpr (by linarith : _ ≤ (2.06784 : ℝ))).trans ?_
      exact exp_le 3 _ _ (by norm_num) (by norm_num) (by norm_num)
        (by norm_num [Finset.sum_range_succ, Nat.factorial])
    rw [Real.exp_neg, ← one_div, le_div_iff₀ (Real.exp_pos _)]
    linarith
  have hs2 : Real.exp (-(0.45 * l)) ≤ 0.14 :=
    exp_neg_le 12 1.9665 _ _ (by norm_num) (by norm_num) (by linarith)
      (by norm_num [Finset.sum_range_succ, Nat.factorial])
  have hxb : 10.53 * b ≤ x := by
    rw [hx]
    have : b / 0.012 * 0.1264 ≤ b / 0.012 * Real.exp (-(0.45 * l)) :=
      mul_le_mul_of_nonneg_left hs1 (by positivity)
    norm_num at this ⊢
    linarith
  have hxu : x ≤ 11.67 := by
    rw [hx]
    have : b / 0.012 * Real.exp (-(0.45 * l)) ≤ 1 / 0.012 * 0.14 :=
      mul_le_mul (by
        apply div_le_div_of_nonneg_right hb' (by norm_num)) hs2 (Real.exp_pos _).le (by norm_num)
    norm_num at this ⊢
    linarith
  have hC : 0.1085 * b ^ 3 ≤ 0.00009293 * x ^ 3 := by
    have := pow_le_pow_left₀ (by positivity) hxb 3
    rw [mul_pow] at this
    norm_num at this ⊢
    have := pow_nonneg hb 3
    linarith
  have hb3 : -1.018 + 1.1525 * b - 0.1085 * b ^ 3 ≤ 0.0261 := by
    nlinarith [mul_nonneg hb (by linarith : 0 ≤ 1 - b), mul_nonneg (mul_nonneg hb hb)
      (by linarith : 0 ≤ 1 - b)]
  set P := 0.5491 * Real.exp (0.7028 * l - 0.1089 * l ^ 2 + 0.001644 * l ^ 3
      - 0.5155 * lt + 0.05633 * lt ^ 2)
  set Q := 0.005447 * Real.exp (0.8795 * l - 1.091 * lt)
  have hsum : -P + Q * x - 0.00009293 * x ^ 3 ≤ 0.0261 := by linarith
  have hm := mul_le_mul_of_nonneg_right hsum hx0
  have e : (-P + Q * x - 0.00009293 * x ^ 3) * x = -P * x + Q * x ^ 2 - 0.00009293 * x ^ 4 := by ring
  rw [e] at hm
  linarith

theorem log_13_5 : (0.9555 : ℝ) ≤ Real.log 2.6 :=
  le_log_of 2 _ _ (by norm_num) (by norm_num) (by norm_num) (by norm_num)
    (by norm_num [Finset.sum_range_succ, Nat.factorial])

theorem log_14_5 : Real.log 2.8 ≤ (1.03 : ℝ) :=
  log_le_of 16 _ _ (by norm_num) (by norm_num) (by norm_num [Finset.sum_range_succ, Nat.factorial])

theorem log_three : (1.0985 : ℝ) ≤ Real.log 3 :=
  le_log_of 2 _ _ (by norm_num) (by norm_num) (by norm_num) (by norm_num)
    (by norm_num [Finset.sum_range_succ, Nat.factorial])

theorem log_99 : Real.log 99 ≤ (4.5952 : ℝ) :=
  log_le_of 24 _ _ (by norm_num) (by norm_num) (by norm_num [Finset.sum_range_succ, Nat.factorial])

/-- C41, lower bound of Winger: up to einsteinium the effective charge is not negative. -/
theorem winger_nonneg (z b : ℝ) (t : ℤ) (hz : 1 ≤ z) (hz' : z ≤ 99) (ht : 1 ≤ t) (hb : 0 ≤ b)
    (hb' : b ≤ 1) : 0 ≤ z_eff_Winger z b (t : ℝ) := by
  rw [winger_eq]
  apply mul_nonneg (by linarith)
  rw [sub_nonneg, Real.exp_le_one_iff]
  have hx : b / 0.012 / z ^ (0.45 : ℝ) = b / 0.012 * Real.exp (-(0.45 * Real.log z)) := by
    rw [Real.rpow_def_of_pos (by linarith), Real.exp_neg, div_eq_mul_inv]
    congr 3
    ring
  rw [hx]
  have l0 : 0 ≤ Real.log z := Real.log_nonneg hz
  have l1 : Real.log z ≤ 4.5952 := (Real.log_le_log (by linarith) hz').trans log_99
  generalize Real.log z = l at l0 l1
  have hg : ∀ c m : ℝ, 0 ≤ c → l ≤ m → 0 ≤ 0.2733 + c - 0.1089 * m + 0.001644 * m ^ 2 → m ≤ 5 →
      -(c * m) ≤ 0.2733 * l - 0.1089 * l ^ 2 + 0.001644 * l ^ 3 := by
    intro c m hc hm h h5
    have h1 : 0 ≤ 0.2733 + c - 0.1089 * l + 0.001644 * l ^ 2 := by nlinarith
    have h2 := mul_nonneg l0 h1
    have h3 : c * l ≤ c * m := mul_le_mul_of_nonneg_left hm hc
    nlinarith
  by_cases h3 : 3 ≤ t
  · have e : wingerZ (t : ℝ) = t := by
      unfold wingerZ
      have h3' : (3 : ℝ) ≤ t := by exact_mod_cast h3
      rw [if_neg (by linarith), if_neg (by linarith)]
    rw [e]
    have h3' : (3 : ℝ) ≤ t := by exact_mod_cast h3
    have hlt : (1.0985 : ℝ) ≤ Real.log t := log_three.trans (Real.log_le_log (by norm_num) h3')
    apply winger_linear l _ b hb hb'
    have := hg 0.1925 4.5952 (by norm_num) l1 (by norm_num) (by norm_num)
    nlinarith
  · have ht2 : t = 1 ∨ t = 2 := by omega
    have hlt : 0.9555 ≤ Real.log (wingerZ (t : ℝ)) ∧ Real.log (wingerZ (t : ℝ)) ≤ 1.03 := by
      rcases ht2 with h | h
      · have e : wingerZ (t : ℝ) = 2.6 := by simp [wingerZ, h]
        rw [e]
        exact ⟨log_13_5, (Real.log_le_log (by norm_num) (by norm_num)).trans log_14_5⟩
      · have e : wingerZ (t : ℝ) = 2.8 := by norm_num [wingerZ, h]
        rw [e]
        exact ⟨log_13_5.trans (Real.log_le_log (by norm_num) (by norm_num)), log_14_5⟩
    generalize Real.log (wingerZ (t : ℝ)) = lt at hlt
    by_cases h4 : l ≤ 4.37
    · apply winger_linear l _ b hb hb'
      have := hg 0.1713 4.37 (by norm_num) h4 (by norm_num) (by norm_num)
      nlinarith
    · exact winger_heavy l lt b hb hb' (by linarith) l1 hlt.1 hlt.2

/-- C41, the parts of the bounds for the options Hubert and Winger that hold.  Missing: Winger above
einsteinium; see `winger_bounds_partial` and `winger_negative_106`. -/
theorem z_eff_lower_partial (debug : Bool) (p : Projectile ℝ) (t : Target ℝ) (c : Config ℝ)
    (hT : 0 < p.T) (hZ : 1 ≤ p.Z) (ht : 1 ≤ t.Z) (ht' : t.Z ≤ 118) :
    (c.z_effective = 3 → p.Z ≤ 118 → ∃ z, z_effective debug p t c = .ok z ∧ 0 ≤ z ∧ z ≤ p.Z) ∧
    (c.z_effective = 4 → p.Z ≤ 99 → ∃ z, z_effective debug p t c = .ok z ∧ 0 ≤ z ∧ z ≤ p.Z) := by
  refine ⟨fun h hz => ?_, fun h hz => ?_⟩
  · obtain ⟨z, hz1, hz2⟩ := z_eff_upper_partial debug p t c (by linarith) (by omega)
    refine ⟨z, hz1, ?_, hz2⟩
    have e : z_effective debug p t c = .ok (z_eff_Hubert p.Z p.T (ofInt t.Z)) := by
      unfold z_effective
      rw [if_neg (by omega), if_neg (by omega), if_neg (by omega), if_pos h]
    rw [e] at hz1
    cases hz1
    rw [ofInt_real]
    exact hubert_nonneg _ _ _ hZ hz (by exact_mod_cast ht) (by exact_mod_cast ht')
  · obtain ⟨z, hz1, hz2⟩ := z_eff_upper_partial debug p t c (by linarith) (by omega)
    refine ⟨z, hz1, ?_, hz2⟩
    have e : z_effective debug p t c = .ok (z_eff_Winger p.Z (beta_from_T p.T) (ofInt t.Z)) := by
      unfold z_effective
      rw [if_neg (by omega), if_neg (by omega), if_neg (by omega), if_neg (by omega), if_pos h]
      rfl
    rw [e] at hz1
    cases hz1
    rw [ofInt_real]
    have hb := (gamma_beta_bounds p.T hT).2
    exact winger_nonneg _ _ _ hZ hz ht hb.1.le hb.2.le

/-- Uranium at 500 MeV/u in carbon with both options. -/
example : (∃ z, z_effective false (⟨238, 92, 92, 500⟩ : Projectile ℝ) ⟨12, 6, 1⟩
      { Config.default with z_effective := 3 } = .ok z ∧ 0 ≤ z ∧ z ≤ 92) ∧
    (∃ z, z_effective false (⟨238, 92, 92, 500⟩ : Projectile ℝ) ⟨12, 6, 1⟩
      { Config.default with z_effective := 4 } = .ok z ∧ 0 ≤ z ∧ z ≤ 92) :=
  ⟨(z_eff_lower_partial false ⟨238, 92, 92, 500⟩ ⟨12, 6, 1⟩ _ (by norm_num) (by norm_num)
      (by norm_num) (by norm_num)).1 rfl (by norm_num),
    (z_eff_lower_partial false ⟨238, 92, 92, 500⟩ ⟨12, 6, 1⟩ _ (by norm_num) (by norm_num)
      (by norm_num) (by norm_num)).2 rfl (by norm_num)⟩

theorem log_118' : (4.77 : ℝ) ≤ Real.log 118 :=
  le_log_of 5 _ _ (by norm_num) (by norm_num) (by norm_num) (by norm_num)
    (by norm_num [Finset.sum_range_succ, Nat.factorial])

theorem log_13_5' : Real.log 2.6 ≤ (0.956 : ℝ) :=
  log_le_of 16 _ _ (by norm_num) (by norm_num) (by norm_num [Finset.sum_range_succ, Nat.factorial])

/-- C41 refuted for Winger: a fast ion with charge 118 in hydrogen has a negative effective
charge. -/
theorem winger_negative (debug : Bool) :
    ∃ z, z_effective debug (⟨294, 118, 118, 1000 * atomic_mass_unit⟩ : Projectile ℝ) ⟨1, 1, 1⟩
      { Config.default with z_effective := 4 } = .ok z ∧ z < 0 := by
  refine ⟨z_eff_Winger 118 (beta_from_T (1000 * atomic_mass_unit)) ((1 : ℤ) : ℝ), rfl, ?_⟩
  have hu := amu_pos
  have hb1 : (0.999999 : ℝ) ≤ beta_from_T (1000 * atomic_mass_unit) := by
    unfold beta_from_T gamma_from_T
    rw [sqrt_real]
    have e1 : (1000 * atomic_mass_unit / atomic_mass_unit : ℝ) = 1000 := by field_simp
    rw [e1]
    apply Real.le_sqrt_of_sq_le
    norm_num
  have hb2 : beta_from_T (1000 * atomic_mass_unit : ℝ) ≤ 1 :=
    (gamma_beta_bounds _ (by positivity)).2.2.le
  generalize beta_from_T (1000 * atomic_mass_unit : ℝ) = b at hb1 hb2
  rw [winger_eq]
  have e : wingerZ ((1 : ℤ) : ℝ) = 2.6 := by simp [wingerZ]
  have hx : b / 0.012 / (118 : ℝ) ^ (0.45 : ℝ) = b / 0.012 * Real.exp (-(0.45 * Real.log 118)) := by
    rw [Real.rpow_def_of_pos (by norm_num), Real.exp_neg, div_eq_mul_inv]
    congr 3
    ring
  rw [e, hx]
  have l1 := log_118
  have l2 := log_118'
  have t1 := log_13_5
  have t2 := log_13_5'
  generalize Real.log 118 = l at l1 l2
  generalize Real.log 2.6 = lt at t1 t2
  have hs1 : (0.1168 : ℝ) ≤ Real.exp (-(0.45 * l)) := by
    have h1 : Real.exp (0.45 * l) ≤ 8.5595 := by
      refine (Real.exp_le_exp.mpr (by linarith : _ ≤ (2.147 : ℝ))).trans ?_
      exact exp_le 3 _ _ (by norm_num) (by norm_num) (by norm_num)
        (by norm_num [Finset.sum_range_succ, Nat.factorial])
    rw [Real.exp_neg, ← one_div, le_div_iff₀ (Real.exp_pos _)]
    linarith
  have hs2 : Real.exp (-(0.45 * l)) ≤ 0.117 :=
    exp_neg_le 14 2.1465 _ _ (by norm_num) (by norm_num) (by linarith)
      (by norm_num [Finset.sum_range_succ, Nat.factorial])
  have hx1 : (9.73 : ℝ) ≤ b / 0.012 * Real.exp (-(0.45 * l)) := by
    have : (0.999999 : ℝ) / 0.012 * 0.1168 ≤ b / 0.012 * Real.exp (-(0.45 * l)) :=
      mul_le_mul (div_le_div_of_nonneg_right hb1 (by norm_num)) hs1 (by norm_num) (by positivity)
    norm_num at this ⊢
    linarith
  have hx2 : b / 0.012 * Real.exp (-(0.45 * l)) ≤ 9.75 := by
    have : b / 0.012 * Real.exp (-(0.45 * l)) ≤ 1 / 0.012 * 0.117 :=
      mul_le_mul (div_le_div_of_nonneg_right hb2 (by norm_num)) hs2 (Real.exp_pos _).le (by norm_num)
    norm_num at this ⊢
    linarith
  generalize b / 0.012 * Real.exp (-(0.45 * l)) = x at hx1 hx2
  have hA : 0.5491 * Real.exp (0.7028 * l - 0.1089 * l ^ 2 + 0.001644 * l ^ 3
      - 0.5155 * lt + 0.05633 * lt ^ 2) ≤ 1.02 := by
    have hE : 0.7028 * l - 0.1089 * l ^ 2 + 0.001644 * l ^ 3
      - 0.5155 * lt + 0.05633 * lt ^ 2 ≤ (0.618 : ℝ) := by
      have h1 : 0.7028 * l - 0.1089 * l ^ 2 + 0.001644 * l ^ 3 ≤ 1.055 := by
        have h2 : l ^ 2 ≤ 4.771 ^ 2 := pow_le_pow_left₀ (by linarith) l1 2
        have h3 : l ^ 3 ≤ 4.771 ^ 3 := pow_le_pow_left₀ (by linarith) l1 3
        have h4 : (4.77 : ℝ) ^ 2 ≤ l ^ 2 := pow_le_pow_left₀ (by norm_num) l2 2
        norm_num at h2 h3 h4 ⊢
        linarith
      have h2 : -0.5155 * lt + 0.05633 * lt ^ 2 ≤ -0.4401 := by
        have h2 : lt ^ 2 ≤ 0.956 ^ 2 := pow_le_pow_left₀ (by linarith) t2 2
        norm_num at h2 ⊢
        linarith
      linarith
    have h1 : Real.exp 0.618 ≤ (1.856 : ℝ) :=
      exp_le 1 _ _ (by norm_num) (by norm_num) (by norm_num)
        (by norm_num [Finset.sum_range_succ, Nat.factorial])
    have h2 := Real.exp_le_exp.mpr hE
    linarith
  have hB : (0.1269 : ℝ) ≤ 0.005447 * Real.exp (0.8795 * l - 1.091 * lt) := by
    have h1 : (23.3 : ℝ) ≤ Real.exp 3.152 :=
      exp_ge 16 _ _ (by norm_num) (by norm_num [Finset.sum_range_succ, Nat.factorial])
    have h2 : Real.exp 3.152 ≤ Real.exp (0.8795 * l - 1.091 * lt) :=
      Real.exp_le_exp.mpr (by linarith)
    linarith
  have hC : 0.0008261 * Real.exp (2.848 * l - 0.2442 * l ^ 3) ≤ 0.000001 := by
    have h3 : (4.77 : ℝ) ^ 3 ≤ l ^ 3 := pow_le_pow_left₀ (by norm_num) l2 3
    have h : Real.exp (2.848 * l - 0.2442 * l ^ 3) ≤ 0.001 :=
      exp_neg_le 24 10 _ _ (by norm_num) (by norm_num) (by norm_num at h3 ⊢; linarith)
        (by norm_num [Finset.sum_range_succ, Nat.factorial])
    linarith
  have hpos : 0 < wingerPoly l lt x := by
    unfold wingerPoly
    generalize 0.5491 * Real.exp (0.7028 * l - 0.1089 * l ^ 2 + 0.001644 * l ^ 3
      - 0.5155 * lt + 0.05633 * lt ^ 2) = A at hA
    generalize 0.005447 * Real.exp (0.8795 * l - 1.091 * lt) = B at hB
    generalize 0.0008261 * Real.exp (2.848 * l - 0.2442 * l ^ 3) = C at hC
    have hx0 : 0 ≤ x := by linarith
    have h1 : A * x ≤ 1.02 * x := mul_le_mul_of_nonneg_right hA hx0
    have h2 : 0.1269 * x ^ 2 ≤ B * x ^ 2 := mul_le_mul_of_nonneg_right hB (by positivity)
    have h3 : C * x ^ 3 ≤ 0.000001 * x ^ 3 := mul_le_mul_of_nonneg_right hC (by positivity)
    have p2 : (9.73 : ℝ) ^ 2 ≤ x ^ 2 := pow_le_pow_left₀ (by norm_num) hx1 2
    have p3 : x ^ 3 ≤ 9.75 ^ 3 := pow_le_pow_left₀ hx0 hx2 3
    have p4 : x ^ 4 ≤ 9.75 ^ 4 := pow_le_pow_left₀ hx0 hx2 4
    norm_num at p2 p3 p4 h1 h2 h3 ⊢
    linarith
  have : 1 < Real.exp (wingerPoly l lt x) := Real.one_lt_exp_iff.mpr hpos
  nlinarith

/-! ## Anthony-Landford and Schiwietz -/

/-- C41, the part that holds for Anthony-Landford: from the velocity
`β = 0.15 Z^(2/3) / (0.86 · 137)` on (carbon: 0.0042) the effective charge lies between 0 and `Z`.
Missing: below that velocity it fails (`anthony_landford_negative`). -/
theorem anthony_landford_partial (z b : ℝ) (t : ℤ) (hz : 0 < z) (ht : 1 ≤ t) (ht' : t ≤ 118)
    (hb : 0.15 * z ^ (2 / 3 : ℝ) ≤ 0.86 * fine_structure_inverted * b) :
    0 ≤ z_eff_Anthony_Landford z b (t : ℝ) ∧ z_eff_Anthony_Landford z b (t : ℝ) ≤ z := by
  unfold z_eff_Anthony_Landford
  simp only [exp_real, pow_real]
  have h1 : (1 : ℝ) ≤ t := by exact_mod_cast ht
  have h2 : (t : ℝ) ≤ 118 := by exact_mod_cast ht'
  generalize (t : ℝ) = y at h1 h2
  have hA : 0 ≤ 1.16 - y * (1.91e-03 - 1.26e-05 * y) ∧
      1.16 - y * (1.91e-03 - 1.26e-05 * y) ≤ 1.16 := by
    norm_num
    constructor <;> nlinarith
  have hB : 0.86 ≤ 1.18 - y * (7.5e-03 - 4.53e-05 * y) := by
    norm_num
    nlinarith [sq_nonneg (y - 82)]
  generalize 1.16 - y * (1.91e-03 - 1.26e-05 * y) = A at hA
  generalize 1.18 - y * (7.5e-03 - 4.53e-05 * y) = B at hB
  have e1 : (2.0 / 3.0 : ℝ) = 2 / 3 := by norm_num
  have e2 : (1.0 : ℝ) = 1 := by norm_num
  rw [e1, e2]
  have hp : 0 < z ^ (2 / 3 : ℝ) := Real.rpow_pos_of_pos hz _
  generalize z ^ (2 / 3 : ℝ) = q at hb hp
  have hf := fsi_pos
  generalize (fine_structure_inverted : ℝ) = f at hb hf
  have hfb : 0 < f * b := by nlinarith
  have hle : -f * B * b / q ≤ -0.15 := by
    rw [div_le_iff₀ hp]
    nlinarith [mul_le_mul_of_nonneg_right hB hfb.le]
  have h3 : Real.exp (-f * B * b / q) ≤ 0.861 :=
    exp_neg_le 6 0.15 _ _ (by norm_num) (by norm_num) (by linarith)
      (by norm_num [Finset.sum_range_succ, Nat.factorial])
  have h4 := Real.exp_pos (-f * B * b / q)
  have h5 : 0 ≤ A * Real.exp (-f * B * b / q) := mul_nonneg hA.1 h4.le
  have h6 : A * Real.exp (-f * B * b / q) ≤ 1.16 * 0.861 :=
    mul_le_mul hA.2 h3 h4.le (by norm_num)
  constructor
  · apply mul_nonneg hz.le
    norm_num at h6 ⊢
    linarith
  · nlinarith

/-- A proton at one hundredth of the speed of light in oxygen. -/
example : 0 ≤ z_eff_Anthony_Landford 1 (0.01 : ℝ) ((8 : ℤ) : ℝ) :=
  (anthony_landford_partial 1 0.01 8 (by norm_num) (by norm_num) (by norm_num)
    (by norm_num [fine_structure_inverted, fine_structure])).1

/-- C41, the part that holds for Schiwietz: the effective charge is positive (it can exceed `Z`,
`schiwietz_exceeds_Z`). -/
theorem schiwietz_positive_partial (z b : ℝ) (t : ℤ) (hz : 0 < z) (hb : 0 < b) (ht : 1 ≤ t) :
    0 < z_eff_Schiwietz z b (t : ℝ) := by
  unfold z_eff_Schiwietz
  simp only [exp_real, pow_real, log_real]
  have ht1 : (1 : ℝ) ≤ t := by exact_mod_cast ht
  have hl : 0 ≤ Real.log (t : ℝ) := Real.log_nonneg ht1
  have hv : (0 : ℝ) < bohr_velocity := by norm_num [bohr_velocity, c_light]
  have hp : 0 < z ^ (-0.543 : ℝ) := Real.rpow_pos_of_pos hz _
  have hs : 0 < z ^ (-0.543 : ℝ) * b / bohr_velocity := by positivity
  generalize z ^ (-0.543 : ℝ) * b / bohr_velocity = sv at hs
  have hc1 : 0 < 1.0 - 0.26 * Real.exp (-(t : ℝ) / 11.0) *
      Real.exp (-((t : ℝ) - z) * ((t : ℝ) - z) / 9.0) := by
    have h1 : Real.exp (-(t : ℝ) / 11.0) ≤ 1 := by
      rw [Real.exp_le_one_iff]
      exact div_nonpos_of_nonpos_of_nonneg (by linarith) (by norm_num)
    have h2 : Real.exp (-((t : ℝ) - z) * ((t : ℝ) - z) / 9.0) ≤ 1 := by
      rw [Real.exp_le_one_iff]
      exact div_nonpos_of_nonpos_of_nonneg (by nlinarith [sq_nonneg ((t : ℝ) - z)]) (by norm_num)
    have h3 := Real.exp_pos (-(t : ℝ) / 11.0)
    have h4 := Real.exp_pos (-((t : ℝ) - z) * ((t : ℝ) - z) / 9.0)
    have h5 : Real.exp (-(t : ℝ) / 11.0) * Real.exp (-((t : ℝ) - z) * ((t : ℝ) - z) / 9.0) ≤ 1 := by
      nlinarith
    norm_num at h5 ⊢
    linarith
  generalize 1.0 - 0.26 * Real.exp (-(t : ℝ) / 11.0) *
      Real.exp (-((t : ℝ) - z) * ((t : ℝ) - z) / 9.0) = c1 at hc1
  have hc2 : 0 < 1.0 + 0.030 * sv * Real.log (t : ℝ) := by
    have : 0 ≤ 0.030 * sv * Real.log (t : ℝ) := by positivity
    norm_num at this ⊢
    linarith
  generalize 1.0 + 0.030 * sv * Real.log (t : ℝ) = c2 at hc2
  have hr : 0 < (sv / c2 / 1.54) ^ (1.0 + 1.83 / z : ℝ) := Real.rpow_pos_of_pos (by positivity) _
  generalize (sv / c2 / 1.54) ^ (1.0 + 1.83 / z : ℝ) = r at hr
  positivity

/-- A proton at half the speed of light in carbon. -/
example : 0 < z_eff_Schiwietz 1 (0.5 : ℝ) ((6 : ℤ) : ℝ) :=
  schiwietz_positive_partial 1 0.5 6 (by norm_num) (by norm_num) (by norm_num)

end Catima
