import Verif.Lemmas.Srim
import Mathlib.Analysis.Complex.Exponential
import Mathlib.Tactic.Linarith
import Mathlib.Tactic.NormNum

/-!
# Helper lemmas: the ionisation level of heavy ions over one step of the velocity
-/

namespace Catima

/-- The exponent of the ionisation level as a polynomial in the tenth root of the reduced velocity. -/
def levelA {K : Type} [Field K] (s : K) : K :=
  -(803 / 1000) * s ^ 3 + 13167 / 10000 * s ^ 6 + 38157 / 100000 * s ^ 10 + 8983 / 1000000 * s ^ 20

/-- Its increase when `s` grows by 0.194 %. -/
def levelD {K : Type} [Field K] (s : K) : K := levelA (100194 / 100000 * s) - levelA s

/-- Partial sum of the exponential series. -/
def expPart {K : Type} [Field K] (a : K) : K :=
  1 + a * (1 + a / 2 * (1 + a / 3 * (1 + a / 4 * (1 + a / 5 * (1 + a / 6 * (1 + a / 7 * (1 + a / 8)))))))

/-- The check of one window. -/
def levelOk (i : Nat) : Bool :=
  let s : ℚ := 815 / 1000 + i / 400
  let s' : ℚ := 815 / 1000 + (i + 1) / 400
  let e := expPart (levelA s)
  decide (0 ≤ levelA s) && decide (levelD s' ≤ 78 / 10000 * e) && decide (levelD s' ≤ 33 / 10000 * e + 18 / 1000 * (e - 1))

theorem level_windows : (List.range 130).all levelOk = true := by decide +kernel

theorem levelA_cast (s : ℚ) : ((levelA s : ℚ) : ℝ) = levelA (s : ℝ) := by unfold levelA; push_cast; ring
theorem levelD_cast (s : ℚ) : ((levelD s : ℚ) : ℝ) = levelD (s : ℝ) := by
  unfold levelD; push_cast; rw [levelA_cast, levelA_cast]; push_cast; ring
theorem expPart_cast (s : ℚ) : ((expPart s : ℚ) : ℝ) = expPart (s : ℝ) := by unfold expPart; push_cast; ring

theorem expPart_le (a : ℝ) (h : 0 ≤ a) : expPart a ≤ Real.exp a := by
  refine le_trans (le_of_eq ?_) (Real.sum_le_exp_of_nonneg h 9)
  unfold expPart
  simp only [Finset.sum_range_succ, Finset.sum_range_zero, Nat.factorial]
  norm_num
  ring

theorem levelA_mono (s s' : ℝ) (h0 : 0.815 ≤ s) (h : s ≤ s') : levelA s ≤ levelA s' := by
  have a3 : 0.5413 ≤ s ^ 3 := le_trans (by norm_num) (pow_le_pow_left₀ (by norm_num) h0 3)
  have s0 : 0 ≤ s := le_trans (by norm_num) h0
  have b3 := pow_le_pow_left₀ s0 h 3
  have b10 := pow_le_pow_left₀ s0 h 10
  have b20 := pow_le_pow_left₀ s0 h 20
  have e1 : s ^ 6 = s ^ 3 * s ^ 3 := by ring
  have e2 : s' ^ 6 = s' ^ 3 * s' ^ 3 := by ring
  unfold levelA
  rw [e1, e2]
  generalize s ^ 3 = t at *
  generalize s' ^ 3 = t' at *
  norm_num at *
  nlinarith

theorem levelD_eq (s : ℝ) : levelD s = s ^ 3 * (-(803 / 1000 * ((100194 / 100000) ^ 3 - 1)) + 13167 / 10000 * ((100194 / 100000) ^ 6 - 1) * s ^ 3) +
    38157 / 100000 * ((100194 / 100000) ^ 10 - 1) * s ^ 10 + 8983 / 1000000 * ((100194 / 100000) ^ 20 - 1) * s ^ 20 := by
  unfold levelD levelA
  ring

theorem levelD_mono (s s' : ℝ) (h0 : 0.815 ≤ s) (h : s ≤ s') : levelD s ≤ levelD s' := by
  have a3 : 0.5413 ≤ s ^ 3 := le_trans (by norm_num) (pow_le_pow_left₀ (by norm_num) h0 3)
  have s0 : 0 ≤ s := le_trans (by norm_num) h0
  have b3 := pow_le_pow_left₀ s0 h 3
  have b10 := pow_le_pow_left₀ s0 h 10
  have b20 := pow_le_pow_left₀ s0 h 20
  rw [levelD_eq, levelD_eq]
  generalize s ^ 3 = t at *
  generalize s' ^ 3 = t' at *
  generalize s ^ 10 = u at *
  generalize s' ^ 10 = u' at *
  generalize s ^ 20 = w at *
  generalize s' ^ 20 = w' at *
  norm_num at *
  nlinarith

/-- The increase of the ionisation level, in terms of the level itself. -/
theorem level_step (s : ℝ) (h0 : 0.815 ≤ s) : 0 ≤ levelA s ∧ levelD s ≤ 0.0078 * Real.exp (levelA s) ∧
    levelD s ≤ 0.0033 * Real.exp (levelA s) + 0.018 * (Real.exp (levelA s) - 1) := by
  have lowA : ∀ s : ℝ, 0.815 ≤ s → 0 ≤ levelA s := fun s h => by
    refine le_trans ?_ (levelA_mono 0.815 s le_rfl h)
    unfold levelA
    norm_num
  refine ⟨lowA s h0, ?_⟩
  rcases lt_or_ge s (815 / 1000 + 130 / 400) with h1 | h1
  · obtain ⟨i, hi⟩ : ∃ i : Nat, i = ⌊(s - 815 / 1000) * 400⌋₊ := ⟨_, rfl⟩
    have hn : 0 ≤ (s - 815 / 1000) * 400 := by norm_num at h0 ⊢; linarith
    have i1 : (i : ℝ) ≤ (s - 815 / 1000) * 400 := by rw [hi]; exact Nat.floor_le hn
    have i2 : (s - 815 / 1000) * 400 < i + 1 := by rw [hi]; exact Nat.lt_floor_add_one _
    have i3 : i < 130 := by
      have : (i : ℝ) < 130 := by linarith
      exact_mod_cast this
    have hw := level_windows
    rw [List.all_eq_true] at hw
    have hw := hw i (List.mem_range.mpr i3)
    unfold levelOk at hw
    simp only [Bool.and_eq_true, decide_eq_true_eq] at hw
    obtain ⟨⟨w0, w1⟩, w2⟩ := hw
    have w0 := (Rat.cast_le (K := ℝ)).mpr w0
    have w1 := (Rat.cast_le (K := ℝ)).mpr w1
    have w2 := (Rat.cast_le (K := ℝ)).mpr w2
    rw [levelD_cast] at w1 w2
    rw [levelA_cast] at w0
    push_cast [expPart_cast, levelA_cast] at w0 w1 w2
    have d1 := levelD_mono s (815 / 1000 + (i + 1) / 400) h0 (by linarith)
    have m1 := levelA_mono (815 / 1000 + i / 400) s (by norm_num; positivity) (by linarith)
    have m2 := Real.exp_le_exp.mpr m1
    have m3 := (expPart_le _ w0).trans m2
    clear m1 m2
    generalize expPart (levelA (815 / 1000 + (i : ℝ) / 400)) = e at *
    generalize Real.exp (levelA s) = E at *
    norm_num
    constructor <;> linarith
  · -- the tail
    have hA : 3 ≤ levelA s := by
      refine le_trans ?_ (levelA_mono (815 / 1000 + 130 / 400) s (by norm_num) h1)
      unfold levelA
      norm_num
    have hD : levelD s ≤ 0.04 * levelA s := by
      have a3 : 1.48 ≤ s ^ 3 := le_trans (by norm_num) (pow_le_pow_left₀ (by norm_num) h1 3)
      have s0 : 0 ≤ s := le_trans (by norm_num) h0
      have b10 : 0 ≤ s ^ 10 := by positivity
      have b20 : 0 ≤ s ^ 20 := by positivity
      rw [levelD_eq]
      unfold levelA
      rw [show s ^ 6 = s ^ 3 * s ^ 3 by ring]
      generalize s ^ 3 = t at *
      generalize s ^ 10 = u at *
      generalize s ^ 20 = w at *
      norm_num at *
      nlinarith
    have hE : levelA s * 6 ≤ Real.exp (levelA s) := by
      generalize levelA s = a at *
      have h3 : (18 : ℝ) ≤ Real.exp 3 := by
        have := expPart_le 3 (by norm_num)
        refine le_trans ?_ this
        unfold expPart; norm_num
      have h4 := Real.add_one_le_exp (a - 3)
      have e : Real.exp a = Real.exp 3 * Real.exp (a - 3) := by rw [← Real.exp_add]; ring_nf
      rw [e]
      nlinarith [Real.exp_pos 3]
    norm_num
    constructor <;> nlinarith

theorem tenth_root (y : ℝ) (hy : 0 < y) : (y ^ (0.1 : ℝ)) ^ 10 = y ∧ (y ^ (0.1 : ℝ)) ^ 3 = y ^ (0.3 : ℝ) ∧ (y ^ (0.1 : ℝ)) ^ 6 = y ^ (0.6 : ℝ) := by
  refine ⟨?_, ?_, ?_⟩ <;> rw [← Real.rpow_natCast, ← Real.rpow_mul hy.le] <;> norm_num

/-- The ionisation level from the polynomial. -/
theorem hiQ_eq (y : ℝ) (hy : 0.13 ≤ y) : hiQ y = 1 - Real.exp (-min (levelA (y ^ (0.1 : ℝ))) 50) ∧ 0.815 ≤ y ^ (0.1 : ℝ) := by
  have y0 : 0 < y := lt_of_lt_of_le (by norm_num) hy
  obtain ⟨t1, t2, t3⟩ := tenth_root y y0
  have hs : 0.815 ≤ y ^ (0.1 : ℝ) := by
    by_contra h
    rw [not_le] at h
    have := pow_lt_pow_left₀ h (by positivity) (n := 10) (by norm_num)
    rw [t1] at this
    norm_num at this hy
    linarith
  refine ⟨?_, hs⟩
  have e : -0.803 * y ^ (0.3 : ℝ) + 1.3167 * y ^ (0.6 : ℝ) + 0.38157 * y + 0.008983 * y * y = levelA (y ^ (0.1 : ℝ)) := by
    unfold levelA
    have t4 : (y ^ (0.1 : ℝ)) ^ 20 = y * y := by rw [← sq, show 20 = 10 * 2 by norm_num, pow_mul, t1]
    rw [t4, t1, t2, t3]
    norm_num
    ring
  have p := (level_step _ hs).1
  unfold hiQ
  simp only [smin_real, smax_real, pow_real, exp_real]
  rw [e, show (50.0 : ℝ) = 50 by norm_num, show (1.0 : ℝ) = 1 by norm_num, show (0.0 : ℝ) = 0 by norm_num]
  have h1 : Real.exp (-min (levelA (y ^ (0.1 : ℝ))) 50) ≤ 1 := by
    rw [Real.exp_le_one_iff]
    have : 0 ≤ min (levelA (y ^ (0.1 : ℝ))) 50 := le_min p (by norm_num)
    linarith
  have h2 := Real.exp_pos (-min (levelA (y ^ (0.1 : ℝ))) 50)
  rw [max_eq_right (by linarith), min_eq_right (by linarith)]

/-- The ionisation level over one step. -/
theorem hiQ_step (y y' : ℝ) (hy : 0.13 ≤ y) (h : y ≤ y') (h' : y' ≤ 1.0195 * y) :
    0 ≤ hiQ y ∧ hiQ y ≤ hiQ y' ∧ hiQ y' ≤ 1 ∧ hiQ y' - hiQ y ≤ 0.0078 ∧ hiQ y' - hiQ y ≤ 0.0033 + 0.018 * hiQ y ∧
    (0.86 ≤ y → 0.5 ≤ hiQ y) := by
  obtain ⟨e, hs⟩ := hiQ_eq y hy
  obtain ⟨e', hs'⟩ := hiQ_eq y' (hy.trans h)
  have y0 : 0 < y := lt_of_lt_of_le (by norm_num) hy
  have ss : y ^ (0.1 : ℝ) ≤ y' ^ (0.1 : ℝ) := Real.rpow_le_rpow y0.le h (by norm_num)
  have ss' : y' ^ (0.1 : ℝ) ≤ 100194 / 100000 * y ^ (0.1 : ℝ) := by
    have k : (1.0195 : ℝ) ^ (0.1 : ℝ) ≤ 100194 / 100000 := by
      by_contra hc
      rw [not_le] at hc
      have := pow_lt_pow_left₀ hc (by norm_num) (n := 10) (by norm_num)
      rw [(tenth_root 1.0195 (by norm_num)).1] at this
      norm_num at this
    calc y' ^ (0.1 : ℝ) ≤ (1.0195 * y) ^ (0.1 : ℝ) := Real.rpow_le_rpow (by linarith) h' (by norm_num)
      _ = 1.0195 ^ (0.1 : ℝ) * y ^ (0.1 : ℝ) := Real.mul_rpow (by norm_num) y0.le
      _ ≤ _ := mul_le_mul_of_nonneg_right k (by positivity)
  have p86 : 0.86 ≤ y → 0.984 ≤ y ^ (0.1 : ℝ) := fun h86 => by
    by_contra hc
    rw [not_le] at hc
    have := pow_lt_pow_left₀ hc (by positivity) (n := 10) (by norm_num)
    rw [(tenth_root y y0).1] at this
    norm_num at this h86
    linarith
  rw [e, e']
  generalize y ^ (0.1 : ℝ) = s at *
  generalize y' ^ (0.1 : ℝ) = s' at *
  obtain ⟨a0, a1, a2⟩ := level_step s hs
  have m1 := levelA_mono s s' hs ss
  have m2 := levelA_mono s' _ hs' ss'
  have hd : levelA s' - levelA s ≤ levelD s := by unfold levelD; linarith
  have q86 : 0.86 ≤ y → 0.7 ≤ levelA s := fun h86 => by
    refine le_trans ?_ (levelA_mono 0.984 s (by norm_num) (p86 h86))
    unfold levelA
    norm_num
  have m0 : 0 ≤ min (levelA s) 50 := le_min a0 (by norm_num)
  have mm : min (levelA s) 50 ≤ min (levelA s') 50 := min_le_min m1 le_rfl
  have E1 : Real.exp (-min (levelA s) 50) ≤ 1 := Real.exp_le_one_iff.mpr (by linarith)
  have E2 : Real.exp (-min (levelA s') 50) ≤ Real.exp (-min (levelA s) 50) := Real.exp_le_exp.mpr (by linarith)
  have main : Real.exp (-min (levelA s) 50) - Real.exp (-min (levelA s') 50) ≤ 0.0078 ∧
      Real.exp (-min (levelA s) 50) - Real.exp (-min (levelA s') 50) ≤ 0.0033 + 0.018 * (1 - Real.exp (-min (levelA s) 50)) := by
    rcases le_total (levelA s) 50 with h50 | h50
    · have b1 : min (levelA s') 50 - min (levelA s) 50 ≤ levelD s := by
        rw [min_eq_left h50]
        have := min_le_left (levelA s') 50
        linarith
      have b2 : Real.exp (-min (levelA s) 50) - Real.exp (-min (levelA s') 50) ≤
          Real.exp (-min (levelA s) 50) * (min (levelA s') 50 - min (levelA s) 50) := by
        have e3 : Real.exp (-min (levelA s') 50) = Real.exp (-min (levelA s) 50) * Real.exp (-(min (levelA s') 50 - min (levelA s) 50)) := by
          rw [← Real.exp_add]; ring_nf
        rw [e3]
        have := Real.add_one_le_exp (-(min (levelA s') 50 - min (levelA s) 50))
        have := mul_le_mul_of_nonneg_left this (Real.exp_pos (-min (levelA s) 50)).le
        linarith
      have b3 := b2.trans (mul_le_mul_of_nonneg_left b1 (Real.exp_pos _).le)
      rw [min_eq_left h50] at b3 ⊢
      have e4 : Real.exp (-levelA s) * Real.exp (levelA s) = 1 := by rw [← Real.exp_add]; simp
      have b4 := mul_le_mul_of_nonneg_left a1 (Real.exp_pos (-levelA s)).le
      have b5 := mul_le_mul_of_nonneg_left a2 (Real.exp_pos (-levelA s)).le
      have e5 : Real.exp (-levelA s) * (0.0078 * Real.exp (levelA s)) = 0.0078 := by
        rw [mul_left_comm, e4, mul_one]
      have e6 : Real.exp (-levelA s) * (0.0033 * Real.exp (levelA s) + 0.018 * (Real.exp (levelA s) - 1)) =
          0.0033 + 0.018 * (1 - Real.exp (-levelA s)) := by
        calc _ = 0.0033 * (Real.exp (-levelA s) * Real.exp (levelA s)) +
              0.018 * (Real.exp (-levelA s) * Real.exp (levelA s) - Real.exp (-levelA s)) := by ring
          _ = _ := by rw [e4]; ring
      rw [e5] at b4
      rw [e6] at b5
      exact ⟨b3.trans b4, b3.trans b5⟩
    · rw [min_eq_right h50, min_eq_right (h50.trans m1), sub_self]
      refine ⟨by norm_num, ?_⟩
      have : Real.exp (-50) ≤ 1 := Real.exp_le_one_iff.mpr (by norm_num)
      norm_num
      linarith
  have p' := Real.exp_pos (-min (levelA s') 50)
  refine ⟨by linarith, by linarith, by linarith, by linarith [main.1], by linarith [main.2], fun h86 => ?_⟩
  have : Real.exp (-min (levelA s) 50) ≤ Real.exp (-0.7) := Real.exp_le_exp.mpr (by
    have : 0.7 ≤ min (levelA s) 50 := le_min (q86 h86) (by norm_num)
    linarith)
  have h7 : Real.exp (-0.7) ≤ 0.5 := by
    rw [Real.exp_neg, inv_le_comm₀ (Real.exp_pos _) (by norm_num)]
    have := expPart_le 0.7 (by norm_num)
    refine le_trans ?_ this
    unfold expPart
    norm_num
  have h8 := this.trans h7
  generalize Real.exp (-min (levelA s) 50) = E at *
  norm_num at h8 ⊢
  linarith

end Catima
