import Verif.Lemmas.LogTen
import Mathlib.Analysis.Convex.SpecificFunctions.Basic
import Mathlib.Analysis.SpecialFunctions.Log.Deriv

/-!
# Helper lemmas: quantities that change little over a small step of the energy
-/

namespace Catima

/-- Two positive numbers, the second at most `u` times the first, the first at most `d` times the second. -/
structure Step (u d a b : ℝ) : Prop where
  pos : 0 < a
  pos' : 0 < b
  up : b ≤ u * a
  down : a ≤ d * b

namespace Step

theorem mono {u d u' d' a b : ℝ} (h : Step u d a b) (hu : u ≤ u') (hd : d ≤ d') : Step u' d' a b :=
  ⟨h.pos, h.pos', h.up.trans (mul_le_mul_of_nonneg_right hu h.pos.le), h.down.trans (mul_le_mul_of_nonneg_right hd h.pos'.le)⟩

theorem add {u d a b a' b' : ℝ} (h : Step u d a b) (h' : Step u d a' b') : Step u d (a + a') (b + b') :=
  ⟨add_pos h.pos h'.pos, add_pos h.pos' h'.pos', by linarith [h.up, h'.up], by linarith [h.down, h'.down]⟩

theorem scale {u d a b : ℝ} (h : Step u d a b) (c : ℝ) (hc : 0 < c) : Step u d (c * a) (c * b) :=
  ⟨mul_pos hc h.pos, mul_pos hc h.pos', by nlinarith [h.up], by nlinarith [h.down]⟩

theorem mul {u d u' d' a b a' b' : ℝ} (h : Step u d a b) (h' : Step u' d' a' b') : Step (u * u') (d * d') (a * a') (b * b') := by
  refine ⟨mul_pos h.pos h'.pos, mul_pos h.pos' h'.pos', ?_, ?_⟩
  · calc b * b' ≤ (u * a) * (u' * a') := mul_le_mul h.up h'.up h'.pos'.le (h.pos'.le.trans h.up)
      _ = _ := by ring
  · calc a * a' ≤ (d * b) * (d' * b') := mul_le_mul h.down h'.down h'.pos.le (h.pos.le.trans h.down)
      _ = _ := by ring

theorem inv {u d a b : ℝ} (h : Step u d a b) : Step d u a⁻¹ b⁻¹ := by
  have := h.pos; have := h.pos'
  refine ⟨by positivity, by positivity, ?_, ?_⟩
  · rw [← div_eq_mul_inv, inv_le_comm₀ (by positivity) (by
      have := h.down
      have : 0 < d := by by_contra hd; nlinarith
      positivity), inv_div, div_le_iff₀ (by by_contra hd; nlinarith [h.down])]
    linarith [h.down]
  · rw [← div_eq_mul_inv, inv_le_comm₀ (by positivity) (by
      have := h.up
      have : 0 < u := by by_contra hd; nlinarith
      positivity), inv_div, div_le_iff₀ (by by_contra hd; nlinarith [h.up])]
    linarith [h.up]

theorem trans {u d u' d' a b c : ℝ} (h : Step u d a b) (h' : Step u' d' b c) (hu : 0 ≤ u') (hd : 0 ≤ d) :
    Step (u' * u) (d * d') a c :=
  ⟨h.pos, h'.pos', by nlinarith [h.up, h'.up], by nlinarith [h.down, h'.down]⟩

theorem refl {a : ℝ} (h : 0 < a) : Step 1 1 a a := ⟨h, h, by linarith, by linarith⟩

/-- Weighted sums. -/
theorem sum {β : Type} {u d : ℝ} (l : List β) (w f g : β → ℝ) (hl : l ≠ []) (hw : ∀ t ∈ l, 0 < w t)
    (h : ∀ t ∈ l, Step u d (f t) (g t)) : Step u d ((l.map fun t => w t * f t).sum) ((l.map fun t => w t * g t).sum) := by
  induction l with
  | nil => exact absurd rfl hl
  | cons a l ih =>
    have ha := (h a (by simp)).scale (w a) (hw a (by simp))
    by_cases hl' : l = []
    · subst hl'; simpa using ha
    · simp only [List.map_cons, List.sum_cons]
      exact ha.add (ih hl' (fun t ht => hw t (by simp [ht])) fun t ht => h t (by simp [ht]))

/-- A number that changes by a bounded amount. -/
theorem of_diff {a b l u d : ℝ} (hl : 0 < l) (ha : l ≤ a) (hb : l ≤ b) (hu : b - a ≤ u * l) (hd : a - b ≤ d * l)
    (hu0 : 0 ≤ u) (hd0 : 0 ≤ d) : Step (1 + u) (1 + d) a b :=
  ⟨by linarith, by linarith, by nlinarith, by nlinarith⟩

end Step

/-! ## Powers and logarithms -/

theorem log_step_le (r : ℝ) (h1 : 1 ≤ r) (h2 : r ≤ 1.0393) : 0 ≤ Real.log r ∧ Real.log r ≤ 0.0386 := by
  refine ⟨Real.log_nonneg h1, ?_⟩
  rw [Real.log_le_iff_le_exp (by linarith)]
  have := Real.quadratic_le_exp_of_nonneg (show (0 : ℝ) ≤ 0.0386 by norm_num)
  norm_num at this h2 ⊢
  linarith

theorem rpow_step (r a : ℝ) (h1 : 1 ≤ r) (ha : 0 ≤ a) (x : ℝ) (hx : 0 < x) : Step (r ^ a) 1 (x ^ a) ((r * x) ^ a) := by
  have hr : 1 ≤ r ^ a := Real.one_le_rpow h1 ha
  have hp := Real.rpow_pos_of_pos hx a
  rw [Real.mul_rpow (by linarith) hx.le]
  exact ⟨hp, by positivity, le_rfl, by nlinarith⟩

/-! ## Nuclear stopping -/

/-- calculations.cpp:52-57: the reduced nuclear stopping. -/
noncomputable def reducedNuclear (e : ℝ) : ℝ :=
  if e ≤ 30 then Real.log (1 + 1.1383 * e) / (2 * (e + 0.01321 * e ^ (0.21226 : ℝ) + 0.19593 * e ^ (0.5 : ℝ)))
  else Real.log e / (2 * e)

theorem log_ge_3_4 (x : ℝ) (h : 30 ≤ x) : 3.4 ≤ Real.log x := by
  rw [Real.le_log_iff_exp_le (by linarith)]
  have e : Real.exp (3.4 : ℝ) * Real.exp 0.1 * Real.exp 0.5 = Real.exp 1 ^ 4 := by
    rw [← Real.exp_nat_mul, ← Real.exp_add, ← Real.exp_add]; norm_num
  have h1 := Real.exp_one_lt_d9
  have h2 : (1.105 : ℝ) ≤ Real.exp 0.1 := by
    have := Real.quadratic_le_exp_of_nonneg (show (0 : ℝ) ≤ 0.1 by norm_num)
    norm_num at this ⊢; exact this
  have h2' : (1.648 : ℝ) ≤ Real.exp 0.5 := by
    have e2 : Real.exp (0.5 : ℝ) = Real.exp 0.1 ^ 5 := by rw [← Real.exp_nat_mul]; norm_num
    have h3 : (1.10516 : ℝ) ≤ Real.exp 0.1 := by
      have := Real.sum_le_exp_of_nonneg (show (0 : ℝ) ≤ 0.1 by norm_num) 4
      simp only [Finset.sum_range_succ, Finset.sum_range_zero, Nat.factorial] at this
      norm_num at this ⊢; linarith
    rw [e2]
    calc (1.648 : ℝ) ≤ 1.10516 ^ 5 := by norm_num
      _ ≤ _ := by gcongr
  have h3 : Real.exp 1 ^ 4 ≤ 2.7182818286 ^ 4 := by
    have := Real.exp_pos 1
    gcongr
  have h4 := Real.exp_pos (3.4 : ℝ)
  have h5 : 1.105 * 1.648 ≤ Real.exp 0.1 * Real.exp 0.5 := by gcongr
  have h6 : Real.exp (3.4 : ℝ) * (1.105 * 1.648) ≤ 2.7182818286 ^ 4 := by
    calc _ ≤ Real.exp (3.4 : ℝ) * (Real.exp 0.1 * Real.exp 0.5) := by gcongr
      _ = Real.exp 1 ^ 4 := by rw [← mul_assoc]; exact e
      _ ≤ _ := h3
  norm_num at h6 ⊢
  linarith

theorem log_le_3_6 (x : ℝ) (h0 : 0 < x) (h : x ≤ 35.4) : Real.log x ≤ 3.6 := by
  rw [Real.log_le_iff_le_exp h0]
  have e : Real.exp (3.6 : ℝ) = Real.exp 1.2 ^ 3 := by rw [← Real.exp_nat_mul]; norm_num
  have h2 : (3.3 : ℝ) ≤ Real.exp 1.2 := by
    have := Real.sum_le_exp_of_nonneg (show (0 : ℝ) ≤ 1.2 by norm_num) 7
    simp only [Finset.sum_range_succ, Finset.sum_range_zero, Nat.factorial] at this
    norm_num at this ⊢; linarith
  rw [e]
  calc x ≤ 35.4 := h
    _ ≤ 3.3 ^ 3 := by norm_num
    _ ≤ _ := by gcongr

theorem nuclear_denominator (e : ℝ) (he : 0 < e) (r : ℝ) (h1 : 1 ≤ r) :
    Step r 1 (2 * (e + 0.01321 * e ^ (0.21226 : ℝ) + 0.19593 * e ^ (0.5 : ℝ)))
      (2 * (r * e + 0.01321 * (r * e) ^ (0.21226 : ℝ) + 0.19593 * (r * e) ^ (0.5 : ℝ))) := by
  have hs : ∀ a : ℝ, 0 ≤ a → a ≤ 1 → Step r 1 (e ^ a) ((r * e) ^ a) := fun a h0 h =>
    (rpow_step r a h1 h0 e he).mono (by
      calc r ^ a ≤ r ^ (1 : ℝ) := Real.rpow_le_rpow_of_exponent_le h1 h
        _ = r := Real.rpow_one r) le_rfl
  have h0 : Step r 1 e (r * e) := ⟨he, by positivity, le_rfl, by nlinarith⟩
  exact ((h0.add ((hs 0.21226 (by norm_num) (by norm_num)).scale 0.01321 (by norm_num))).add
    ((hs 0.5 (by norm_num) (by norm_num)).scale 0.19593 (by norm_num))).scale 2 (by norm_num)

theorem log1p_step (x r : ℝ) (hx : 0 < x) (h1 : 1 ≤ r) : Step r 1 (Real.log (1 + x)) (Real.log (1 + r * x)) := by
  have hl : 0 < Real.log (1 + x) := Real.log_pos (by linarith)
  refine ⟨hl, Real.log_pos (by nlinarith), ?_, ?_⟩
  · rw [← Real.log_rpow (by linarith)]
    exact Real.log_le_log (by nlinarith) (one_add_mul_self_le_rpow_one_add (by linarith) h1)
  · rw [one_mul]
    exact Real.log_le_log (by linarith) (by nlinarith)

theorem reducedNuclear_step (e r : ℝ) (he : 0 < e) (h1 : 1 ≤ r) (h2 : r ≤ 1.0393) :
    Step 1.2 1.2 (reducedNuclear e) (reducedNuclear (r * e)) := by
  have hre : e ≤ r * e := by nlinarith
  have hre2 : r * e ≤ 1.0393 * e := by nlinarith
  norm_num at h2 hre2
  unfold reducedNuclear
  rcases le_or_gt (r * e) 30 with h | h
  · rw [if_pos (hre.trans h), if_pos h, div_eq_mul_inv, div_eq_mul_inv]
    have hn := log1p_step (1.1383 * e) r (by positivity) h1
    rw [show r * (1.1383 * e) = 1.1383 * (r * e) by ring] at hn
    refine (hn.mul (nuclear_denominator e he r h1).inv).mono ?_ ?_ <;> norm_num <;> linarith
  · rcases le_or_gt e 30 with h' | h'
    · rw [if_pos h', if_neg (not_le.mpr h)]
      have e0 : 28.86 ≤ e := by norm_num; linarith
      norm_num at e0
      have n1 : 3.4 ≤ Real.log (1 + 1.1383 * e) := log_ge_3_4 _ (by norm_num; linarith)
      have n2 : Real.log (1 + 1.1383 * e) ≤ 3.6 := log_le_3_6 _ (by positivity) (by norm_num; linarith)
      have m1 : 3.4 ≤ Real.log (r * e) := log_ge_3_4 _ h.le
      have m2 : Real.log (r * e) ≤ 3.6 := log_le_3_6 _ (by positivity) (by norm_num; linarith)
      have hsq : e ^ (0.5 : ℝ) ≤ e / 5 := by
        rw [show (0.5 : ℝ) = 1 / 2 by norm_num, ← Real.sqrt_eq_rpow, Real.sqrt_le_left (by positivity)]
        nlinarith
      have hsq2 : e ^ (0.21226 : ℝ) ≤ e ^ (0.5 : ℝ) := Real.rpow_le_rpow_of_exponent_le (by linarith) (by norm_num)
      have p1 := Real.rpow_pos_of_pos he 0.5
      have p2 := Real.rpow_pos_of_pos he 0.21226
      have D1 : 2 * e ≤ 2 * (e + 0.01321 * e ^ (0.21226 : ℝ) + 0.19593 * e ^ (0.5 : ℝ)) := by
        norm_num at p1 p2 ⊢; linarith
      have D2 : 2 * (e + 0.01321 * e ^ (0.21226 : ℝ) + 0.19593 * e ^ (0.5 : ℝ)) ≤ 2.09 * e := by
        norm_num at hsq hsq2 ⊢; linarith
      generalize 2 * (e + 0.01321 * e ^ (0.21226 : ℝ) + 0.19593 * e ^ (0.5 : ℝ)) = D at D1 D2
      generalize Real.log (1 + 1.1383 * e) = N at n1 n2
      generalize Real.log (r * e) = M at m1 m2
      norm_num at n1 n2 m1 m2 D2
      have hD : 0 < D := by linarith
      have hE : 0 < 2 * (r * e) := by positivity
      refine ⟨by positivity, by positivity, ?_, ?_⟩
      · rw [← mul_div_assoc, div_le_div_iff₀ hE hD]
        norm_num
        calc M * D ≤ 18 / 5 * (209 / 100 * e) := by gcongr
          _ ≤ 6 / 5 * (17 / 5) * (2 * e) := by linarith
          _ ≤ 6 / 5 * N * (2 * (r * e)) := by gcongr
      · rw [← mul_div_assoc, div_le_div_iff₀ hD hE]
        norm_num
        calc N * (2 * (r * e)) ≤ 18 / 5 * (2 * (10393 / 10000 * e)) := by gcongr
          _ ≤ 6 / 5 * (17 / 5) * (2 * e) := by linarith
          _ ≤ 6 / 5 * M * D := by gcongr
    · rw [if_neg (not_le.mpr h'), if_neg (not_le.mpr h), div_eq_mul_inv, div_eq_mul_inv]
      have hl := log_ge_3_4 e h'.le
      norm_num at hl
      have hr := log_step_le r h1 (by norm_num; exact h2)
      have e1 : Real.log (r * e) = Real.log r + Real.log e := Real.log_mul (by linarith) he.ne'
      have hL : Step 1.02 1 (Real.log e) (Real.log (r * e)) := by
        rw [e1]
        exact ⟨by linarith, by linarith, by norm_num at hr ⊢; linarith, by linarith⟩
      have hE : Step r 1 (2 * e) (2 * (r * e)) := ⟨by positivity, by positivity, by linarith, by linarith⟩
      refine (hL.mul hE.inv).mono ?_ ?_ <;> norm_num <;> linarith

end Catima
