import Verif.Lemmas.BetheSteady
import Mathlib.Analysis.Convex.SpecificFunctions.Basic

/-!
# Helper lemmas: the density effect over a small step of the energy
-/

namespace Catima

/-- Slope of the polynomial part at most 7.6, jump at the first knee at most 0.002. -/
def densitySmooth (x0 x1 c a m d : ℚ) : Prop :=
  1 ≤ m ∧ (a * m) ^ 10 * (x1 - x0) ^ (⌈10 * (m - 1)⌉.toNat) ≤ 7.6 ^ 10 ∧
    ((10000 * m).num.toNat : ℚ) = 10000 * m ∧ 0.002 ≤ c - 4.6052 * x0 + d ∧
    (c - 4.6052 * x0 + d - 0.002) ^ 10000 ≤ a ^ 10000 * (x1 - x0) ^ (10000 * m).num.toNat ∧
    a ^ 10000 * (x1 - x0) ^ (10000 * m).num.toNat ≤ (c - 4.6052 * x0 + d + 0.002) ^ 10000

instance (x0 x1 c a m d : ℚ) : Decidable (densitySmooth x0 x1 c a m d) := by
  unfold densitySmooth; infer_instance

theorem density_smooth : ∀ i < 97, i ≠ 84 → i ≠ 86 → ∀ x0 x1 c a m d : Dec, density_effect_x0[i]? = some x0 →
    density_effect_x1[i]? = some x1 → density_effect_c[i]? = some c →
    density_effect_a[i]? = some a → density_effect_m[i]? = some m →
    density_effect_del_0[i]? = some d →
    densitySmooth x0.rat x1.rat c.rat a.rat m.rat d.rat := by
  have h : (List.range 97).all (fun i => i == 84 || i == 86 ||
      match density_effect_x0[i]?, density_effect_x1[i]?, density_effect_c[i]?,
        density_effect_a[i]?, density_effect_m[i]?, density_effect_del_0[i]? with
      | some x0, some x1, some c, some a, some m, some d =>
        decide (densitySmooth x0.rat x1.rat c.rat a.rat m.rat d.rat)
      | _, _, _, _, _, _ => false) = true := by decide +kernel
  intro i hi n1 n2 x0 x1 c a m d h0 h1 h2 h3 h4 h5
  rw [List.all_eq_true] at h
  have := h i (List.mem_range.mpr hi)
  rw [h0, h1, h2, h3, h4, h5] at this
  simp only [Bool.or_eq_true, beq_iff_eq, n1, n2, false_or, decide_eq_true_eq] at this
  exact this

theorem rpow_tangent (u w m : ℝ) (hw : 0 ≤ w) (h : w ≤ u) (hm : 1 ≤ m) : u ^ m - w ^ m ≤ m * u ^ (m - 1) * (u - w) := by
  rcases hw.eq_or_lt with h0 | h0
  · subst h0
    rcases h.eq_or_lt with h1 | h1
    · subst h1; simp
    · rw [Real.zero_rpow (by linarith), sub_zero, sub_zero]
      have e : u ^ m = u ^ (m - 1) * u := by
        rw [← Real.rpow_add_one h1.ne']; congr 1; ring
      have := Real.rpow_pos_of_pos h1 (m - 1)
      rw [e]
      nlinarith [mul_pos this h1]
  · have hu : 0 < u := by linarith
    have h1 := one_add_mul_self_le_rpow_one_add (s := w / u - 1) (p := m) (by
      have : 0 < w / u := by positivity
      linarith) hm
    rw [show 1 + (w / u - 1) = w / u by ring, Real.div_rpow hw hu.le, le_div_iff₀ (Real.rpow_pos_of_pos hu m)] at h1
    have e : u ^ m = u ^ (m - 1) * u := by
      rw [← Real.rpow_add_one hu.ne']; congr 1; ring
    have e2 : (1 + m * (w / u - 1)) * u ^ m = u ^ m + m * u ^ (m - 1) * (w - u) := by
      rw [e]; field_simp
    rw [e2] at h1
    linarith

/-- The density effect in terms of `x`, `x0 ≤ x` resp. `x < x0`. -/
noncomputable def densityHigh (x1 c a m x : ℝ) : ℝ := 4.6052 * x - c + a * (max (x1 - x) 0) ^ m

noncomputable def densityLow (x0 d x : ℝ) : ℝ := d * (10 : ℝ) ^ (2 * (x - x0))

theorem densityHigh_step (x0 x1 c a m d : ℚ) (hg : densityGood x0 x1 c a m d) (hs : densitySmooth x0 x1 c a m d) (x x' : ℝ)
    (h0 : (x0 : ℝ) ≤ x) (h : x ≤ x') :
    -(3 * (x' - x)) ≤ densityHigh x1 c a m x' - densityHigh x1 c a m x ∧
    densityHigh x1 c a m x' - densityHigh x1 c a m x ≤ 4.6052 * (x' - x) := by
  obtain ⟨-, -, g1, -, ga, -, -, -, -⟩ := hg
  obtain ⟨hm, hp, -, -, -, -⟩ := hs
  have g1' : (1 : ℝ) ≤ (x1 : ℝ) - x0 := by exact_mod_cast g1
  have ga' : (0 : ℝ) ≤ a := by exact_mod_cast ga
  have hm' : (1 : ℝ) ≤ m := by exact_mod_cast hm
  have hceil : (10 * (m - 1) : ℚ) ≤ (⌈10 * (m - 1)⌉.toNat : ℚ) := by
    have h := Int.le_ceil (10 * (m - 1))
    have h2 : (0 : Int) ≤ ⌈10 * (m - 1)⌉ := Int.ceil_nonneg (by linarith)
    have h3 : ((⌈10 * (m - 1)⌉.toNat : Int) : ℚ) = (⌈10 * (m - 1)⌉ : ℚ) := by rw [Int.toNat_of_nonneg h2]
    rw [← Int.cast_natCast, h3]
    exact h
  generalize ⌈10 * (m - 1)⌉.toNat = p at hp hceil
  have hpm : (m : ℝ) - 1 ≤ (p : ℝ) / 10 := by
    have : (10 * ((m : ℝ) - 1)) ≤ p := by exact_mod_cast hceil
    linarith
  have hp' : ((a : ℝ) * m) ^ 10 * ((x1 : ℝ) - x0) ^ p ≤ 7.6 ^ 10 := by
    have : (((a * m) ^ 10 * (x1 - x0) ^ p : ℚ) : ℝ) ≤ ((7.6 ^ 10 : ℚ) : ℝ) := by exact_mod_cast hp
    push_cast at this
    norm_num at this ⊢
    exact this
  have slope : (a : ℝ) * m * ((x1 : ℝ) - x0) ^ ((m : ℝ) - 1) ≤ 7.6 := by
    have s1 : ((x1 : ℝ) - x0) ^ ((m : ℝ) - 1) ≤ ((x1 : ℝ) - x0) ^ ((p : ℝ) / 10) := Real.rpow_le_rpow_of_exponent_le g1' hpm
    refine (mul_le_mul_of_nonneg_left s1 (by positivity)).trans ?_
    apply le_of_pow_le_pow_left₀ (n := 10) (by norm_num) (by positivity)
    rw [mul_pow, ← Real.rpow_natCast (((x1 : ℝ) - x0) ^ ((p : ℝ) / 10)) 10, ← Real.rpow_mul (by linarith)]
    rw [show (p : ℝ) / 10 * ((10 : Nat) : ℝ) = (p : ℝ) by push_cast; ring, Real.rpow_natCast]
    exact hp'
  unfold densityHigh
  obtain ⟨u, hu⟩ : ∃ u, u = max ((x1 : ℝ) - x) 0 := ⟨_, rfl⟩
  obtain ⟨w, hw⟩ : ∃ w, w = max ((x1 : ℝ) - x') 0 := ⟨_, rfl⟩
  rw [← hu, ← hw]
  have u0 : 0 ≤ u := by rw [hu]; exact le_max_right _ _
  have w0 : 0 ≤ w := by rw [hw]; exact le_max_right _ _
  have wu : w ≤ u := by rw [hu, hw]; exact max_le_max (by linarith) le_rfl
  have uw : u - w ≤ x' - x := by
    rw [hu, hw]
    rcases le_total ((x1 : ℝ) - x) 0 with h1 | h1
    · rw [max_eq_right h1]; linarith [le_max_right ((x1 : ℝ) - x') 0]
    · rw [max_eq_left h1]; linarith [le_max_left ((x1 : ℝ) - x') 0]
  have ux : u ≤ (x1 : ℝ) - x0 := by rw [hu]; exact max_le (by linarith) (by linarith)
  have t := rpow_tangent u w m w0 wu hm'
  have t0 : w ^ (m : ℝ) ≤ u ^ (m : ℝ) := Real.rpow_le_rpow w0 wu (by linarith)
  have t1 : u ^ ((m : ℝ) - 1) ≤ ((x1 : ℝ) - x0) ^ ((m : ℝ) - 1) := Real.rpow_le_rpow u0 ux (by linarith)
  have t2 : (a : ℝ) * (u ^ (m : ℝ) - w ^ (m : ℝ)) ≤ 7.6 * (x' - x) := by
    calc (a : ℝ) * (u ^ (m : ℝ) - w ^ (m : ℝ)) ≤ a * (m * u ^ ((m : ℝ) - 1) * (u - w)) := mul_le_mul_of_nonneg_left t ga'
      _ = a * m * u ^ ((m : ℝ) - 1) * (u - w) := by ring
      _ ≤ 7.6 * (x' - x) := by
        apply mul_le_mul _ uw (by linarith) (by norm_num)
        exact (mul_le_mul_of_nonneg_left t1 (by positivity)).trans slope
  have t3 : 0 ≤ (a : ℝ) * (u ^ (m : ℝ) - w ^ (m : ℝ)) := mul_nonneg ga' (by linarith)
  norm_num at t2 ⊢
  constructor <;> linarith

/-- The jump at the first knee. -/
theorem density_jump (x0 x1 c a m d : ℚ) (hg : densityGood x0 x1 c a m d) (hs : densitySmooth x0 x1 c a m d) :
    |densityHigh x1 c a m x0 - d| ≤ 0.002 := by
  obtain ⟨-, -, g1, -, ga, -, gd, -, -⟩ := hg
  obtain ⟨hm, -, hn, he, h1, h2⟩ := hs
  have g1' : (1 : ℝ) ≤ (x1 : ℝ) - x0 := by exact_mod_cast g1
  have ga' : (0 : ℝ) ≤ a := by exact_mod_cast ga
  generalize (10000 * m).num.toNat = p at *
  have hn' : (p : ℝ) = 10000 * m := by exact_mod_cast hn
  clear hn
  generalize hN : (10000 : ℕ) = N at h1 h2
  have hNr : (N : ℝ) = 10000 := by rw [← hN]; norm_num
  have N0 : N ≠ 0 := by omega
  clear hN
  have u0 : 0 ≤ (x1 : ℝ) - x0 := by linarith
  have epow : ((a : ℝ) * ((x1 : ℝ) - x0) ^ (m : ℝ)) ^ N = (a : ℝ) ^ N * ((x1 : ℝ) - x0) ^ p := by
    rw [mul_pow, ← Real.rpow_natCast (((x1 : ℝ) - x0) ^ (m : ℝ)) N, ← Real.rpow_mul u0]
    rw [show (m : ℝ) * (N : ℝ) = (p : ℝ) by rw [hNr, hn']; ring, Real.rpow_natCast]
  obtain ⟨e, hE⟩ : ∃ e : ℚ, e = c - 4.6052 * x0 + d := ⟨_, rfl⟩
  rw [← hE] at he h1 h2
  have eE : (e : ℝ) = c - 4.6052 * x0 + d := by
    rw [hE]; push_cast; norm_num
  have he' : (0.002 : ℝ) ≤ e := by
    have := (Rat.cast_le (K := ℝ)).mpr he
    norm_num at this ⊢
    exact this
  have n0 : 0 ≤ (e : ℝ) + 0.002 := by norm_num at he' ⊢; linarith
  have c1 : ((e : ℝ) - 0.002) ^ N ≤ ((a : ℝ) * ((x1 : ℝ) - x0) ^ (m : ℝ)) ^ N := by
    rw [epow]
    have := (Rat.cast_le (K := ℝ)).mpr h1
    rw [Rat.cast_pow, Rat.cast_mul, Rat.cast_pow, Rat.cast_pow, Rat.cast_sub, Rat.cast_sub] at this
    rw [show ((0.002 : ℚ) : ℝ) = 0.002 by norm_num] at this
    exact this
  have c2 : ((a : ℝ) * ((x1 : ℝ) - x0) ^ (m : ℝ)) ^ N ≤ ((e : ℝ) + 0.002) ^ N := by
    rw [epow]
    have := (Rat.cast_le (K := ℝ)).mpr h2
    rw [Rat.cast_pow, Rat.cast_mul, Rat.cast_pow, Rat.cast_pow, Rat.cast_sub, Rat.cast_add] at this
    rw [show ((0.002 : ℚ) : ℝ) = 0.002 by norm_num] at this
    exact this
  have n1 := le_of_pow_le_pow_left₀ N0 (mul_nonneg ga' (Real.rpow_nonneg u0 _)) c1
  have n2 := le_of_pow_le_pow_left₀ N0 n0 c2
  clear c1 c2 h1 h2 epow
  unfold densityHigh
  rw [max_eq_left u0, abs_le]
  rw [eE] at n1 n2
  constructor <;> linarith

theorem densityLow_step (x0 d x x' : ℝ) (hd : 0 ≤ d) (hd' : d ≤ 0.14) (h : x ≤ x') (h' : x' ≤ x0) :
    0 ≤ densityLow x0 d x' - densityLow x0 d x ∧ densityLow x0 d x' - densityLow x0 d x ≤ 0.65 * (x' - x) := by
  have l10 : Real.log 10 ≤ 2.32 := by
    rw [Real.log_le_iff_le_exp (by norm_num)]
    have := Real.exp_one_gt_d9
    have e : Real.exp (2.32 : ℝ) = Real.exp 1 ^ 2 * Real.exp 0.32 := by
      rw [← Real.exp_nat_mul, ← Real.exp_add]; norm_num
    have h3 := Real.quadratic_le_exp_of_nonneg (show (0 : ℝ) ≤ 0.32 by norm_num)
    rw [e]
    calc (10 : ℝ) ≤ 2.718 ^ 2 * (1 + 0.32 + 0.32 ^ 2 / 2) := by norm_num
      _ ≤ _ := by
        gcongr
        norm_num at this ⊢; linarith
  have l0 : 0 ≤ Real.log 10 := Real.log_nonneg (by norm_num)
  unfold densityLow
  rw [Real.rpow_def_of_pos (by norm_num), Real.rpow_def_of_pos (by norm_num)]
  have e1 : Real.exp (Real.log 10 * (2 * (x - x0))) =
      Real.exp (Real.log 10 * (2 * (x' - x0))) * Real.exp (-(Real.log 10 * (2 * (x' - x)))) := by
    rw [← Real.exp_add]; congr 1; ring
  have e2 : Real.exp (Real.log 10 * (2 * (x' - x0))) ≤ 1 := by
    rw [Real.exp_le_one_iff]; nlinarith
  have e3 := Real.one_sub_le_exp_neg (Real.log 10 * (2 * (x' - x)))
  have e4 : Real.exp (-(Real.log 10 * (2 * (x' - x)))) ≤ 1 := by
    rw [Real.exp_le_one_iff]; nlinarith
  have e5 := Real.exp_pos (Real.log 10 * (2 * (x' - x0)))
  rw [e1]
  generalize Real.exp (Real.log 10 * (2 * (x' - x0))) = q at *
  have e6 : 1 - Real.exp (-(Real.log 10 * (2 * (x' - x)))) ≤ 4.64 * (x' - x) := by
    have : Real.log 10 * (2 * (x' - x)) ≤ 2.32 * (2 * (x' - x)) := mul_le_mul_of_nonneg_right l10 (by linarith)
    norm_num at this ⊢; linarith
  generalize Real.exp (-(Real.log 10 * (2 * (x' - x)))) = w at *
  have e : d * q - d * (q * w) = d * q * (1 - w) := by ring
  rw [e]
  have dq : 0 ≤ d * q := mul_nonneg hd e5.le
  have dq' : d * q ≤ 0.14 := by
    norm_num at hd' ⊢; nlinarith
  refine ⟨mul_nonneg dq (by linarith), ?_⟩
  calc d * q * (1 - w) ≤ 0.14 * (4.64 * (x' - x)) := mul_le_mul dq' e6 (by linarith) (by norm_num)
    _ ≤ _ := by norm_num; linarith

/-- The density effect over a step. -/
theorem density_step (zt : Int) (h : 1 ≤ zt) (n1 : zt ≠ 85) (n2 : zt ≠ 87) : ∃ f : ℝ → ℝ,
    (∀ b, bethek_density_effect b zt = .ok (f (Real.log (b * (1 / √(1 - b * b))) / 2.3025851))) ∧
    (∀ x x', x ≤ x' → -(3 * (x' - x)) - 0.002 ≤ f x' - f x ∧ f x' - f x ≤ 4.6052 * (x' - x) + 0.002) ∧
    (∀ x, x ≤ -0.71 → 0 ≤ f x ∧ f x ≤ 0.0075) := by
  obtain ⟨l0, l1, l2, l3, l4, l5⟩ := density_lengths
  have hi : 0 ≤ (if zt > 97 then (97 : Int) else zt) - 1 ∧
      (if zt > 97 then (97 : Int) else zt) - 1 < 97 ∧ (if zt > 97 then (97 : Int) else zt) - 1 ≠ 84 ∧
      (if zt > 97 then (97 : Int) else zt) - 1 ≠ 86 := by split <;> omega
  unfold bethek_density_effect
  dsimp only
  generalize (if zt > 97 then (97 : Int) else zt) - 1 = i at hi
  obtain ⟨k, rfl⟩ := Int.eq_ofNat_of_zero_le hi.1
  have hk : k < 97 := by omega
  obtain ⟨x0, g0, e0⟩ := rdDec_at density_effect_x0 k (by omega)
  obtain ⟨x1, g1, e1⟩ := rdDec_at density_effect_x1 k (by omega)
  obtain ⟨c, g2, e2⟩ := rdDec_at density_effect_c k (by omega)
  obtain ⟨a, g3, e3⟩ := rdDec_at density_effect_a k (by omega)
  obtain ⟨m, g4, e4⟩ := rdDec_at density_effect_m k (by omega)
  obtain ⟨d, g5, e5⟩ := rdDec_at density_effect_del_0 k (by omega)
  have hg := density_rows k hk _ _ _ _ _ _ g0 g1 g2 g3 g4 g5
  have hs := density_smooth k hk (by omega) (by omega) _ _ _ _ _ _ g0 g1 g2 g3 g4 g5
  simp only [log_real, sqrt_real, pow_real]
  rw [show (1.0 : ℝ) = 1 by norm_num, e0, e1, e2, e3, e4, e5]
  have dh := densityHigh_step _ _ _ _ _ _ hg hs
  have dj := density_jump _ _ _ _ _ _ hg hs
  obtain ⟨q0, -, -, -, -, qm, q6, q7, -⟩ := hg
  norm_num at q0 q7
  have q0' : (-0.06 : ℝ) ≤ (x0.rat : ℝ) := by
    have : ((-(3 / 50) : ℚ) : ℝ) ≤ (x0.rat : ℝ) := by exact_mod_cast q0
    push_cast at this; norm_num at this ⊢; exact this
  have qm' : (0 : ℝ) < (m.rat : ℝ) := by exact_mod_cast qm
  have q6' : (0 : ℝ) ≤ (d.rat : ℝ) := by exact_mod_cast q6
  have q7' : (d.rat : ℝ) ≤ 0.14 := by
    have : (d.rat : ℝ) ≤ ((7 / 50 : ℚ) : ℝ) := by exact_mod_cast q7
    push_cast at this; norm_num at this ⊢; exact this
  have dl := densityLow_step (x0.rat : ℝ) (d.rat : ℝ)
  have dl0 : densityLow (x0.rat : ℝ) (d.rat : ℝ) (x0.rat : ℝ) = (d.rat : ℝ) := by
    unfold densityLow; simp
  refine ⟨fun x => if x < (x0.rat : ℝ) then densityLow (x0.rat : ℝ) (d.rat : ℝ) x else
    densityHigh (x1.rat : ℝ) (c.rat : ℝ) (a.rat : ℝ) (m.rat : ℝ) x, ?_, ?_, ?_⟩
  · intro b
    generalize Real.log (b * (1 / √(1 - b * b))) / 2.3025851 = x
    simp only [bind_ok]
    by_cases hx : x < (x0.rat : ℝ)
    · rw [if_pos hx, if_pos ((lt_real _ _).mpr hx)]
      have : (if Scalar.lt 0.0 ((d.rat : ℚ) : ℝ) = true then ((d.rat : ℚ) : ℝ) * 10.0 ^ (2.0 * (x - ((x0.rat : ℚ) : ℝ))) else 0.0) =
          densityLow (x0.rat : ℝ) (d.rat : ℝ) x := by
        unfold densityLow
        split
        · norm_num
        · rename_i hh
          rw [lt_real] at hh
          norm_num at hh
          have : (d.rat : ℝ) = 0 := le_antisymm (by exact_mod_cast hh) q6'
          rw [this]; norm_num
      rw [this]; rfl
    · rw [if_neg hx, if_neg (by rw [lt_real]; exact hx)]
      rw [not_lt] at hx
      by_cases hx1 : x ≤ (x1.rat : ℝ)
      · rw [if_pos (by rw [Bool.and_eq_true, le_real, le_real]; exact ⟨hx, hx1⟩)]
        unfold densityHigh
        rw [max_eq_left (by linarith)]
        rfl
      · rw [if_neg (by rw [Bool.and_eq_true, le_real, le_real]; exact fun h => hx1 h.2)]
        unfold densityHigh
        rw [max_eq_right (by linarith), Real.zero_rpow qm'.ne', mul_zero, add_zero]
        rfl
  · intro x x' hx
    dsimp only
    rw [abs_le] at dj
    by_cases h1 : x' < (x0.rat : ℝ)
    · rw [if_pos h1, if_pos (lt_of_le_of_lt hx h1)]
      have := dl x x' q6' q7' hx h1.le
      norm_num at this ⊢
      constructor <;> linarith
    · rw [if_neg h1]
      rw [not_lt] at h1
      by_cases h2 : x < (x0.rat : ℝ)
      · rw [if_pos h2]
        have a1 := dl x _ q6' q7' h2.le le_rfl
        have a2 := dh _ x' le_rfl h1
        rw [dl0] at a1
        norm_num at a1 a2 dj ⊢
        constructor <;> linarith
      · rw [if_neg h2]
        rw [not_lt] at h2
        have a2 := dh _ x' h2 hx
        norm_num at a2 ⊢
        constructor <;> linarith
  · intro x hx
    dsimp only
    norm_num at q0' hx
    rw [if_pos (by linarith)]
    unfold densityLow
    have p0 : (0 : ℝ) ≤ (10 : ℝ) ^ (2 * (x - (x0.rat : ℝ))) := by positivity
    refine ⟨mul_nonneg q6' p0, ?_⟩
    have p1 : (10 : ℝ) ^ (2 * (x - (x0.rat : ℝ))) ≤ 0.0535 := by
      calc (10 : ℝ) ^ (2 * (x - (x0.rat : ℝ))) ≤ (10 : ℝ) ^ (-(13 / 10 : ℝ)) :=
            Real.rpow_le_rpow_of_exponent_le (by norm_num) (by linarith)
        _ ≤ 0.0535 := by
          rw [Real.rpow_neg (by norm_num), inv_le_comm₀ (by positivity) (by norm_num)]
          apply le_of_pow_le_pow_left₀ (n := 10) (by norm_num) (by positivity)
          rw [← Real.rpow_natCast ((10 : ℝ) ^ (13 / 10 : ℝ)) 10, ← Real.rpow_mul (by norm_num)]
          rw [show (13 / 10 : ℝ) * ((10 : Nat) : ℝ) = ((13 : Nat) : ℝ) by norm_num, Real.rpow_natCast]
          norm_num
    calc _ ≤ 0.14 * 0.0535 := mul_le_mul q7' p1 p0 (by norm_num)
      _ ≤ _ := by norm_num

end Catima
