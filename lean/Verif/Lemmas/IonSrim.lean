import Verif.Lemmas.IonVelocity
import Verif.Lemmas.IonCharge
import Verif.Lemmas.HeliumCurve

/-!
# Helper lemmas: the low-energy stopping of heavy ions over one step of the grid
-/

namespace Catima

/-- What is used of the screening lengths of the ion `i + 3`. -/
def lamOk (i : Nat) : Bool :=
  match atima_lambda_screening[min (i + 2) 91]? with
  | some d => decide (81 ≤ 100 * d.rat ∧ 10 * d.rat ≤ 12 ∧ (2195 / 10000) ^ 3 * ((i : ℚ) + 3) ≤ d.rat ^ 3 ∧
      (i = 21 ∨ i = 22 → 91 ≤ 100 * d.rat) ∧ (i = 23 ∨ i = 24 → 88 ≤ 100 * d.rat))
  | none => false

set_option maxRecDepth 8000 in
theorem lam_ok : (List.range 106).all lamOk = true := by decide +kernel

/-- What is used of the Fermi velocities of the targets. -/
def vfOk (i : Nat) : Bool :=
  match atima_vfermi[i]? with
  | some d => decide (0 < d.rat ∧ (i = 90 ∨ 100 * d.rat ≤ 129) ∧ (i < 6 ∨ i = 13 ∨ i = 31 → 10 * d.rat ≤ 11))
  | none => false

set_option maxRecDepth 8000 in
theorem vf_ok : (List.range 92).all vfOk = true := by decide +kernel

theorem inv_cbrt (pZ : Int) (h : 3 ≤ pZ) : 0 < 1 / (pZ : ℝ) ^ (1 / 3 : ℝ) ∧ (pZ : ℝ) * (1 / (pZ : ℝ) ^ (1 / 3 : ℝ)) ^ 3 = 1 := by
  have h0 : (0 : ℝ) < pZ := by
    have : (3 : ℝ) ≤ pZ := by exact_mod_cast h
    linarith
  have hp := Real.rpow_pos_of_pos h0 (1 / 3)
  refine ⟨by positivity, ?_⟩
  have e : ((pZ : ℝ) ^ (1 / 3 : ℝ)) ^ 3 = pZ := by
    rw [← Real.rpow_natCast, ← Real.rpow_mul h0.le]; norm_num
  rw [div_pow, e, one_pow]
  field_simp

theorem ion_tables (pZ tZ : Int) (h3 : 3 ≤ pZ) (h108 : pZ ≤ 108) (hT : 1 ≤ tZ) (h91 : tZ ≠ 91) :
    ∃ lam vf : ℝ, rdDec (α := ℝ) atima_lambda_screening (srimIdx pZ) = .ok lam ∧ rdDec (α := ℝ) atima_vfermi (srimIdx tZ) = .ok vf ∧
      ScreenIn pZ (1 / (pZ : ℝ) ^ (1 / 3 : ℝ)) lam vf ∧ (tZ ≤ 6 ∨ tZ = 14 ∨ tZ = 32 → vf ≤ 1.1) := by
  obtain ⟨i0, i1⟩ := inv_cbrt pZ h3
  set iz := 1 / (pZ : ℝ) ^ (1 / 3 : ℝ)
  have hl : atima_lambda_screening.length = 92 := by decide
  have hv : atima_vfermi.length = 92 := by decide
  obtain ⟨i, rfl⟩ : ∃ i : ℕ, pZ = (i : ℤ) + 3 := ⟨(pZ - 3).toNat, by omega⟩
  have hi : i < 106 := by omega
  have c := List.all_eq_true.mp lam_ok i (List.mem_range.mpr hi)
  have hm : min (i + 2) 91 < atima_lambda_screening.length := by rw [hl]; omega
  obtain ⟨d, hd1, hd2⟩ := rdDec_at atima_lambda_screening (min (i + 2) 91) hm
  have ei : srimIdx ((i : ℤ) + 3) = ((min (i + 2) 91 : ℕ) : ℤ) := by unfold srimIdx; split <;> omega
  unfold lamOk at c
  rw [hd1] at c
  simp only [decide_eq_true_eq] at c
  obtain ⟨c1, c2, c3, c4, c5⟩ := c
  obtain ⟨t0, t92⟩ := srimIdx_range tZ hT
  obtain ⟨k, hk⟩ := Int.eq_ofNat_of_zero_le t0
  have hk' : k < 92 := by omega
  have cv := List.all_eq_true.mp vf_ok k (List.mem_range.mpr hk')
  obtain ⟨f, hf1, hf2⟩ := rdDec_at atima_vfermi k (by rw [hv]; exact hk')
  unfold vfOk at cv
  rw [hf1] at cv
  simp only [decide_eq_true_eq] at cv
  obtain ⟨v1, v2, v3⟩ := cv
  have k90 : k ≠ 90 := by
    unfold srimIdx at hk
    split at hk <;> omega
  refine ⟨_, _, by rw [ei]; exact hd2, by rw [hk]; exact hf2, ?_, ?_⟩
  · have e1 : (81 : ℝ) ≤ 100 * d.rat := by exact_mod_cast c1
    have e2 : 10 * (d.rat : ℝ) ≤ 12 := by exact_mod_cast c2
    have e3 : (2195 / 10000 : ℝ) ^ 3 * ((i : ℝ) + 3) ≤ (d.rat : ℝ) ^ 3 := by
      have := (Rat.cast_le (K := ℝ)).mpr c3
      push_cast at this
      exact this
    have d0 : (0 : ℝ) < d.rat := by linarith
    refine ⟨h3, i0, i1, by norm_num; linarith, by norm_num; linarith, ?_, by exact_mod_cast v1, ?_, ?_, ?_⟩
    · have p3 : (0.2195 : ℝ) ^ 3 ≤ (d.rat * iz) ^ 3 := by
        rw [mul_pow]
        push_cast at i1
        have := mul_le_mul_of_nonneg_right e3 (pow_pos i0 3).le
        have e : (2195 / 10000 : ℝ) ^ 3 * ((i : ℝ) + 3) * iz ^ 3 = 0.2195 ^ 3 := by
          rw [mul_assoc, i1]; norm_num
        linarith
      exact le_of_pow_le_pow_left₀ (n := 3) (by norm_num) (by positivity) p3
    · have := v2.resolve_left k90
      have : 100 * (f.rat : ℝ) ≤ 129 := by exact_mod_cast this
      norm_num; linarith
    · intro h24 h25
      have : (91 : ℝ) ≤ 100 * d.rat := by exact_mod_cast c4 (by omega)
      norm_num; linarith
    · intro h26 h27
      have : (88 : ℝ) ≤ 100 * d.rat := by exact_mod_cast c5 (by omega)
      norm_num; linarith
  · intro h
    have : 10 * (f.rat : ℝ) ≤ 11 := by
      have : k < 6 ∨ k = 13 ∨ k = 31 := by
        unfold srimIdx at hk
        split at hk <;> omega
      exact_mod_cast v3 this
    norm_num; linarith

/-- The reduced velocity of the ion. -/
noncomputable def ionY (iz vf x : ℝ) : ℝ := max (max 0.13 (vf * relV (√(1000 * x / 25) / vf) * (iz * iz))) (iz * iz)

/-- The effective charge over the nuclear charge. -/
noncomputable def ionZeta (pZ tZ : Int) (iz lam vf x : ℝ) : ℝ :=
  zeta0 pZ iz lam vf (hiQ (ionY iz vf x)) *
    (1 + 1 / ((pZ : ℝ) * pZ) * (0.18 + 0.0015 * (tZ : ℝ)) * Real.exp (-(7.6 - max 0 (Real.log (1000 * x))) ^ 2))

/-- The smallest relative velocity, the velocity and the energy below which the stopping is extrapolated. -/
noncomputable def ionVR (iz : ℝ) : ℝ := max 1 (0.13 / (iz * iz))
noncomputable def ionVmin (iz vf : ℝ) : ℝ := 1 / 2 * (ionVR iz + √(max 0 (ionVR iz * ionVR iz - 0.8 * vf * vf)))
noncomputable def ionPow (pZ tZ : Int) : ℝ := if tZ = 6 ∨ ((tZ = 14 ∨ tZ = 32) ∧ pZ ≤ 19) then 0.35 else 0.5

theorem srimHeavy_eq (fp : ℝ → M ℝ) (pZ tZ : Int) (x lam vf : ℝ) (hx : 0 < x)
    (hl : rdDec (α := ℝ) atima_lambda_screening (srimIdx pZ) = .ok lam) (hv : rdDec (α := ℝ) atima_vfermi (srimIdx tZ) = .ok vf) (hv0 : 0 < vf)
    (iz : ℝ) (hiz : iz = 1 / (pZ : ℝ) ^ (1 / 3 : ℝ)) :
    srimHeavy fp pZ tZ x = if ionY iz vf x ≤ max 0.13 (iz * iz) then
      (do let s ← fp (25 * ionVmin iz vf * ionVmin iz vf * 0.001)
          return s * (ionZeta pZ tZ iz lam vf x * pZ) * (ionZeta pZ tZ iz lam vf x * pZ) *
            (1000 * x / (25 * ionVmin iz vf * ionVmin iz vf)) ^ ionPow pZ tZ)
      else (do let s ← fp x; return s * (ionZeta pZ tZ iz lam vf x * pZ) ^ 2) := by
  have e1000 : x * 1000.0 = 1000 * x := by norm_num; ring
  have e0 : (0.0 : ℝ) = 0 := by norm_num
  have e1 : (1.0 : ℝ) = 1 := by norm_num
  have e2 : (2.0 : ℝ) = 2 := by norm_num
  have e3 : (3.0 : ℝ) = 3 := by norm_num
  have e4 : (4.0 : ℝ) = 4 := by norm_num
  have e15 : (15.0 : ℝ) = 15 := by norm_num
  have e25 : (25.0 : ℝ) = 25 := by norm_num
  have e30 : (30.0 : ℝ) = 30 := by norm_num
  have e13 : (0.130 : ℝ) = 0.13 := by norm_num
  have eh : (0.5 : ℝ) = 1 / 2 := by norm_num
  have hs : 0 < √(1000 * x / 25) := Real.sqrt_pos.mpr (by positivity)
  have evr : (if Scalar.ge (√(1000 * x / 25) / vf) (1 : ℝ) = true then
      √(1000 * x / 25) / vf * vf * (1 + 0.2 / (√(1000 * x / 25) / vf * (√(1000 * x / 25) / vf)))
      else 3 * vf / 4 * (1 + √(1000 * x / 25) / vf * (√(1000 * x / 25) / vf) * (2 / 3 - √(1000 * x / 25) / vf * (√(1000 * x / 25) / vf) / 15))) =
      vf * relV (√(1000 * x / 25) / vf) := by
    unfold relV
    by_cases h : 1 ≤ √(1000 * x / 25) / vf
    · rw [if_pos h, if_pos ((le_real _ _).mpr h)]; ring
    · rw [if_neg h, if_neg fun hh => h ((le_real _ _).mp hh)]; ring
  have ez : hiQ (max (max 0.13 (vf * relV (√(1000 * x / 25) / vf) * (iz * iz))) (1 * (iz * iz))) = hiQ (ionY iz vf x) := by
    rw [one_mul, ionY]
  unfold srimHeavy
  simp only [hl, hv, bind_ok, smin_real, smax_real, exp_real, log_real, log1p_real, sqrt_real, pow_real, ofInt_real,
    e1000, e0, e1, e2, e3, e4, e15, e25, e30, e13, eh, ← hiz, evr, ez, one_mul]
  rw [← ionY]
  have ezt : (hiQ (ionY iz vf x) + 1 / (2 * (vf * vf)) * (1 - hiQ (ionY iz vf x)) *
      Real.log (1 + 4 * max (hiL1 (pZ : ℝ) (hiQ (ionY iz vf x)) iz) ((0.8 - hiQ (ionY iz vf x) * min 1.2 (0.6 + (pZ : ℝ) / 30)) * iz * lam) * vf / 1.919 *
        (4 * max (hiL1 (pZ : ℝ) (hiQ (ionY iz vf x)) iz) ((0.8 - hiQ (ionY iz vf x) * min 1.2 (0.6 + (pZ : ℝ) / 30)) * iz * lam) * vf / 1.919))) *
      (1 + 1 / ((pZ * pZ : ℤ) : ℝ) * (0.18 + 0.0015 * (tZ : ℝ)) *
        Real.exp (-(7.6 - max 0 (Real.log (1000 * x))) * (7.6 - max 0 (Real.log (1000 * x))))) = ionZeta pZ tZ iz lam vf x := by
    unfold ionZeta zeta0 scrM scrL
    push_cast
    rw [show -(7.6 - max 0 (Real.log (1000 * x))) * (7.6 - max 0 (Real.log (1000 * x))) = -(7.6 - max 0 (Real.log (1000 * x))) ^ 2 by ring]
    rw [sq (4 * _ * vf / 1.919)]
    ring
  have epw : (if tZ = 6 ∨ (tZ = 14 ∨ tZ = 32) ∧ pZ ≤ 19 then (0.35 : ℝ) else 1 / 2) = ionPow pZ tZ := by
    unfold ionPow; rw [eh]
  have e22 : ∀ y : ℝ, y ^ (2 : ℝ) = y ^ 2 := fun y => by norm_num
  rw [ezt, epw]
  simp only [e22]
  by_cases h : ionY iz vf x ≤ max 0.13 (iz * iz)
  · rw [if_pos h, if_pos ((le_real _ _).mpr h)]
    rfl
  · rw [if_neg h, if_neg fun hh => h ((le_real _ _).mp hh)]

theorem sqrt_step (r : ℝ) (h1 : 1 ≤ r) (h2 : r ≤ 1.0393) : 1 ≤ √r ∧ √r ≤ 1.0195 ∧ √r * √r = r := by
  refine ⟨by rw [Real.one_le_sqrt]; exact h1, ?_, Real.mul_self_sqrt (by linarith)⟩
  rw [Real.sqrt_le_left (by norm_num)]
  norm_num at h2 ⊢
  linarith

theorem ionV_scale (r x : ℝ) (hr : 0 ≤ r) : √(1000 * (r * x) / 25) = √r * √(1000 * x / 25) := by
  rw [← Real.sqrt_mul hr]; congr 1; ring

theorem ionY_step (iz vf x r : ℝ) (hv : 0 < vf) (hx : 0 < x) (h1 : 1 ≤ r) (h2 : r ≤ 1.0393) :
    0.13 ≤ ionY iz vf x ∧ ionY iz vf x ≤ ionY iz vf (r * x) ∧ ionY iz vf (r * x) ≤ 1.0195 * ionY iz vf x := by
  obtain ⟨s1, s2, s3⟩ := sqrt_step r h1 h2
  have hV : 0 < √(1000 * x / 25) := Real.sqrt_pos.mpr (by positivity)
  have hv0 : 0 < √(1000 * x / 25) / vf := by positivity
  have ev : √(1000 * (r * x) / 25) / vf = √r * (√(1000 * x / 25) / vf) := by rw [ionV_scale r x (by linarith)]; ring
  have le : √(1000 * x / 25) / vf ≤ √r * (√(1000 * x / 25) / vf) := by nlinarith
  have q : 0 ≤ iz * iz := mul_self_nonneg iz
  have m := relV_mono _ _ hv0.le le
  have sc := relV_scale _ _ hv0 le
  have pos := (relV_low _ hv0).2.2
  unfold ionY
  rw [ev]
  generalize √(1000 * x / 25) / vf = v at *
  have sc' : relV (√r * v) ≤ 1.0195 * relV v := by
    have : v * relV (√r * v) ≤ v * (√r * relV v) := by linarith
    have h3 := le_of_mul_le_mul_left this hv0
    have h4 : √r * relV v ≤ 1.0195 * relV v := mul_le_mul_of_nonneg_right s2 (le_trans (by norm_num) pos)
    linarith
  refine ⟨(le_max_left _ _).trans (le_max_left _ _), ?_, ?_⟩
  · gcongr
  · have p1 : 0.13 ≤ max (max 0.13 (vf * relV v * (iz * iz))) (iz * iz) := (le_max_left _ _).trans (le_max_left _ _)
    have p2 : vf * relV v * (iz * iz) ≤ max (max 0.13 (vf * relV v * (iz * iz))) (iz * iz) := (le_max_right _ _).trans (le_max_left _ _)
    have p3 : iz * iz ≤ max (max 0.13 (vf * relV v * (iz * iz))) (iz * iz) := le_max_right _ _
    have p4 : vf * relV (√r * v) * (iz * iz) ≤ 1.0195 * (vf * relV v * (iz * iz)) := by
      have := mul_le_mul_of_nonneg_right (mul_le_mul_of_nonneg_left sc' hv.le) q
      linarith
    clear hV ev
    generalize max (max 0.13 (vf * relV v * (iz * iz))) (iz * iz) = Y at *
    refine max_le (max_le ?_ ?_) ?_ <;> norm_num at p1 p2 p3 p4 ⊢ <;> linarith

theorem ionGauss_step (pZ tZ : Int) (h3 : 3 ≤ pZ) (hT : 1 ≤ tZ) (hT' : tZ ≤ 120) (x r : ℝ) (hx : 0 < x) (h1 : 1 ≤ r) (h2 : r ≤ 1.0393) :
    Step 1.00155 1.00155
      (1 + 1 / ((pZ : ℝ) * pZ) * (0.18 + 0.0015 * (tZ : ℝ)) * Real.exp (-(7.6 - max 0 (Real.log (1000 * x))) ^ 2))
      (1 + 1 / ((pZ : ℝ) * pZ) * (0.18 + 0.0015 * (tZ : ℝ)) * Real.exp (-(7.6 - max 0 (Real.log (1000 * (r * x)))) ^ 2)) := by
  have hl := log_step_le r h1 h2
  have e : Real.log (1000 * (r * x)) = Real.log r + Real.log (1000 * x) := by
    rw [← Real.log_mul (by linarith) (by positivity)]; congr 1; ring
  have z3 : (3 : ℝ) ≤ pZ := by exact_mod_cast h3
  have t1 : (1 : ℝ) ≤ tZ := by exact_mod_cast hT
  have t2 : (tZ : ℝ) ≤ 120 := by exact_mod_cast hT'
  have i9 : 1 / ((pZ : ℝ) * pZ) ≤ 1 / 9 := one_div_le_one_div_of_le (by norm_num) (by nlinarith)
  have i0 : 0 ≤ 1 / ((pZ : ℝ) * pZ) := by positivity
  have k0 : 0 ≤ 1 / ((pZ : ℝ) * pZ) * (0.18 + 0.0015 * (tZ : ℝ)) := by positivity
  have k1 : 1 / ((pZ : ℝ) * pZ) * (0.18 + 0.0015 * (tZ : ℝ)) ≤ 0.04 := by
    have := mul_le_mul i9 (show (0.18 + 0.0015 * (tZ : ℝ)) ≤ 0.36 by norm_num; linarith) (by positivity) (by norm_num)
    norm_num at this ⊢
    linarith
  have b1 : max 0 (Real.log (1000 * x)) ≤ max 0 (Real.log (1000 * (r * x))) := max_le_max le_rfl (by rw [e]; linarith)
  have b2 : max 0 (Real.log (1000 * (r * x))) ≤ max 0 (Real.log (1000 * x)) + 0.0386 := by
    rw [e]
    refine max_le ?_ ?_
    · have := le_max_left 0 (Real.log (1000 * x))
      norm_num
      linarith
    · have := le_max_right 0 (Real.log (1000 * x))
      linarith
  refine (gauss_step _ _ _ k0 b1 b2).mono ?_ ?_ <;> norm_num at k1 ⊢ <;> linarith

theorem ionZeta_step {pZ tZ : Int} {iz lam vf : ℝ} (h : ScreenIn pZ iz lam vf) (hT : 1 ≤ tZ) (hT' : tZ ≤ 120) (x r : ℝ) (hx : 0 < x)
    (h1 : 1 ≤ r) (h2 : r ≤ 1.0393) : Step 1.0602 1.0532 (ionZeta pZ tZ iz lam vf x) (ionZeta pZ tZ iz lam vf (r * x)) ∧
    (0.86 ≤ ionY iz vf x → Step 1.0306 1.0161 (ionZeta pZ tZ iz lam vf x) (ionZeta pZ tZ iz lam vf (r * x))) ∧
    (ionY iz vf (r * x) = ionY iz vf x → Step 1.00155 1.00155 (ionZeta pZ tZ iz lam vf x) (ionZeta pZ tZ iz lam vf (r * x))) := by
  obtain ⟨y0, y1, y2⟩ := ionY_step iz vf x r h.vf0 hx h1 h2
  obtain ⟨q0, q1, q2, q3, q4, q5⟩ := hiQ_step _ _ y0 y1 y2
  have G := ionGauss_step pZ tZ h.three hT hT' x r hx h1 h2
  obtain ⟨u1, u2⟩ := zeta0_up h _ _ q0 q1 q2 q3 q4
  obtain ⟨d1, d2⟩ := zeta0_down h _ _ q0 q1 q2 q3
  have p := (zeta0_low h _ q0 (q1.trans q2)).2.2
  have p' := (zeta0_low h _ (q0.trans q1) q2).2.2
  refine ⟨?_, fun h86 => ?_, fun e => ?_⟩
  · have S : Step 1.0585 1.0515 _ _ := ⟨p, p', u1, d1⟩
    exact (S.mul G).mono (by norm_num) (by norm_num)
  · have S : Step 1.029 1.0145 _ _ := ⟨p, p', u2 (q5 h86), d2 (q5 h86)⟩
    exact (S.mul G).mono (by norm_num) (by norm_num)
  · unfold ionZeta
    rw [e]
    exact G.scale _ p

/-- Roots. -/
theorem rpow_le_root (t a c : ℝ) (n : ℕ) (h0 : 0 ≤ t) (hc : 0 ≤ c) (h : t ≤ c ^ n) (ha : a * n = 1) (ha0 : 0 ≤ a) : t ^ a ≤ c := by
  have := Real.rpow_le_rpow h0 h ha0
  refine this.trans (le_of_eq ?_)
  rw [← Real.rpow_natCast, ← Real.rpow_mul hc, mul_comm, ha, Real.rpow_one]

theorem slow_bound (m v : ℝ) (m0 : 0 < m) (m2 : 0.2 ≤ m * m) (mv : m < v) (v1 : v < 1) (hL' : relP v ≤ m + 0.2 / m) : v ^ 2 ≤ 1.7 * m ^ 2 := by
  by_contra h7
  rw [not_le] at h7
  have h8 : m ^ 2 ≤ 0.5883 := by norm_num at h7 ⊢; nlinarith
  have h9 : 3 / 4 * (1 + 1.7 * m ^ 2 * (2 / 3 - 1.7 * m ^ 2 / 15)) ≤ relP v := by
    unfold relP
    have : v ^ 2 ≤ 1 := by nlinarith
    norm_num at h7 h8 ⊢
    nlinarith
  have ma : 0.4472 ≤ m := by
    by_contra h
    rw [not_le] at h
    norm_num at h m2
    nlinarith
  have h10 : m * m + 0.2 < m * (3 / 4 * (1 + 1.7 * m ^ 2 * (2 / 3 - 1.7 * m ^ 2 / 15))) := by
    have e : m * (3 / 4 * (1 + 1.7 * m ^ 2 * (2 / 3 - 1.7 * m ^ 2 / 15))) = 0.75 * m + 0.85 * m ^ 3 - 0.1445 * m ^ 3 * m ^ 2 := by ring
    rw [e]
    have h11 : m ^ 3 * m ^ 2 ≤ m ^ 3 * 0.5883 := mul_le_mul_of_nonneg_left h8 (by positivity)
    have h12 : 0.75 * m + 0.7649 * m ^ 3 - m ^ 2 - 0.2 =
        (m - 0.4472) * (0.75 + 0.7649 * (m ^ 2 + 0.4472 * m + 0.4472 ^ 2) - (m + 0.4472)) + (0.75 * 0.4472 + 0.7649 * 0.4472 ^ 3 - 0.4472 ^ 2 - 0.2) := by ring
    have h13 : 0 ≤ 0.75 + 0.7649 * (m ^ 2 + 0.4472 * m + 0.4472 ^ 2) - (m + 0.4472) := by norm_num; nlinarith [sq_nonneg (m - 0.43)]
    have h14 := mul_nonneg (sub_nonneg.mpr ma) h13
    have h15 : 0 < m ^ 3 := by positivity
    norm_num at h11 h12 h14 ⊢
    linarith
  have h16 : m * relP v ≤ m * (m + 0.2 / m) := mul_le_mul_of_nonneg_left hL' m0.le
  have h17 : m * (m + 0.2 / m) = m * m + 0.2 := by field_simp
  have := mul_le_mul_of_nonneg_left h9 m0.le
  linarith

/-- The velocities where the stopping becomes that of the scaled protons. -/
theorem crossing (vf VR V V' : ℝ) (hv : 0 < vf) (hV : 0 < V) (hVV : V ≤ V') (hL : vf * relV (V / vf) ≤ VR) (hH : VR < vf * relV (V' / vf))
    (hD : 0.8 * vf * vf ≤ VR * VR) :
    1 / 2 * (VR + √(max 0 (VR * VR - 0.8 * vf * vf))) ≤ V' ∧ (V ≤ 1 / 2 * (VR + √(max 0 (VR * VR - 0.8 * vf * vf))) ∨
      V ≤ vf ∧ V ^ 2 ≤ 1.7 * (1 / 2 * (VR + √(max 0 (VR * VR - 0.8 * vf * vf)))) ^ 2) := by
  have hVR : 0 < VR := by
    have := (relV_low (V / vf) (by positivity)).2.2
    have : 0 < vf * relV (V / vf) := mul_pos hv (lt_of_lt_of_le (by norm_num) this)
    linarith
  set s := √(max 0 (VR * VR - 0.8 * vf * vf)) with hs
  have s0 : 0 ≤ s := Real.sqrt_nonneg _
  have s2 : s * s = VR * VR - 0.8 * vf * vf := by
    rw [hs, max_eq_right (by linarith), Real.mul_self_sqrt (by linarith)]
  set w := 1 / 2 * (VR + s) with hw
  have w0 : 0 < w := by positivity
  obtain ⟨m, hm⟩ : ∃ m, m = w / vf := ⟨_, rfl⟩
  have m0 : 0 < m := by rw [hm]; positivity
  have ew : w = m * vf := by rw [hm]; field_simp
  have eu : VR = vf * (m + 0.2 / m) := by
    have : w * w - VR * w + 0.2 * vf * vf = 0 := by
      rw [hw]; linarith
    have h3 : VR * w = w * w + 0.2 * vf * vf := by linarith
    rw [hm]
    field_simp
    linarith
  have m2 : 0.2 ≤ m * m := by
    have h1 : VR / 2 ≤ w := by rw [hw]; linarith
    have h2 : vf * (m + 0.2 / m) ≤ 2 * (m * vf) := by rw [← eu, ← ew]; linarith
    have h3 : vf * (0.2 / m) ≤ vf * m := by linarith
    have h4 := le_of_mul_le_mul_left h3 hv
    rwa [div_le_iff₀ m0] at h4
  have slow : m < 1 → relP m ≤ m + 0.2 / m := by
    intro h
    have e : m + 0.2 / m - relP m = 0.05 * (1 - m) ^ 4 * (m + 4) / m := by unfold relP; field_simp; ring
    have : 0 ≤ 0.05 * (1 - m) ^ 4 * (m + 4) / m := by positivity
    linarith
  have relm : relV m ≤ m + 0.2 / m := by
    by_cases h : 1 ≤ m
    · rw [relV_fast m h]
    · rw [relV_slow m (not_le.mp h)]; exact slow (not_le.mp h)
  have hV' : 0 < V' := by linarith
  have hL' : relV (V / vf) ≤ m + 0.2 / m := le_of_mul_le_mul_left (hL.trans_eq eu) hv
  have hH' : m + 0.2 / m < relV (V' / vf) := lt_of_mul_lt_mul_left (eu ▸ hH) hv.le
  constructor
  · by_contra hc
    rw [not_le] at hc
    have h1 : V' / vf ≤ m := by rw [div_le_iff₀ hv, ← ew]; exact hc.le
    have := relV_mono _ _ (by positivity) h1
    linarith
  · by_cases hc : V ≤ w
    · exact Or.inl hc
    · right
      rw [not_le] at hc
      obtain ⟨v, hvv⟩ : ∃ v, v = V / vf := ⟨_, rfl⟩
      have eV : V = v * vf := by rw [hvv]; field_simp
      rw [← hvv] at hL'
      have mv : m < v := by
        rw [ew, eV] at hc
        exact lt_of_mul_lt_mul_right hc hv.le
      have v0 : 0 < v := by linarith
      have v1 : v < 1 := by
        by_contra h1
        rw [not_lt] at h1
        rw [relV_fast v h1] at hL'
        have e : v + 0.2 / v - (m + 0.2 / m) = (v - m) * (m * v - 0.2) / (m * v) := by field_simp; ring
        have : 0 < (v - m) * (m * v - 0.2) / (m * v) := div_pos (mul_pos (by linarith) (by nlinarith)) (by positivity)
        linarith
      refine ⟨by rw [eV]; nlinarith, ?_⟩
      rw [relV_slow v v1] at hL'
      have key := slow_bound m v m0 m2 mv v1 hL'
      rw [eV, ew]
      have := mul_le_mul_of_nonneg_right key (sq_nonneg vf)
      linarith

/-- The step of the powers where the extrapolation ends (protons below 25 keV/u). -/
theorem power_cross (t r : ℝ) (pZ tZ : Int) (t0 : 1 ≤ t) (t1 : t ≤ 1.7) (h1 : 1 ≤ r) (h2 : r ≤ 1.0393) :
    Step 1.09 1.145 (t ^ ionPow pZ tZ) ((r * t) ^ (if tZ > 6 then 0.45 else 0.25 : ℝ)) := by
  have tp : 0 < t := by linarith
  have rp : 0 < r := by linarith
  have r45 : ∀ a : ℝ, 0 ≤ a → a ≤ 0.5 → 1 ≤ r ^ a ∧ r ^ a ≤ 1.0195 := fun a ha ha' => by
    refine ⟨Real.one_le_rpow h1 ha, ?_⟩
    have := Real.rpow_le_rpow_of_exponent_le h1 ha'
    refine this.trans ?_
    rw [show (0.5 : ℝ) = 1 / 2 by norm_num, ← Real.sqrt_eq_rpow]
    exact (sqrt_step r h1 h2).2.1
  have q1 : t ^ (0.25 : ℝ) ≤ 1.145 := rpow_le_root t 0.25 1.145 4 tp.le (by norm_num) (t1.trans (by norm_num)) (by norm_num) (by norm_num)
  have q2 : t ^ (0.1 : ℝ) ≤ 1.06 := rpow_le_root t 0.1 1.06 10 tp.le (by norm_num) (t1.trans (by norm_num)) (by norm_num) (by norm_num)
  have gen : ∀ b e : ℝ, 0 ≤ b → b ≤ 0.5 → b ≤ e → e ≤ b + 0.25 → Step 1.09 1.145 (t ^ e) ((r * t) ^ b) := by
    intro b e b0 b5 be eb
    rw [Real.mul_rpow rp.le tp.le]
    have pe := Real.rpow_pos_of_pos tp e
    have pb := Real.rpow_pos_of_pos tp b
    obtain ⟨a1, a2⟩ := r45 b b0 b5
    have m1 := Real.rpow_le_rpow_of_exponent_le t0 be
    have m2 : t ^ e ≤ 1.145 * t ^ b := by
      have : t ^ e = t ^ (e - b) * t ^ b := by rw [← Real.rpow_add tp]; congr 1; ring
      rw [this]
      refine mul_le_mul_of_nonneg_right ?_ pb.le
      exact (Real.rpow_le_rpow_of_exponent_le t0 (by linarith)).trans q1
    refine ⟨pe, by positivity, ?_, ?_⟩
    · have : r ^ b * t ^ b ≤ 1.0195 * t ^ e := mul_le_mul a2 m1 pb.le (by norm_num)
      norm_num at this ⊢
      linarith
    · have : t ^ b ≤ r ^ b * t ^ b := le_mul_of_one_le_left pb.le a1
      norm_num at this m2 ⊢
      linarith
  unfold ionPow
  by_cases c6 : tZ > 6
  · rw [if_pos c6]
    by_cases ce : tZ = 6 ∨ ((tZ = 14 ∨ tZ = 32) ∧ pZ ≤ 19)
    · rw [if_pos ce]
      rw [Real.mul_rpow rp.le tp.le]
      have pe := Real.rpow_pos_of_pos tp 0.35
      obtain ⟨a1, a2⟩ := r45 0.45 (by norm_num) (by norm_num)
      have e1 : t ^ (0.45 : ℝ) = t ^ (0.1 : ℝ) * t ^ (0.35 : ℝ) := by rw [← Real.rpow_add tp]; norm_num
      have o1 : 1 ≤ t ^ (0.1 : ℝ) := Real.one_le_rpow t0 (by norm_num)
      have p1 : 0 < t ^ (0.1 : ℝ) := by linarith
      rw [e1]
      refine ⟨pe, by positivity, ?_, ?_⟩
      · rw [← mul_assoc]
        refine mul_le_mul_of_nonneg_right ?_ pe.le
        exact (mul_le_mul a2 q2 p1.le (by norm_num)).trans (by norm_num)
      · have : 1 ≤ r ^ (0.45 : ℝ) * t ^ (0.1 : ℝ) := by nlinarith
        rw [← mul_assoc, ← mul_assoc]
        refine le_mul_of_one_le_left pe.le ?_
        norm_num at this ⊢
        linarith
    · rw [if_neg ce]
      exact gen _ _ (by norm_num) (by norm_num) (by norm_num) (by norm_num)
  · rw [if_neg c6]
    split
    · exact gen _ _ (by norm_num) (by norm_num) (by norm_num) (by norm_num)
    · exact gen _ _ (by norm_num) (by norm_num) (by norm_num) (by norm_num)

/-- The same in targets with a large Fermi velocity. -/
theorem power_cross_fast (t r : ℝ) (t0 : 0.24 ≤ t) (t1 : t ≤ 2.8) (h1 : 1 ≤ r) (h2 : r ≤ 1.0393) :
    Step 1.12 1.08 (t ^ (0.5 : ℝ)) ((r * t) ^ (0.45 : ℝ)) := by
  have tp : 0 < t := lt_of_lt_of_le (by norm_num) t0
  have rp : 0 < r := by linarith
  have a1 : 1 ≤ r ^ (0.45 : ℝ) := Real.one_le_rpow h1 (by norm_num)
  have a2 : r ^ (0.45 : ℝ) ≤ 1.0195 := by
    refine (Real.rpow_le_rpow_of_exponent_le h1 (show (0.45 : ℝ) ≤ 1 / 2 by norm_num)).trans ?_
    rw [← Real.sqrt_eq_rpow]
    exact (sqrt_step r h1 h2).2.1
  have q1 : t ^ (0.05 : ℝ) ≤ 1.06 := rpow_le_root t 0.05 1.06 20 tp.le (by norm_num) (t1.trans (by norm_num)) (by norm_num) (by norm_num)
  have q2 : (t⁻¹) ^ (0.05 : ℝ) ≤ 1.08 := by
    refine rpow_le_root _ 0.05 1.08 20 (by positivity) (by norm_num) ?_ (by norm_num) (by norm_num)
    have : t⁻¹ ≤ (0.24)⁻¹ := inv_anti₀ (by norm_num) t0
    exact this.trans (by norm_num)
  have e : t ^ (0.5 : ℝ) = t ^ (0.05 : ℝ) * t ^ (0.45 : ℝ) := by rw [← Real.rpow_add tp]; norm_num
  have e' : t ^ (0.45 : ℝ) = (t⁻¹) ^ (0.05 : ℝ) * t ^ (0.5 : ℝ) := by
    rw [Real.inv_rpow tp.le, e, ← mul_assoc, inv_mul_cancel₀ (Real.rpow_pos_of_pos tp _).ne', one_mul]
  have p5 := Real.rpow_pos_of_pos tp 0.5
  have p45 := Real.rpow_pos_of_pos tp 0.45
  rw [Real.mul_rpow rp.le tp.le]
  refine ⟨p5, by positivity, ?_, ?_⟩
  · rw [e', ← mul_assoc]
    refine mul_le_mul_of_nonneg_right ?_ p5.le
    exact (mul_le_mul a2 q2 (by positivity) (by norm_num)).trans (by norm_num)
  · rw [e, ← mul_assoc]
    refine mul_le_mul_of_nonneg_right ?_ p45.le
    norm_num at q1 a1 ⊢
    linarith

end Catima
