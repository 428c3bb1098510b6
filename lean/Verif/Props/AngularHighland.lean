import Verif.Props.FasterOut
import Verif.Props.AngularThin
import Verif.Lemmas.LogTables

/-!
# C59: what fails for the differential Highland formula
-/

namespace Catima

theorem integrator_full : integrator.full =
    [(0.1834346424956498049394761, 0.3626837833783619829651504), (-0.1834346424956498049394761, 0.3626837833783619829651504),
     (0.5255324099163289858177390, 0.3137066458778872873379622), (-0.5255324099163289858177390, 0.3137066458778872873379622),
     (0.7966664774136267395915539, 0.2223810344533744705443560), (-0.7966664774136267395915539, 0.2223810344533744705443560),
     (0.9602898564975362316835609, 0.1012285362903762591525314), (-0.9602898564975362316835609, 0.1012285362903762591525314)] := by
  have h : integrator.full = [(Dec.toScalar ⟨1834346424956498049394761, 25⟩, Dec.toScalar ⟨3626837833783619829651504, 25⟩),
      (-Dec.toScalar ⟨1834346424956498049394761, 25⟩, Dec.toScalar ⟨3626837833783619829651504, 25⟩),
      (Dec.toScalar ⟨5255324099163289858177390, 25⟩, Dec.toScalar ⟨3137066458778872873379622, 25⟩),
      (-Dec.toScalar ⟨5255324099163289858177390, 25⟩, Dec.toScalar ⟨3137066458778872873379622, 25⟩),
      (Dec.toScalar ⟨7966664774136267395915539, 25⟩, Dec.toScalar ⟨2223810344533744705443560, 25⟩),
      (-Dec.toScalar ⟨7966664774136267395915539, 25⟩, Dec.toScalar ⟨2223810344533744705443560, 25⟩),
      (Dec.toScalar ⟨9602898564975362316835609, 25⟩, Dec.toScalar ⟨1012285362903762591525314, 25⟩),
      (-Dec.toScalar ⟨9602898564975362316835609, 25⟩, Dec.toScalar ⟨1012285362903762591525314, 25⟩)] := rfl
  rw [h]
  simp only [Dec.toScalar_real]
  norm_num

/-- The logarithm of an abscissa in the unit interval. -/
theorem node_log (x L : ℚ) (hx : 0 < 1 + x) (h : logClose (2 / (1 + x)) L (1 / 10000) = true) :
    |Real.log ((1 + (x : ℝ)) / 2) + L| ≤ 0.0002 := by
  have a := (logClose_spec h).1
  have e : (((2 / (1 + x) : ℚ)) : ℝ) = ((1 + (x : ℝ)) / 2)⁻¹ := by
    push_cast
    rw [inv_div]
  rw [e, Real.log_inv, ← neg_add', abs_neg] at a
  refine a.trans ?_
  push_cast
  norm_num

theorem node_logs : |Real.log ((1 + (0.1834346424956498049394761 : ℝ)) / 2) + 0.5247| ≤ 0.0002 ∧
    |Real.log ((1 + (-0.1834346424956498049394761 : ℝ)) / 2) + 0.8958| ≤ 0.0002 ∧
    |Real.log ((1 + (0.5255324099163289858177390 : ℝ)) / 2) + 0.2708| ≤ 0.0002 ∧
    |Real.log ((1 + (-0.5255324099163289858177390 : ℝ)) / 2) + 1.4387| ≤ 0.0002 ∧
    |Real.log ((1 + (0.7966664774136267395915539 : ℝ)) / 2) + 0.1072| ≤ 0.0002 ∧
    |Real.log ((1 + (-0.7966664774136267395915539 : ℝ)) / 2) + 2.2861| ≤ 0.0002 ∧
    |Real.log ((1 + (0.9602898564975362316835609 : ℝ)) / 2) + 0.0201| ≤ 0.0002 ∧
    |Real.log ((1 + (-0.9602898564975362316835609 : ℝ)) / 2) + 3.9193| ≤ 0.0002 := by
  have h1 := node_log (1834346424956498049394761 / 10 ^ 25) (5247 / 10000) (by norm_num) (by decide +kernel)
  have h2 := node_log (-1834346424956498049394761 / 10 ^ 25) (8958 / 10000) (by norm_num) (by decide +kernel)
  have h3 := node_log (5255324099163289858177390 / 10 ^ 25) (2708 / 10000) (by norm_num) (by decide +kernel)
  have h4 := node_log (-5255324099163289858177390 / 10 ^ 25) (14387 / 10000) (by norm_num) (by decide +kernel)
  have h5 := node_log (7966664774136267395915539 / 10 ^ 25) (1072 / 10000) (by norm_num) (by decide +kernel)
  have h6 := node_log (-7966664774136267395915539 / 10 ^ 25) (22861 / 10000) (by norm_num) (by decide +kernel)
  have h7 := node_log (9602898564975362316835609 / 10 ^ 25) (201 / 10000) (by norm_num) (by decide +kernel)
  have h8 := node_log (-9602898564975362316835609 / 10 ^ 25) (39193 / 10000) (by norm_num) (by decide +kernel)
  push_cast at h1 h2 h3 h4 h5 h6 h7 h8
  refine ⟨?_, ?_, ?_, ?_, ?_, ?_, ?_, ?_⟩
  · convert h1 using 3 <;> norm_num
  · convert h2 using 3 <;> norm_num
  · convert h3 using 3 <;> norm_num
  · convert h4 using 3 <;> norm_num
  · convert h5 using 3 <;> norm_num
  · convert h6 using 3 <;> norm_num
  · convert h7 using 3 <;> norm_num
  · convert h8 using 3 <;> norm_num

theorem node_negative (a l b τ t0 : ℝ) (h1 : -b ≤ l + a + 21.7) (h2 : l + a + 21.7 ≤ b) (hb : b ≤ 1) (t1 : t0 ≤ τ) (ht : 0 < t0) :
    (l + a + 20.7) * (l + a + 22.7) * τ ≤ (b ^ 2 - 1) * t0 := by
  have e : (l + a + 20.7) * (l + a + 22.7) = (l + a + 21.7) ^ 2 - 1 := by norm_num; ring
  rw [e]
  have : (l + a + 21.7) ^ 2 ≤ b ^ 2 := sq_le_sq' h1 h2
  have b0 : 0 ≤ b := by linarith
  have b1 : b ^ 2 ≤ 1 := by nlinarith
  calc ((l + a + 21.7) ^ 2 - 1) * τ ≤ (b ^ 2 - 1) * τ := mul_le_mul_of_nonneg_right (by linarith) (by linarith)
    _ ≤ (b ^ 2 - 1) * t0 := mul_le_mul_of_nonpos_left t1 (by linarith)

theorem node_positive (a l b τ t0 : ℝ) (h1 : -b ≤ l + a + 21.7) (h2 : l + a + 21.7 ≤ b) (hb : 1 ≤ b) (t0' : 0 < τ) (t2 : τ ≤ 1.021 * t0) :
    (l + a + 20.7) * (l + a + 22.7) * τ ≤ 1.021 * (b ^ 2 - 1) * t0 := by
  have e : (l + a + 20.7) * (l + a + 22.7) = (l + a + 21.7) ^ 2 - 1 := by norm_num; ring
  rw [e]
  have : (l + a + 21.7) ^ 2 ≤ b ^ 2 := sq_le_sq' h1 h2
  have : ((l + a + 21.7) ^ 2 - 1) * τ ≤ (b ^ 2 - 1) * τ := by nlinarith
  have : (b ^ 2 - 1) * τ ≤ (b ^ 2 - 1) * (1.021 * t0) := mul_le_mul_of_nonneg_left t2 (by nlinarith)
  linarith

/-- The quadrature of the differential Highland factor is negative for a layer of 1e-9 radiation lengths. -/
theorem highland_sum (l t0 : ℝ) (τ : ℝ → ℝ) (h1 : -20.7335 ≤ l) (h2 : l ≤ -20.7131) (ht : 0 < t0)
    (hτ : ∀ e ∈ integrator.full, t0 ≤ τ e.1 ∧ τ e.1 ≤ 1.021 * t0) :
    (wsum integrator.full fun x => (l + Real.log ((1 + x) / 2) + 20.7) * (l + Real.log ((1 + x) / 2) + 22.7) * τ x) < 0 := by
  rw [integrator_full] at hτ ⊢
  simp only [List.forall_mem_cons, List.not_mem_nil, false_imp_iff, implies_true, and_true] at hτ
  obtain ⟨k1, k2, k3, k4, k5, k6, k7, k8⟩ := hτ
  obtain ⟨a1, a2, a3, a4, a5, a6, a7, a8⟩ := node_logs
  rw [abs_le] at a1 a2 a3 a4 a5 a6 a7 a8
  simp only [wsum_cons]
  have e0 : ∀ g : ℝ → ℝ, wsum [] g = 0 := fun g => rfl
  rw [e0]
  generalize Real.log ((1 + (0.1834346424956498049394761 : ℝ)) / 2) = b1 at *
  generalize Real.log ((1 + (-0.1834346424956498049394761 : ℝ)) / 2) = b2 at *
  generalize Real.log ((1 + (0.5255324099163289858177390 : ℝ)) / 2) = b3 at *
  generalize Real.log ((1 + (-0.5255324099163289858177390 : ℝ)) / 2) = b4 at *
  generalize Real.log ((1 + (0.7966664774136267395915539 : ℝ)) / 2) = b5 at *
  generalize Real.log ((1 + (-0.7966664774136267395915539 : ℝ)) / 2) = b6 at *
  generalize Real.log ((1 + (0.9602898564975362316835609 : ℝ)) / 2) = b7 at *
  generalize Real.log ((1 + (-0.9602898564975362316835609 : ℝ)) / 2) = b8 at *
  generalize τ 0.1834346424956498049394761 = τ1 at *
  generalize τ (-0.1834346424956498049394761) = τ2 at *
  generalize τ 0.5255324099163289858177390 = τ3 at *
  generalize τ (-0.5255324099163289858177390) = τ4 at *
  generalize τ 0.7966664774136267395915539 = τ5 at *
  generalize τ (-0.7966664774136267395915539) = τ6 at *
  generalize τ 0.9602898564975362316835609 = τ7 at *
  generalize τ (-0.9602898564975362316835609) = τ8 at *
  have n1 := node_negative b1 l 0.464 τ1 t0 (by norm_num at *; linarith) (by norm_num at *; linarith) (by norm_num) k1.1 ht
  have n2 := node_negative b2 l 0.093 τ2 t0 (by norm_num at *; linarith) (by norm_num at *; linarith) (by norm_num) k2.1 ht
  have n3 := node_negative b3 l 0.718 τ3 t0 (by norm_num at *; linarith) (by norm_num at *; linarith) (by norm_num) k3.1 ht
  have n4 := node_negative b4 l 0.474 τ4 t0 (by norm_num at *; linarith) (by norm_num at *; linarith) (by norm_num) k4.1 ht
  have n5 := node_negative b5 l 0.882 τ5 t0 (by norm_num at *; linarith) (by norm_num at *; linarith) (by norm_num) k5.1 ht
  have n6 := node_positive b6 l 1.322 τ6 t0 (by norm_num at *; linarith) (by norm_num at *; linarith) (by norm_num) (by linarith [k6.1]) k6.2
  have n7 := node_negative b7 l 0.969 τ7 t0 (by norm_num at *; linarith) (by norm_num at *; linarith) (by norm_num) k7.1 ht
  have n8 := node_positive b8 l 2.955 τ8 t0 (by norm_num at *; linarith) (by norm_num at *; linarith) (by norm_num) (by linarith [k8.1]) k8.2
  generalize (l + b1 + 20.7) * (l + b1 + 22.7) * τ1 = g1 at *
  generalize (l + b2 + 20.7) * (l + b2 + 22.7) * τ2 = g2 at *
  generalize (l + b3 + 20.7) * (l + b3 + 22.7) * τ3 = g3 at *
  generalize (l + b4 + 20.7) * (l + b4 + 22.7) * τ4 = g4 at *
  generalize (l + b5 + 20.7) * (l + b5 + 22.7) * τ5 = g5 at *
  generalize (l + b6 + 20.7) * (l + b6 + 22.7) * τ6 = g6 at *
  generalize (l + b7 + 20.7) * (l + b7 + 22.7) * τ7 = g7 at *
  generalize (l + b8 + 20.7) * (l + b8 + 22.7) * τ8 = g8 at *
  norm_num at n1 n2 n3 n4 n5 n6 n7 n8 ⊢
  linarith

/-- The scattering power hardly changes with the energy. -/
theorem Tfr_near (p : Projectile ℝ) (hA : 0 < p.A) (T E : ℝ) (hT : 0 < T) (h1 : 0.99 * T ≤ E) (h2 : E ≤ T) :
    0 < Tfr (p.withT T) 1.0 1.0 ∧ Tfr (p.withT T) 1.0 1.0 ≤ Tfr (p.withT E) 1.0 1.0 ∧
      Tfr (p.withT E) 1.0 1.0 ≤ 1.021 * Tfr (p.withT T) 1.0 1.0 := by
  have hu := amu_pos
  norm_num at h1
  have hE : 0 < E := by linarith
  have key : ∀ e, 0 < e → Tfr (p.withT e) 1.0 1.0 = 1 / (p.A * (e * (e + 2 * atomic_mass_unit)) / (e + atomic_mass_unit)) ^ 2 := by
    intro e he
    unfold Tfr
    rw [if_neg (by rw [le_real]; norm_num; exact he)]
    show (1.0 : ℝ) / (1.0 * (p_from_T e p.A * (p_from_T e p.A / ((e + atomic_mass_unit) * p.A)) *
      (p_from_T e p.A * (p_from_T e p.A / ((e + atomic_mass_unit) * p.A))))) = _
    rw [pv_eq e p.A he hA, show (1.0 : ℝ) = 1 by norm_num, one_mul, sq]
  rw [key T hT, key E hE]
  set u : ℝ := atomic_mass_unit with hud
  set q : ℝ → ℝ := fun e => p.A * (e * (e + 2 * u)) / (e + u) with hq
  have q0 : ∀ e, 0 < e → 0 < q e := fun e he => by simp only [hq]; positivity
  have hm : q E ≤ q T := by
    simp only [hq]
    rw [div_le_div_iff₀ (by positivity) (by positivity)]
    have : E * (E + 2 * u) * (T + u) ≤ T * (T + 2 * u) * (E + u) := by
      have : 0 ≤ (T - E) * (E * T + u * (E + T) + 2 * u ^ 2) := mul_nonneg (by linarith) (by positivity)
      nlinarith
    nlinarith
  have hl : 0.99 * q T ≤ q E := by
    simp only [hq]
    rw [← mul_div_assoc, div_le_div_iff₀ (by positivity) (by positivity)]
    have a1 : (T + 2 * u) * (E + u) ≤ (E + 2 * u) * (T + u) := by nlinarith
    have a2 : 0.99 * T * ((T + 2 * u) * (E + u)) ≤ E * ((E + 2 * u) * (T + u)) :=
      mul_le_mul (by norm_num; linarith) a1 (by positivity) hE.le
    nlinarith
  have qT := q0 T hT
  have qE := q0 E hE
  change 0 < 1 / q T ^ 2 ∧ 1 / q T ^ 2 ≤ 1 / q E ^ 2 ∧ 1 / q E ^ 2 ≤ 1.021 * (1 / q T ^ 2)
  refine ⟨by positivity, one_div_le_one_div_of_le (by positivity) (pow_le_pow_left₀ qE.le hm 2), ?_⟩
  rw [mul_one_div, div_le_div_iff₀ (by positivity) (by positivity)]
  have := pow_le_pow_left₀ (by positivity) hl 2
  norm_num at this ⊢
  nlinarith

/-- The logarithm of about 1e-9. -/
theorem log_billionth (s : ℝ) (h1 : 0.99e-9 ≤ s) (h2 : s ≤ 1.01e-9) : -20.7335 ≤ Real.log s ∧ Real.log s ≤ -20.7131 := by
  have h10 := abs_le.mp LN10_near
  norm_num [LN10] at h10
  have hs : 0 < s := lt_of_lt_of_le (by norm_num) h1
  set v := s * 10 ^ 9 with hv
  have v0 : 0 < v := by positivity
  have e : Real.log s = Real.log v - 9 * Real.log 10 := by
    rw [hv, Real.log_mul hs.ne' (by norm_num), Real.log_pow]
    push_cast
    ring
  have v1 : 0.99 ≤ v := by rw [hv]; norm_num at h1 ⊢; linarith
  have v2 : v ≤ 1.01 := by rw [hv]; norm_num at h2 ⊢; linarith
  have b1 := Real.log_le_sub_one_of_pos v0
  have b2 := Real.one_sub_inv_le_log_of_pos v0
  have b3 : v⁻¹ ≤ 1 / 0.99 := by rw [inv_eq_one_div]; exact one_div_le_one_div_of_le (by norm_num) v1
  rw [e]
  norm_num at *
  constructor <;> linarith [h10.1, h10.2]

/-- C59, what fails: with the differential Highland formula the variance of the angle behind a layer of about 1e-9 radiation lengths
is negative, for every ion that changes its energy by at most 1 % in it. -/
theorem highland_negative (env : Env ℝ) (hdbg : env.debug = false) (w : World ℝ)
    (hr : ReachableW env w) (p : Projectile ℝ) (n : Int) (t : Material ℝ) (c : Config ℝ)
    (h : Computable p n t c) (hk : NonDefault p t c) (hrho : 0 < t.rho) (hT : 0 < p.T)
    (hs : c.scattering = scattering_dhighland)
    (ht1 : 0.99e-9 * radiation_length t ≤ t.th) (ht2 : t.th ≤ 1.01e-9 * radiation_length t)
    (R : ℝ) (w1 : World ℝ) (hR : range env p t c w = .ok (R, w1)) (hRt : t.th ≤ R)
    (hE : ∀ x, 0 < x → x < t.th → ∃ E w', energy_out env p (t.set_thickness x) c w = .ok (E, w') ∧ 0.99 * p.T ≤ E ∧ E ≤ p.T) :
    ∃ v, angular_variance env p t c 0 w = .ok (v, w1) ∧ v < 0 := by
  obtain ⟨d0, rs, -, -, -, trs, hview⟩ := range_spline env p n t c h hk
  obtain ⟨d, w', hd, hrs⟩ := hview w hr p.T t.th
  have hd' : get_data env p t c w = .ok (d, w') := hd
  obtain ⟨rfl, hRs⟩ : w' = w1 ∧ rs.evaluate p.T = .ok R := by
    unfold range at hR
    simp only [api_bind, api_pureM, ok_bind] at hR
    obtain ⟨d1, w2, h1, ⟨rs1, h2, h3⟩, rfl⟩ := hR
    rw [hd'] at h1
    cases h1
    rw [hrs] at h2
    cases h2
    exact ⟨rfl, h3⟩
  have hX0 : 0 < radiation_length t := radiation_length_material_pos t h.sound fun a ha =>
    le_trans (h.known a ha) (by norm_num)
  set X0 := radiation_length t with hX
  have hth : 0 < t.th := lt_of_lt_of_le (by positivity) ht1
  set rr := t.th / t.rho with hrr
  have rr0 : 0 < rr := by positivity
  have rrho : rr * t.rho = t.th := div_mul_cancel₀ _ hrho.ne'
  have hmin : smin (R / t.rho) t.thickness_cm = rr := by
    show (if Scalar.lt (t.th / t.rho) (R / t.rho) = true then t.th / t.rho else R / t.rho) = _
    split
    · rfl
    · rename_i h
      rw [lt_real] at h
      exact le_antisymm (not_lt.mp h) (div_le_div_of_nonneg_right hRt hrho.le)
  obtain ⟨e, he⟩ : ∃ e : ℝ → ℝ, ∀ x, energy_out_spline false p.T (x * t.rho) rs = .ok (e x) := by
    choose e he using fun x => trs.2 p.T (x * t.rho)
    exact ⟨e, he⟩
  have hEe : ∀ x, 0 < x → x < rr → 0.99 * p.T ≤ e x ∧ e x ≤ p.T := by
    intro x x0 x1
    obtain ⟨E, v, a, b⟩ := hE (x * t.rho) (by positivity) (by rw [← rrho]; exact mul_lt_mul_of_pos_right x1 hrho)
    unfold energy_out at a
    simp only [api_bind, api_pureM, ok_bind] at a
    obtain ⟨d1, w2, a1, ⟨rs1, a2, a3⟩, rfl⟩ := a
    obtain ⟨d3, w3, a4, a5⟩ := hview w hr p.T (x * t.rho)
    have a4' : get_data env p (t.set_thickness (x * t.rho)) c w = .ok (d3, w3) := a4
    rw [a4'] at a1
    cases a1
    rw [a5] at a2
    cases a2
    have a3' : energy_out_spline false p.T (x * t.rho) rs = .ok E := by rw [← hdbg]; exact a3
    rw [he] at a3'
    cases a3'
    exact b
  let g : ℝ → ℝ := fun x => 0.97 * (1.0 + Real.log (x * t.rho / X0) / 20.7) * (1.0 + Real.log (x * t.rho / X0) / 22.7) *
    Tfr (p.withT (e x)) 1.0 1.0
  have hfx : ∀ x, fx0p env.debug p t c 0 rs rr X0 x = .ok (g x) := by
    intro x
    unfold fx0p
    rw [hdbg, he, bind_ok, if_pos hs]
    show (Except.ok ((1.0 : ℝ) * (0.97 * (1.0 + Real.log (x * t.rho / X0) / 20.7) * (1.0 + Real.log (x * t.rho / X0) / 22.7)) *
      Tfr (p.withT (e x)) 1.0 1.0) : M ℝ) = Except.ok _
    rw [show (1.0 : ℝ) * (0.97 * (1.0 + Real.log (x * t.rho / X0) / 20.7) * (1.0 + Real.log (x * t.rho / X0) / 22.7)) =
      0.97 * (1.0 + Real.log (x * t.rho / X0) / 20.7) * (1.0 + Real.log (x * t.rho / X0) / 22.7) by
        generalize Real.log (x * t.rho / X0) = y; norm_num]
  have hint := integrator.integrate_eq (integrator.shape (GLData.supported_shape _ integrator_supported)).1
    (fx0p env.debug p t c 0 rs rr X0) g 0 rr fun _ _ => hfx _
  simp only [sub_zero, add_zero] at hint
  set l := Real.log (t.th / X0) with hl
  obtain ⟨l1, l2⟩ := log_billionth (t.th / X0) (by rw [le_div_iff₀ hX0]; exact ht1) (by rw [div_le_iff₀ hX0]; exact ht2)
  set τ : ℝ → ℝ := fun x => Tfr (p.withT (e (rr / 2 * x + rr / 2))) 1.0 1.0 with hτ
  have inner : ∀ a ∈ integrator.full, 0 < 1 + a.1 ∧ 0 < rr / 2 * a.1 + rr / 2 ∧ rr / 2 * a.1 + rr / 2 < rr := by
    intro a ha
    obtain ⟨b1, b2, -⟩ := integrator_nodes a ha
    norm_num at b1 b2
    refine ⟨by linarith, ?_, ?_⟩ <;> nlinarith
  have hsum := highland_sum l (Tfr (p.withT p.T) 1.0 1.0) τ l1 l2 (Tfr_near p h.ion.A p.T p.T hT (by norm_num; linarith) le_rfl).1 (by
    intro a ha
    obtain ⟨b1, b2, b3⟩ := inner a ha
    obtain ⟨c1, c2⟩ := hEe _ b2 b3
    exact (Tfr_near p h.ion.A p.T _ hT c1 c2).2)
  have hg : (wsum integrator.full fun x => g (rr / 2 * x + rr / 2)) = 0.97 / (20.7 * 22.7) *
      wsum integrator.full fun x => (l + Real.log ((1 + x) / 2) + 20.7) * (l + Real.log ((1 + x) / 2) + 22.7) * τ x := by
    rw [← wsum_smul]
    refine wsum_congr _ _ _ fun a ha => ?_
    obtain ⟨b1, b2, b3⟩ := inner a ha
    have e1 : (rr / 2 * a.1 + rr / 2) * t.rho / X0 = t.th / X0 * ((1 + a.1) / 2) := by
      rw [← rrho]; ring
    have e2 : Real.log ((rr / 2 * a.1 + rr / 2) * t.rho / X0) = l + Real.log ((1 + a.1) / 2) := by
      rw [e1, Real.log_mul (by positivity) (by positivity)]
    simp only [g, hτ]
    rw [e2]
    generalize Tfr (p.withT (e (rr / 2 * a.1 + rr / 2))) 1.0 1.0 = u
    generalize Real.log ((1 + a.1) / 2) = y
    norm_num
    ring
  refine ⟨(rr / 2 * wsum integrator.full fun x => g (rr / 2 * x + rr / 2)) * t.rho * ipow p.Z 2 * Es2_of c / X0, ?_, ?_⟩
  · unfold angular_variance
    simp only [hdbg, api_bind, api_pureM, ok_bind]
    refine ⟨(), w, ⟨by simp [cassert], rfl⟩, (), w, ⟨by simp [cassert], rfl⟩, (), w,
      ⟨by simp [cassert], rfl⟩, d, w', hd', ⟨rs, hrs, ?_⟩, rfl⟩
    unfold angular_variance_from
    dsimp only
    rw [hRs, bind_ok, if_neg (by rw [hs]; decide), hmin, show (0.0 : ℝ) = 0 by norm_num, hint, bind_ok]
    rfl
  · have z2 : (0 : ℝ) < ipow p.Z 2 := by
      show (0 : ℝ) < p.Z * p.Z
      have : p.Z ≠ 0 := by
        rw [h.ion.Z]
        have := h.ion.pos
        exact_mod_cast (by omega : n ≠ 0)
      exact mul_self_pos.mpr this
    have es : (0 : ℝ) < Es2_of c := by
      unfold Es2_of
      dsimp only
      rw [if_neg (by rw [hs]; decide), if_pos hs]
      norm_num [Es_squared, PI, fine_structure_inverted, fine_structure, electron_mass]
    have : (wsum integrator.full fun x => g (rr / 2 * x + rr / 2)) < 0 := by
      rw [hg]
      exact mul_neg_of_pos_of_neg (by norm_num) hsum
    have : (rr / 2 * wsum integrator.full fun x => g (rr / 2 * x + rr / 2)) < 0 := mul_neg_of_pos_of_neg (by positivity) this
    exact div_neg_of_neg_of_pos (mul_neg_of_neg_of_pos (mul_neg_of_neg_of_pos (mul_neg_of_neg_of_pos this hrho) z2) es) hX0

/-- Above the table the range is a straight line. -/
theorem range_line (env : Env ℝ) (hj : SmallJunk env.junk) (p : Projectile ℝ) (n : Int) (t : Material ℝ) (c : Config ℝ)
    (h : UsualIon p n t c) (hk : NonDefault p t c) : ∃ (s : Spline ℝ) (X m Y : ℝ), 1 ≤ X ∧ 0 < m ∧ 0 < Y ∧
      (∀ v, X ≤ v → s.evaluate v = .ok (m * (v - X) + Y)) ∧ (∀ v, X < v → s.deriv v = .ok m) ∧
      ∀ (w : World ℝ), ReachableW env w → ∀ T th,
      (∀ R w', range env (p.withT T) { t with th := th } c w = .ok (R, w') → s.evaluate T = .ok R) ∧
      (∀ E w', energy_out env (p.withT T) { t with th := th } c w = .ok (E, w') → energy_out_spline env.debug T th s = .ok E) := by
  have hc := h.computable
  obtain ⟨d, s, hd, hs, hv⟩ := range_view env p n t c hc hk
  have ht := range_table_tame env p n t c hc (h.steady env) d hd
  obtain ⟨d', hd', hl, hz, hpos⟩ := range_table_strict env p n t c hc h.usual
  rw [hd] at hd'
  cases hd'
  obtain ⟨s', hs', hder, hinc⟩ := interpolant_increasing env.junk hj env.calcIndex d.range ht
  have hg := library_table_ordered env.calcIndex
  obtain ⟨s2, hs2, P, -, -, -, -, hP⟩ := spline_pieces env.junk _ _ hg d.range hl
  obtain ⟨s3, hs3, f, hf, hdf⟩ := spline_deriv env.junk _ _ hg d.range hl
  obtain ⟨s4, hs4, hkn⟩ := spline_knots env.junk _ _ hg d.range hl
  unfold newSpline at hs
  rw [hs] at hs' hs2 hs3 hs4
  cases hs'
  cases hs2
  cases hs3
  cases hs4
  set X : ℝ := (energy_table.grid env.calcIndex : Grid ℝ).val ((energy_table.grid env.calcIndex : Grid ℝ).n - 1) with hX
  obtain ⟨m, Y, hP⟩ : ∃ m Y : ℝ, ∀ v, X ≤ v → s.evaluate v = .ok (m * (v - X) + Y) := ⟨_, _, hP⟩
  have hdm : ∀ v, X < v → s.deriv v = .ok m := by
    intro v hv'
    obtain ⟨d', h1, h2⟩ := hdf v (.inr (.inl hv'))
    rw [h1]
    have hev : f =ᶠ[nhds v] fun x => m * (x - X) + Y := by
      filter_upwards [lt_mem_nhds hv'] with x hx
      have := hP x hx.le
      rw [hf] at this
      exact Except.ok.inj this
    have h3 : HasDerivAt (fun x => m * (x - X) + Y) m v := by
      simpa using (((hasDerivAt_id v).sub_const X).const_mul m).add_const Y
    exact congrArg Except.ok ((h2.congr_of_eventuallyEq hev.symm).unique h3)
  have m0 : 0 < m := by
    obtain ⟨d', h1, h2⟩ := hder (X + 1)
    rw [hdm (X + 1) (by linarith)] at h1
    cases h1
    exact h2
  have X0 : 1 ≤ X := by
    have := (abs_le.mp energy_table_range.2.2).1
    have e : X = (energy_table : EnergyTable ℝ).val 599 := rfl
    rw [e]
    norm_num at this ⊢
    linarith
  have Y0 : 0 < Y := by
    have a := hP X le_rfl
    have b := hkn 0 (by show 0 < 600; norm_num)
    have e' : d.range[0]'(by rw [hl]; show 0 < 600; norm_num) = 0 := by
      rw [List.getElem?_eq_getElem (by rw [hl]; show 0 < 600; norm_num)] at hz
      exact Option.some.inj hz
    rw [e'] at b
    have c : (energy_table.grid env.calcIndex : Grid ℝ).val 0 + 2e-13 ≤ X := by
      have := (abs_le.mp energy_table_range.2.1).2
      have e : (energy_table.grid env.calcIndex : Grid ℝ).val 0 = (energy_table : EnergyTable ℝ).val 0 := rfl
      rw [e]
      norm_num at this ⊢
      linarith
    have := hinc _ _ _ _ b a (.inl c)
    linarith
  exact ⟨s, X, m, Y, X0, m0, Y0, hP, hdm, hv⟩

/-- C59, what fails: with the differential Highland formula, for every ion from hydrogen to uranium, every usual material and every
history, the variance of the angle behind a layer of about 1e-9 radiation lengths is negative at all energies from some energy on. -/
theorem highland_variance_wrong (env : Env ℝ) (hdbg : env.debug = false) (hj : SmallJunk env.junk) (p : Projectile ℝ) (n : Int)
    (t : Material ℝ) (c : Config ℝ) (h : UsualIon p n t c) (hk : NonDefault p t c) (hrho : 0 < t.rho)
    (hs : c.scattering = scattering_dhighland)
    (ht1 : 0.99e-9 * radiation_length t ≤ t.th) (ht2 : t.th ≤ 1.01e-9 * radiation_length t) :
    ∃ T0, 0 < T0 ∧ ∀ T, T0 ≤ T → ∀ w, ReachableW env w → ∃ v w', angular_variance env (p.withT T) t c 0 w = .ok (v, w') ∧ v < 0 := by
  obtain ⟨s, X, m, Y, X1, m0, Y0, hP, hdm, hv⟩ := range_line env hj p n t c h hk
  have hX0 : 0 < radiation_length t := radiation_length_material_pos t h.computable.sound fun a ha =>
    le_trans (h.computable.known a ha) (by norm_num)
  have hth : 0 < t.th := lt_of_lt_of_le (by positivity) ht1
  have hm0 : 0 < t.th / m := by positivity
  refine ⟨X + 100 * (t.th / m), by linarith, fun T hT w hr => ?_⟩
  have hc : Computable (p.withT T) n t c := h.computable.withT T
  obtain ⟨w1, R, E, hR, -⟩ := energy_out_succeeds env hdbg w hr (p.withT T) n t c hc hk
  have hRs := (hv w hr T t.th).1 R w1 hR
  have hXT : X < T := by linarith
  rw [hP T hXT.le] at hRs
  have hRe : R = m * (T - X) + Y := (Except.ok.inj hRs).symm
  have hmT : 100 * t.th ≤ m * (T - X) := by
    have : m * (100 * (t.th / m)) ≤ m * (T - X) := mul_le_mul_of_nonneg_left (by linarith) m0.le
    rwa [show m * (100 * (t.th / m)) = 100 * t.th by field_simp] at this
  obtain ⟨v, hva, hv0⟩ := highland_negative env hdbg w hr (p.withT T) n t c hc hk hrho (show (0 : ℝ) < T by linarith) hs ht1 ht2 R w1 hR
    (by linarith) (by
      intro x x0 x1
      obtain ⟨w2, R2, E2, -, hE2⟩ := energy_out_succeeds env hdbg w hr (p.withT T) n (t.set_thickness x) c (hc.thickness x) hk
      have hE3 := (hv w hr T x).2 E2 w2 hE2
      have xm : x / m < t.th / m := div_lt_div_of_pos_right x1 m0
      have xm0 : 0 < x / m := by positivity
      have he := energy_out_spline_first env.debug s T (m * (T - X) + Y) m x (T - x / m) (m * (T - x / m - X) + Y)
        (hP T hXT.le) (hdm T hXT) (by linarith) (by ring) (hP _ (by linarith)) (by
          rw [show m * (T - X) + Y - (m * (T - x / m - X) + Y) - x = 0 by field_simp; ring]
          norm_num)
      rw [hE3] at he
      have e : E2 = T - x / m := Except.ok.inj he
      refine ⟨E2, w2, hE2, ?_, ?_⟩
      · show 0.99 * T ≤ E2
        rw [e]
        norm_num
        linarith
      · show E2 ≤ T
        linarith)
  exact ⟨v, w1, hva, hv0⟩

/-- Carbon in a gas or a foil of water meets the hypotheses. -/
example (env : Env ℝ) : ∃ (th : ℝ) (t : Material ℝ) (c : Config ℝ), 0 < th ∧ UsualIon ⟨12, 6, 6, 100⟩ 6 t c ∧ NonDefault ⟨12, 6, 6, 100⟩ t c ∧
    0 < t.rho ∧ c.scattering = scattering_dhighland ∧ t.th = th ∧ t.th = 1e-9 * radiation_length t := by
  have a := carbon_water 100
  set t0 : Material ℝ := ⟨1, 0.5, 18.015, 78, [⟨1.00794, 1, 2⟩, ⟨15.9994, 8, 1⟩]⟩ with ht0
  have hX0 : 0 < radiation_length t0 := radiation_length_material_pos t0 a.computable.sound fun b hb =>
    le_trans (a.computable.known b hb) (by norm_num)
  refine ⟨1e-9 * radiation_length t0, t0.set_thickness (1e-9 * radiation_length t0),
    { (Config.default : Config ℝ) with scattering := scattering_dhighland }, by positivity, .inr (.inr ?_), ?_, ?_, rfl, rfl, rfl⟩
  · have hc : Computable (⟨12, 6, 6, 100⟩ : Projectile ℝ) 6 (t0.set_thickness (1e-9 * radiation_length t0))
        { (Config.default : Config ℝ) with scattering := scattering_dhighland } :=
      ⟨a.computable.ion, a.computable.small, (a.computable.thickness _).sound, a.computable.known, Or.inl rfl⟩
    exact ⟨hc, a.lithium, a.uranium, a.heavy, a.light, a.charge, a.excitation, a.excitation', a.excitation'', a.barkas,
      a.excitation_heavy, a.elements⟩
  · simp only [NonDefault, Key.eq, Key.default, Projectile.eq, Projectile.default]
    simp
    intro h
    norm_num at h
  · show (0 : ℝ) < 1
    norm_num

end Catima
