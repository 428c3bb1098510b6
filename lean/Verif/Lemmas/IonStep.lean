import Verif.Lemmas.IonSrim
import Verif.Lemmas.ProtonWide

/-!
# Helper lemmas: the low-energy stopping of ions up to uranium over one step of the grid
-/

namespace Catima

theorem ionVR_bounds {iz : ℝ} (hi : 0 < iz) : 1 ≤ ionVR iz ∧ (1 ≤ 27 * iz ^ 3 → ionVR iz ≤ 1.17) := by
  refine ⟨le_max_left _ _, fun h => max_le (by norm_num) ?_⟩
  have : 1 / 3 ≤ iz := by
    by_contra hc
    rw [not_le] at hc
    have := pow_lt_pow_left₀ hc hi.le (n := 3) (by norm_num)
    linarith
  rw [div_le_iff₀ (by positivity)]
  norm_num
  nlinarith

theorem ionVR_heavy {iz : ℝ} (hi : 0 < iz) (h : 1 ≤ 92 * iz ^ 3) : ionVR iz ≤ 2.66 := by
  refine max_le (by norm_num) ?_
  have : 0.2214 ≤ iz := by
    by_contra hc
    rw [not_le] at hc
    have := pow_lt_pow_left₀ hc hi.le (n := 3) (by norm_num)
    norm_num at this
    linarith
  rw [div_le_iff₀ (by positivity)]
  norm_num at this ⊢
  nlinarith

theorem ionVmin_bounds {iz vf : ℝ} (hi : 0 < iz) : 1 / 2 ≤ ionVmin iz vf ∧ ionVR iz / 2 ≤ ionVmin iz vf := by
  have h := (ionVR_bounds hi).1
  have s0 := Real.sqrt_nonneg (max 0 (ionVR iz * ionVR iz - 0.8 * vf * vf))
  unfold ionVmin
  constructor <;> linarith

/-- Whether the stopping is extrapolated, by the relative velocity. -/
theorem ionY_low {iz vf x : ℝ} (hi : 0 < iz) : ionY iz vf x ≤ max 0.13 (iz * iz) ↔ vf * relV (√(1000 * x / 25) / vf) ≤ ionVR iz := by
  have q : 0 < iz * iz := by positivity
  have e : max 0.13 (iz * iz) = ionVR iz * (iz * iz) := by
    unfold ionVR
    rw [max_mul_of_nonneg _ _ q.le, one_mul, div_mul_cancel₀ _ q.ne', max_comm]
  have : ionY iz vf x ≤ max 0.13 (iz * iz) ↔ vf * relV (√(1000 * x / 25) / vf) * (iz * iz) ≤ max 0.13 (iz * iz) := by
    unfold ionY
    constructor
    · intro h; exact (le_trans (le_max_right _ _) (le_max_left _ _)).trans h
    · intro h; exact max_le (max_le (le_max_left _ _) h) (le_max_right _ _)
  rw [this, e]
  exact mul_le_mul_iff_left₀ q

/-- Above 0.76 of the Fermi velocity the two formulas of the relative velocity nearly agree. -/
theorem slow_near (m v : ℝ) (m0 : 0 < m) (m2 : 0.2 ≤ m * m) (mv : m < v) (v0 : 0.76 ≤ v) (v1 : v < 1) (hL' : relP v ≤ m + 0.2 / m) :
    v ^ 2 ≤ 1.005 * m ^ 2 := by
  have e1 : m + 0.2 / m - relP m = 0.05 * (1 - m) ^ 4 * (m + 4) / m := by unfold relP; field_simp; ring
  have ma : 0.4472 ≤ m := by
    by_contra h
    rw [not_le] at h
    norm_num at h m2
    nlinarith
  have hm : 0.7575 ≤ m := by
    by_contra h
    rw [not_le] at h
    have h1 := relP_mono 0.76 v (by norm_num) v0 (by norm_num; linarith)
    have h2 : (1.0221 : ℝ) ≤ relP 0.76 := by norm_num [relP]
    have h3 : m + 0.2 / m < 1.022 := by
      rw [← lt_sub_iff_add_lt', div_lt_iff₀ m0]
      norm_num at h ma ⊢
      nlinarith
    norm_num at h2 h3
    linarith
  by_contra hc
  rw [not_le] at hc
  have h4 : (1 - m) ^ 4 ≤ 0.2425 ^ 4 := pow_le_pow_left₀ (by linarith) (by norm_num at hm ⊢; linarith) 4
  have h5 : 0.05 * (1 - m) ^ 4 * (m + 4) / m ≤ 0.0011 := by
    rw [div_le_iff₀ m0]
    have h6 : 0.05 * (1 - m) ^ 4 ≤ 0.05 * 0.2425 ^ 4 := mul_le_mul_of_nonneg_left h4 (by norm_num)
    have h7 := mul_le_mul_of_nonneg_right h6 (show 0 ≤ m + 4 by linarith)
    refine h7.trans ?_
    norm_num at hm ⊢
    linarith
  have h8 : relP m + 0.002 * m ^ 2 ≤ relP v := by
    have n1 : m ^ 2 < 1 := by nlinarith
    have n2 : v ^ 2 < 1 := by nlinarith
    have n3 : 0 < m ^ 2 := by positivity
    unfold relP
    have e2 : v * v = v ^ 2 := by ring
    have e3 : m * m = m ^ 2 := by ring
    simp only [e2, e3] at *
    generalize v ^ 2 = q at *
    generalize m ^ 2 = p at *
    norm_num at hc ⊢
    nlinarith
  have h9 : 0.5738 ≤ m ^ 2 := by
    have := pow_le_pow_left₀ (by norm_num) hm 2
    norm_num at this ⊢
    linarith
  norm_num at h5 h8 h9
  linarith

theorem crossing_near (vf VR V : ℝ) (hv : 0 < vf) (hv1 : vf ≤ 1.29) (hV : 0.9807 ≤ V) (hL : vf * relV (V / vf) ≤ VR)
    (hD : 0.8 * vf * vf ≤ VR * VR) (hc : 1 / 2 * (VR + √(max 0 (VR * VR - 0.8 * vf * vf))) < V) :
    V ^ 2 ≤ 1.005 * (1 / 2 * (VR + √(max 0 (VR * VR - 0.8 * vf * vf)))) ^ 2 := by
  have hV0 : 0 < V := lt_of_lt_of_le (by norm_num) hV
  have hVR : 0 < VR := by
    have := (relV_low (V / vf) (by positivity)).2.2
    have : 0 < vf * relV (V / vf) := mul_pos hv (lt_of_lt_of_le (by norm_num) this)
    linarith
  set s := √(max 0 (VR * VR - 0.8 * vf * vf)) with hs
  have s0 : 0 ≤ s := Real.sqrt_nonneg _
  have s2 : s * s = VR * VR - 0.8 * vf * vf := by
    rw [hs, max_eq_right (by linarith), Real.mul_self_sqrt (by linarith)]
  set w := 1 / 2 * (VR + s) with hw
  have w0 : 0 < w := by positivity
  obtain ⟨m, hm⟩ : ∃ m, m = w / vf := ⟨_, rfl⟩
  have m0 : 0 < m := by rw [hm]; positivity
  have ew : w = m * vf := by rw [hm]; field_simp
  have eu : VR = vf * (m + 0.2 / m) := by
    have : w * w - VR * w + 0.2 * vf * vf = 0 := by
      rw [hw]; linarith
    have h3 : VR * w = w * w + 0.2 * vf * vf := by linarith
    rw [hm]
    field_simp
    linarith
  have m2 : 0.2 ≤ m * m := by
    have h1 : VR / 2 ≤ w := by rw [hw]; linarith
    have h2 : vf * (m + 0.2 / m) ≤ 2 * (m * vf) := by rw [← eu, ← ew]; linarith
    have h3 : vf * (0.2 / m) ≤ vf * m := by linarith
    have h4 := le_of_mul_le_mul_left h3 hv
    rwa [div_le_iff₀ m0] at h4
  have hL' : relV (V / vf) ≤ m + 0.2 / m := le_of_mul_le_mul_left (hL.trans_eq eu) hv
  obtain ⟨v, hvv⟩ : ∃ v, v = V / vf := ⟨_, rfl⟩
  have eV : V = v * vf := by rw [hvv]; field_simp
  rw [← hvv] at hL'
  have mv : m < v := by
    rw [ew, eV] at hc
    exact lt_of_mul_lt_mul_right hc hv.le
  have v0 : 0 < v := by linarith
  have v1 : v < 1 := by
    by_contra h1
    rw [not_lt] at h1
    rw [relV_fast v h1] at hL'
    have e : v + 0.2 / v - (m + 0.2 / m) = (v - m) * (m * v - 0.2) / (m * v) := by field_simp; ring
    have : 0 < (v - m) * (m * v - 0.2) / (m * v) := div_pos (mul_pos (by linarith) (by nlinarith)) (by positivity)
    linarith
  have v76 : 0.76 ≤ v := by
    rw [hvv, le_div_iff₀ hv]
    norm_num at hv1 hV ⊢
    linarith
  rw [relV_slow v v1] at hL'
  have key := slow_near m v m0 m2 mv v76 v1 hL'
  rw [eV, ew]
  have := mul_le_mul_of_nonneg_right key (sq_nonneg vf)
  linarith

set_option maxHeartbeats 1000000 in
/-- Step of the extrapolated stopping to that of the scaled protons. -/
theorem cross_step (b : Bool) {pZ tZ : Int} {iz lam vf : ℝ} (h : ScreenIn pZ iz lam vf) (hT : 1 ≤ tZ)
    (hvf : tZ ≤ 6 ∨ tZ = 14 ∨ tZ = 32 → vf ≤ 1.1) (x r : ℝ) (hx : 0 < x) (h1 : 1 ≤ r) (h2 : r ≤ 1.0393)
    (hL : vf * relV (√(1000 * x / 25) / vf) ≤ ionVR iz) (hH : ionVR iz < vf * relV (√(1000 * (r * x) / 25) / vf)) :
    ∃ s s', (if b then p_se tZ else p_se85 tZ : ℝ → M ℝ) (25 * ionVmin iz vf * ionVmin iz vf * 0.001) = .ok s ∧
      (if b then p_se tZ else p_se85 tZ : ℝ → M ℝ) (r * x) = .ok s' ∧
      Step 1.2 1.226 (s * (1000 * x / (25 * ionVmin iz vf * ionVmin iz vf)) ^ ionPow pZ tZ) s' := by
  obtain ⟨w1, w2⟩ := ionVmin_bounds (iz := iz) (vf := vf) h.iz0
  obtain ⟨R1, R2⟩ := ionVR_bounds h.iz0
  obtain ⟨s1, s2, s3⟩ := sqrt_step r h1 h2
  have hV : 0 < √(1000 * x / 25) := Real.sqrt_pos.mpr (by positivity)
  have V2 : √(1000 * x / 25) ^ 2 = 1000 * x / 25 := Real.sq_sqrt (by positivity)
  rw [ionV_scale r x (by linarith)] at hH
  have hVV : √(1000 * x / 25) ≤ √r * √(1000 * x / 25) := le_mul_of_one_le_left hV.le s1
  have eV' : (√r * √(1000 * x / 25)) ^ 2 = r * (1000 * x / 25) := by rw [mul_pow, V2, sq, s3]
  -- protons below 25 keV/u
  obtain ⟨s25, p25, hp25⟩ := proton_power b tZ hT
  have slowV : ionVR iz ≤ 1.17 → √(1000 * x / 25) ≤ vf → 1000 * (r * x) ≤ 25 ∧ √(1000 * x / 25) ≤ ionVR iz / 1.2 := by
    intro R17 hs
    have l1 : √(1000 * x / 25) / vf ≤ 1 := by rw [div_le_one h.vf0]; exact hs
    have l2 := (relV_low (√(1000 * x / 25) / vf) (div_pos hV h.vf0)).2.1 l1
    have l3 : 1.2 * √(1000 * x / 25) ≤ vf * relV (√(1000 * x / 25) / vf) := by
      have := mul_le_mul_of_nonneg_left l2 h.vf0.le
      have e : vf * (1.2 * (√(1000 * x / 25) / vf)) = 1.2 * √(1000 * x / 25) := by
        have := h.vf0.ne'
        field_simp
      linarith
    have l4 : √(1000 * x / 25) ≤ ionVR iz / 1.2 := by rw [le_div_iff₀ (by norm_num)]; linarith
    refine ⟨?_, l4⟩
    have l5 : √r * √(1000 * x / 25) ≤ 1 := by
      have : √(1000 * x / 25) ≤ 0.975 := l4.trans (by rw [div_le_iff₀ (by norm_num)]; norm_num at R17 ⊢; linarith)
      exact (mul_le_mul s2 this hV.le (by norm_num)).trans (by norm_num)
    have l6 : (√r * √(1000 * x / 25)) ^ 2 ≤ 1 := pow_le_one₀ (by positivity) l5
    rw [eV'] at l6
    linarith
  set w := ionVmin iz vf with hw
  have w0 : 0 < w := by linarith
  have eA : 0 < 25 * w * w := by positivity
  have et : 1000 * x / (25 * w * w) = √(1000 * x / 25) ^ 2 / w ^ 2 := by rw [V2]; field_simp
  -- the purely slow case
  have slow : ∀ U D, 25 * w * w ≤ 25 → 1000 * (r * x) ≤ 25 →
      Step U D ((1000 * x / (25 * w * w)) ^ ionPow pZ tZ) ((r * (1000 * x / (25 * w * w))) ^ (if tZ > 6 then 0.45 else 0.25 : ℝ)) →
      ∃ s s', (if b then p_se tZ else p_se85 tZ : ℝ → M ℝ) (25 * w * w * 0.001) = .ok s ∧ (if b then p_se tZ else p_se85 tZ : ℝ → M ℝ) (r * x) = .ok s' ∧
        Step U D (s * (1000 * x / (25 * w * w)) ^ ionPow pZ tZ) s' := by
    intro U D c1 c2 st
    have e1 := hp25 (25 * w * w * 0.001) (by positivity) (by norm_num at c1 ⊢; linarith)
    have e2 := hp25 (r * x) (by positivity) c2
    refine ⟨_, _, e1, e2, ?_⟩
    have ew : 1000 * (25 * w * w * 0.001) / 25 = 25 * w * w / 25 := by norm_num; ring
    rw [ew]
    have ex : 1000 * (r * x) / 25 = 25 * w * w / 25 * (r * (1000 * x / (25 * w * w))) := by field_simp
    rw [ex, Real.mul_rpow (by positivity) (by positivity), ← mul_assoc s25]
    exact st.scale (s25 * (25 * w * w / 25) ^ (if tZ > 6 then 0.45 else 0.25 : ℝ)) (by positivity)
  by_cases hD : 0.8 * vf * vf ≤ ionVR iz * ionVR iz
  · obtain ⟨c1, c2⟩ := crossing vf (ionVR iz) _ _ h.vf0 hV hVV hL hH hD
    rw [← ionVmin, ← hw] at c1 c2
    by_cases c3 : √(1000 * x / 25) ≤ w
    · -- the protons are not extrapolated over more than one step
      have k1 : √(1000 * x / 25) ^ 2 ≤ w ^ 2 := pow_le_pow_left₀ hV.le c3 2
      have k2 : w ^ 2 ≤ r * (1000 * x / 25) := by rw [← eV']; exact pow_le_pow_left₀ w0.le c1 2
      rw [V2] at k1
      have r1 : 1 ≤ r * x / (25 * w * w * 0.001) := by
        rw [le_div_iff₀ (by positivity)]
        norm_num
        nlinarith
      have r2 : r * x / (25 * w * w * 0.001) ≤ 1.0393 := by
        rw [div_le_iff₀ (by positivity)]
        have : r * x ≤ 1.0393 * x := mul_le_mul_of_nonneg_right h2 hx.le
        norm_num at this ⊢
        nlinarith
      obtain ⟨s, s', hs, hs', st, -⟩ := proton_step b tZ hT (25 * w * w * 0.001) _ (by positivity) r1 r2
      rw [div_mul_cancel₀ _ (by positivity)] at hs'
      refine ⟨s, s', hs, hs', ?_⟩
      have t1 : 1000 * x / (25 * w * w) ≤ 1 := by rw [div_le_one eA]; nlinarith
      have t0 : 0 < 1000 * x / (25 * w * w) := by positivity
      have t2 : 1 ≤ r * (1000 * x / (25 * w * w)) := by
        rw [← mul_div_assoc, le_div_iff₀ eA]; nlinarith
      have p0 : 0 ≤ ionPow pZ tZ ∧ ionPow pZ tZ ≤ 1 / 2 := by unfold ionPow; split <;> norm_num
      have P : Step 1.0195 1 ((1000 * x / (25 * w * w)) ^ ionPow pZ tZ) 1 := by
        have q0 := Real.rpow_pos_of_pos t0 (ionPow pZ tZ)
        refine ⟨q0, one_pos, ?_, ?_⟩
        · have q1 : 1 ≤ r ^ ionPow pZ tZ * (1000 * x / (25 * w * w)) ^ ionPow pZ tZ := by
            rw [← Real.mul_rpow (by linarith) t0.le]; exact Real.one_le_rpow t2 p0.1
          have q2 : r ^ ionPow pZ tZ ≤ 1.0195 := by
            refine (Real.rpow_le_rpow_of_exponent_le h1 p0.2).trans ?_
            rw [← Real.sqrt_eq_rpow]; exact s2
          exact q1.trans (mul_le_mul_of_nonneg_right q2 q0.le)
        · rw [one_mul]; exact Real.rpow_le_one t0.le t1 p0.1
      have := st.mul P
      rw [mul_one s'] at this
      exact this.mono (by norm_num) (by norm_num)
    · obtain ⟨c4, c5⟩ := c2.resolve_left c3
      rw [not_le] at c3
      have k1 : w ^ 2 ≤ √(1000 * x / 25) ^ 2 := pow_le_pow_left₀ w0.le c3.le 2
      rcases le_or_gt (1000 * (r * x)) 25 with c6 | c6
      swap
      · -- above 25 keV/u the protons are extrapolated over hardly more than one step
        have V98 : 0.9807 ≤ √(1000 * x / 25) := by
          apply Real.le_sqrt_of_sq_le
          have : r * x ≤ 1.0393 * x := mul_le_mul_of_nonneg_right h2 hx.le
          norm_num at this ⊢
          linarith
        have near := crossing_near vf (ionVR iz) _ h.vf0 h.vf1 V98 hL hD c3
        rw [← ionVmin, ← hw, V2] at near
        rw [V2] at k1
        have r1 : 1 ≤ r * x / (25 * w * w * 0.001) := by
          have xr : x ≤ r * x := le_mul_of_one_le_left hx.le h1
          rw [le_div_iff₀ (by positivity)]
          norm_num
          nlinarith
        have r2 : r * x / (25 * w * w * 0.001) ≤ 1.0445 := by
          rw [div_le_iff₀ (by positivity)]
          have : r * x ≤ 1.0393 * x := mul_le_mul_of_nonneg_right h2 hx.le
          norm_num at this near ⊢
          nlinarith
        obtain ⟨s, s', hs, hs', st⟩ := proton_wide b tZ hT (25 * w * w * 0.001) _ (by positivity) r1 r2
          (by rw [div_mul_cancel₀ _ (by positivity)]; exact c6)
        rw [div_mul_cancel₀ _ (by positivity)] at hs'
        refine ⟨s, s', hs, hs', ?_⟩
        have t1 : 1 ≤ 1000 * x / (25 * w * w) := by rw [le_div_iff₀ eA]; nlinarith
        have t2 : 1000 * x / (25 * w * w) ≤ 1.005 := by rw [div_le_iff₀ eA]; norm_num at near ⊢; nlinarith
        have p0 : 0 ≤ ionPow pZ tZ ∧ ionPow pZ tZ ≤ 1 / 2 := by unfold ionPow; split <;> norm_num
        have P : Step 1 1.0026 ((1000 * x / (25 * w * w)) ^ ionPow pZ tZ) 1 := by
          have q1 : 1 ≤ (1000 * x / (25 * w * w)) ^ ionPow pZ tZ := Real.one_le_rpow t1 p0.1
          have q2 : (1000 * x / (25 * w * w)) ^ ionPow pZ tZ ≤ 1.0026 := by
            refine (Real.rpow_le_rpow_of_exponent_le t1 p0.2).trans ?_
            rw [← Real.sqrt_eq_rpow, Real.sqrt_le_left (by norm_num)]
            refine t2.trans (by norm_num)
          exact ⟨by linarith, one_pos, by linarith, by linarith⟩
        have := st.mul P
        rw [mul_one s'] at this
        exact this.mono (by norm_num) (by norm_num)
      have xr : x ≤ r * x := le_mul_of_one_le_left hx.le h1
      obtain ⟨s, s', hs, hs', st⟩ := slow 1.09 1.145 (by rw [V2] at k1; nlinarith) c6 (power_cross _ r pZ tZ
        (by rw [et, le_div_iff₀ (by positivity)]; linarith) (by rw [et, div_le_iff₀ (by positivity)]; exact c5) h1 h2)
      exact ⟨s, s', hs, hs', st.mono (by norm_num) (by norm_num)⟩
  · rw [not_le] at hD
    have vbig : 1.1 < vf := by
      by_contra hc
      rw [not_lt] at hc
      have v0 := h.vf0
      have : vf * vf ≤ 1.1 * 1.1 := mul_self_le_mul_self v0.le hc
      norm_num at this hD
      nlinarith
    have hZ : ¬ (tZ ≤ 6 ∨ tZ = 14 ∨ tZ = 32) := fun hz => absurd (hvf hz) (not_le.mpr vbig)
    have z6 : tZ > 6 := by omega
    have ep : ionPow pZ tZ = 0.5 := by
      unfold ionPow
      rw [if_neg]
      omega
    have ew : w = ionVR iz / 2 := by
      rw [hw, ionVmin, max_eq_left (by linarith), Real.sqrt_zero]; ring
    have v0 := h.vf0
    have vs : √(1000 * x / 25) ≤ vf := by
      by_contra hc
      rw [not_le] at hc
      have l1 : 1 ≤ √(1000 * x / 25) / vf := by rw [le_div_iff₀ v0]; linarith
      have l2 := (relV_low _ (lt_of_lt_of_le one_pos l1)).1
      have l3 := mul_le_mul_of_nonneg_left (l1.trans l2) v0.le
      have l4 := mul_self_le_mul_self v0.le (show vf ≤ ionVR iz by linarith)
      have l5 := mul_pos v0 v0
      clear slow slowV hp25 et
      norm_num at hD
      linarith
    have R17 : ionVR iz ≤ 1.17 := by
      have v1 := h.vf1
      have := mul_le_mul v1 v1 v0.le (by norm_num)
      by_contra hc
      rw [not_le] at hc
      have := mul_lt_mul'' hc hc (by norm_num) (by norm_num)
      norm_num at *
      nlinarith
    obtain ⟨c6, c7⟩ := slowV R17 vs
    have W : 25 * w * w ≤ 25 := by
      rw [ew]
      norm_num at R17
      nlinarith
    have tl : 0.24 ≤ 1000 * x / (25 * w * w) := by
      rw [et, le_div_iff₀ (by positivity)]
      -- the velocity after the step
      have g1 : 0.05 * vf ^ 2 ≤ (√r * √(1000 * x / 25)) ^ 2 := by
        have hp : 0 < √r * √(1000 * x / 25) := by positivity
        obtain ⟨v, hv⟩ : ∃ v, v = √r * √(1000 * x / 25) / vf := ⟨_, rfl⟩
        have ev : √r * √(1000 * x / 25) = v * vf := by rw [hv]; field_simp
        rw [← hv] at hH
        rw [ev, mul_pow]
        refine mul_le_mul_of_nonneg_right ?_ (sq_nonneg vf)
        by_cases hv1 : 1 ≤ v
        · norm_num
          nlinarith
        · rw [relV_slow v (not_le.mp hv1)] at hH
          have : 1 < 1.29 * relP v := by
            have pp : 0 < relP v := by
              have : 0 < vf * relP v := by linarith
              exact pos_of_mul_pos_right this v0.le
            have := mul_le_mul_of_nonneg_right h.vf1 pp.le
            linarith
          unfold relP at this
          norm_num at this ⊢
          nlinarith [mul_self_nonneg (v * v)]
      rw [mul_pow, sq (√r), s3] at g1
      have g2 : w ^ 2 ≤ 0.2 * vf ^ 2 := by
        rw [ew]
        norm_num at hD ⊢
        nlinarith
      have g3 : r * √(1000 * x / 25) ^ 2 ≤ 1.0393 * √(1000 * x / 25) ^ 2 := mul_le_mul_of_nonneg_right h2 (sq_nonneg _)
      norm_num at g1 g2 g3 ⊢
      linarith
    have th : 1000 * x / (25 * w * w) ≤ 2.8 := by
      rw [et, div_le_iff₀ (by positivity), ew]
      have := pow_le_pow_left₀ hV.le c7 2
      refine this.trans ?_
      rw [div_pow, div_pow, ← mul_div_assoc, div_le_div_iff₀ (by norm_num) (by norm_num)]
      norm_num
      nlinarith [sq_nonneg (ionVR iz)]
    obtain ⟨s, s', hs, hs', st⟩ := slow 1.12 1.08 W c6 (by
      rw [ep, if_pos z6]
      exact power_cross_fast _ r tl th h1 h2)
    exact ⟨s, s', hs, hs', st.mono (by norm_num) (by norm_num)⟩

/-- The low-energy stopping of ions up to uranium over one step of the grid. -/
theorem heavy_step (b : Bool) (pZ tZ : Int) (h3 : 3 ≤ pZ) (h92 : pZ ≤ 92) (hT : 1 ≤ tZ) (hT' : tZ ≤ 120) (h91 : tZ ≠ 91) (x r : ℝ) (hx : 0 < x)
    (h1 : 1 ≤ r) (h2 : r ≤ 1.0393) :
    ∃ s s', srim_dedx_e pZ tZ x b = .ok s ∧ srim_dedx_e pZ tZ (r * x) b = .ok s' ∧
      Step 1.36 1.36 s s' ∧ (9.6 ≤ x → Step 1.25 1.25 s s') ∧ (10 ≤ x → Step 1.223 1.172 s s') := by
  obtain ⟨lam, vf, hl, hv, hS, hvf⟩ := ion_tables pZ tZ h3 (by omega) hT h91
  set iz := 1 / (pZ : ℝ) ^ (1 / 3 : ℝ) with hiz
  have z0 : (0 : ℝ) < pZ := by
    have : (3 : ℝ) ≤ pZ := by exact_mod_cast h3
    linarith
  have hrx : 0 < r * x := by positivity
  have ee : ∀ y : ℝ, srim_dedx_e pZ tZ y b = srimHeavy (if b then p_se tZ else p_se85 tZ) pZ tZ y := fun y => by
    unfold srim_dedx_e
    rw [if_neg (by omega), if_neg (by omega)]
  rw [ee, ee, srimHeavy_eq _ pZ tZ x lam vf hx hl hv hS.vf0 iz hiz, srimHeavy_eq _ pZ tZ (r * x) lam vf hrx hl hv hS.vf0 iz hiz]
  obtain ⟨Z1, Z2, Z3⟩ := ionZeta_step (tZ := tZ) hS hT hT' x r hx h1 h2
  obtain ⟨y0, y1, y2⟩ := ionY_step iz vf x r hS.vf0 hx h1 h2
  have sqs : ∀ {u d a a' : ℝ}, Step u d a a' → Step (u * u) (d * d) ((a * pZ) ^ 2) ((a' * pZ) ^ 2) := by
    intro u d a a' st
    have := st.scale (pZ : ℝ) z0
    have m := this.mul this
    simp only [← sq, mul_comm (pZ : ℝ)] at m ⊢
    exact m
  have thr : max 0.13 (iz * iz) ≤ ionY iz vf x := max_le y0 (le_max_right _ _)
  have iz27 : 1 ≤ 92 * iz ^ 3 := by
    have : (pZ : ℝ) ≤ 92 := by exact_mod_cast h92
    have := mul_le_mul_of_nonneg_right this (pow_pos hS.iz0 3).le
    rw [hS.cube] at this
    exact this
  have high : 9.6 ≤ x → ¬ ionY iz vf x ≤ max 0.13 (iz * iz) ∧ 0.86 ≤ ionY iz vf x := by
    intro h96
    have v19 : 19 ≤ √(1000 * x / 25) := by
      rw [Real.le_sqrt' (by norm_num)]
      norm_num at h96 ⊢
      linarith
    have hp : 0 < √(1000 * x / 25) / vf := div_pos (by linarith) hS.vf0
    have l1 : √(1000 * x / 25) ≤ vf * relV (√(1000 * x / 25) / vf) := by
      have := mul_le_mul_of_nonneg_left (relV_low _ hp).1 hS.vf0.le
      rwa [mul_div_cancel₀ _ hS.vf0.ne'] at this
    constructor
    · rw [ionY_low hS.iz0]
      have := ionVR_heavy hS.iz0 iz27
      norm_num at this
      intro hc
      linarith
    · have i3 : 0.2215 ≤ iz := by
        by_contra hc
        rw [not_le] at hc
        have := pow_lt_pow_left₀ hc hS.iz0.le (n := 3) (by norm_num)
        norm_num at this
        linarith
      have : vf * relV (√(1000 * x / 25) / vf) * (iz * iz) ≤ ionY iz vf x := (le_max_right _ _).trans (le_max_left _ _)
      have h9 : 0.049 ≤ iz * iz := by norm_num at i3 ⊢; nlinarith
      have h19 := mul_le_mul (v19.trans l1) h9 (by norm_num) (by linarith)
      refine le_trans ?_ (h19.trans this)
      norm_num
  by_cases c : ionY iz vf x ≤ max 0.13 (iz * iz)
  · have n96 : ¬ 9.6 ≤ x := fun hc => (high hc).1 c
    have n10 : ¬ 10 ≤ x := fun hc => n96 (by norm_num; linarith)
    rw [if_pos c]
    by_cases c' : ionY iz vf (r * x) ≤ max 0.13 (iz * iz)
    · -- both extrapolated
      rw [if_pos c']
      have ey : ionY iz vf (r * x) = ionY iz vf x := le_antisymm (c'.trans thr) y1
      obtain ⟨w1, -⟩ := ionVmin_bounds (iz := iz) (vf := vf) hS.iz0
      have w0 : 0 < ionVmin iz vf := by linarith
      obtain ⟨s, _, hs, -, st, -⟩ := proton_step b tZ hT (25 * ionVmin iz vf * ionVmin iz vf * 0.001) 1 (by positivity) le_rfl (by norm_num)
      rw [hs]
      refine ⟨_, _, rfl, rfl, ?_, fun hc => absurd hc n96, fun hc => absurd hc n10⟩
      have P : Step 1.0195 1 ((1000 * x / (25 * ionVmin iz vf * ionVmin iz vf)) ^ ionPow pZ tZ)
          ((1000 * (r * x) / (25 * ionVmin iz vf * ionVmin iz vf)) ^ ionPow pZ tZ) := by
        have p0 : 0 ≤ ionPow pZ tZ ∧ ionPow pZ tZ ≤ 1 / 2 := by unfold ionPow; split <;> norm_num
        have e : 1000 * (r * x) / (25 * ionVmin iz vf * ionVmin iz vf) = r * (1000 * x / (25 * ionVmin iz vf * ionVmin iz vf)) := by ring
        rw [e]
        refine (rpow_step r _ h1 p0.1 _ (by positivity)).mono ?_ le_rfl
        refine (Real.rpow_le_rpow_of_exponent_le h1 p0.2).trans ?_
        rw [← Real.sqrt_eq_rpow]; exact (sqrt_step r h1 h2).2.1
      have Q := ((sqs (Z3 ey)).mul P).scale s st.pos
      simp only [sq] at Q
      simp only [mul_assoc] at Q ⊢
      exact Q.mono (by norm_num) (by norm_num)
    · -- from the extrapolation to the scaled protons
      rw [if_neg c']
      rw [ionY_low hS.iz0] at c c'
      rw [not_le] at c'
      obtain ⟨s, s', hs, hs', st⟩ := cross_step b hS hT hvf x r hx h1 h2 c c'
      rw [hs, hs']
      refine ⟨_, _, rfl, rfl, ?_, fun hc => absurd hc n96, fun hc => absurd hc n10⟩
      have Q := (st.mul (sqs Z1)).mono (u' := 1.36) (d' := 1.36) (by norm_num) (by norm_num)
      have e : s * (ionZeta pZ tZ iz lam vf x * pZ) * (ionZeta pZ tZ iz lam vf x * pZ) *
          (1000 * x / (25 * ionVmin iz vf * ionVmin iz vf)) ^ ionPow pZ tZ =
          s * (1000 * x / (25 * ionVmin iz vf * ionVmin iz vf)) ^ ionPow pZ tZ * (ionZeta pZ tZ iz lam vf x * pZ) ^ 2 := by ring
      show Step 1.36 1.36 (s * (ionZeta pZ tZ iz lam vf x * pZ) * (ionZeta pZ tZ iz lam vf x * pZ) *
          (1000 * x / (25 * ionVmin iz vf * ionVmin iz vf)) ^ ionPow pZ tZ) _
      rw [e]
      exact Q
  · have c' : ¬ ionY iz vf (r * x) ≤ max 0.13 (iz * iz) := fun hc => c (y1.trans hc)
    rw [if_neg c, if_neg c']
    obtain ⟨s, s', hs, hs', st, st'⟩ := proton_step b tZ hT x r hx h1 h2
    rw [hs, hs']
    refine ⟨_, _, rfl, rfl, ?_, fun h96 => ?_, fun h10 => ?_⟩
    · exact (st.mul (sqs Z1)).mono (by norm_num) (by norm_num)
    · exact (st.mul (sqs (Z2 (high h96).2))).mono (by norm_num) (by norm_num)
    · exact ((st' h10).mul (sqs (Z2 (high (by norm_num; linarith)).2))).mono (by norm_num) (by norm_num)

end Catima
