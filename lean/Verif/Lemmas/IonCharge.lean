import Verif.Lemmas.IonScreening
import Mathlib.Tactic.IntervalCases

/-!
# Helper lemmas: the effective charge of heavy ions over one step of the energy table
-/

namespace Catima

/-- The screening part of the charge for the screening length `l` and the Fermi velocity `vf`. -/
noncomputable def scrM (vf l : ℝ) : ℝ := 1 / (2 * (vf * vf)) * Real.log (1 + (4 * l * vf / 1.919) ^ 2)

theorem scrM_nonneg (vf l : ℝ) : 0 ≤ scrM vf l := by
  unfold scrM
  exact mul_nonneg (div_nonneg zero_le_one (by nlinarith [mul_self_nonneg vf])) (Real.log_nonneg (by nlinarith [sq_nonneg (4 * l * vf / 1.919)]))

theorem scrM_mono (vf l l' : ℝ) (h0 : 0 ≤ l) (h : l ≤ l') (hv : 0 < vf) : scrM vf l ≤ scrM vf l' := by
  unfold scrM
  refine mul_le_mul_of_nonneg_left (Real.log_le_log (by positivity) ?_) (by positivity)
  gcongr

theorem scrM_diff (vf l l' : ℝ) (h0 : 0 ≤ l) (h : l ≤ l') (hv : 0 < vf) : scrM vf l' - scrM vf l ≤ 2.1725 * (l' ^ 2 - l ^ 2) := by
  unfold scrM
  set k := 4 * vf / 1.919 with hk
  have e : ∀ x : ℝ, 4 * x * vf / 1.919 = k * x := fun x => by rw [hk]; ring
  rw [e, e, ← mul_sub, ← Real.log_div (by positivity) (by positivity)]
  have h1 := Real.log_le_sub_one_of_pos (x := (1 + (k * l') ^ 2) / (1 + (k * l) ^ 2)) (by positivity)
  have h2 : (1 + (k * l') ^ 2) / (1 + (k * l) ^ 2) - 1 ≤ (k * l') ^ 2 - (k * l) ^ 2 := by
    rw [div_sub_one (by positivity), div_le_iff₀ (by positivity)]
    have hkk : 0 ≤ k * l := by positivity
    have : k * l ≤ k * l' := mul_le_mul_of_nonneg_left h (by positivity)
    have p1 : 0 ≤ (k * l') ^ 2 - (k * l) ^ 2 := by nlinarith
    nlinarith [mul_nonneg p1 (sq_nonneg (k * l))]
  calc _ ≤ 1 / (2 * (vf * vf)) * ((k * l') ^ 2 - (k * l) ^ 2) := mul_le_mul_of_nonneg_left (h1.trans h2) (by positivity)
    _ = (16 / (2 * 1.919 ^ 2)) * (l' ^ 2 - l ^ 2) := by rw [hk]; field_simp; ring
    _ ≤ _ := mul_le_mul_of_nonneg_right (by norm_num) (by nlinarith)

theorem scrM_le (vf l : ℝ) (h0 : 0 ≤ l) (hv : 0 < vf) : scrM vf l ≤ 2.1725 * l ^ 2 := by
  have := scrM_diff vf 0 l le_rfl h0 hv
  have z : scrM vf 0 = 0 := by simp [scrM]
  rw [z] at this
  linarith

theorem scrM_ratio (vf l l' t : ℝ) (h0 : 0 ≤ l) (t0 : 0 ≤ t) (t1 : t ≤ 1) (h : t * l ≤ l') (hv : 0 < vf) : t ^ 2 * scrM vf l ≤ scrM vf l' := by
  refine le_trans ?_ (scrM_mono vf (t * l) l' (by positivity) h hv)
  unfold scrM
  have e : (4 * (t * l) * vf / 1.919) ^ 2 = t ^ 2 * (4 * l * vf / 1.919) ^ 2 := by ring
  rw [e]
  have b := rpow_one_add_le_one_add_mul_self (s := (4 * l * vf / 1.919) ^ 2) (by nlinarith [sq_nonneg (4 * l * vf / 1.919)])
    (p := t ^ 2) (by positivity) (by nlinarith)
  have b2 := Real.log_le_log (by positivity) b
  rw [Real.log_rpow (by positivity)] at b2
  have : 0 ≤ 1 / (2 * (vf * vf)) := by positivity
  calc _ = 1 / (2 * (vf * vf)) * (t ^ 2 * Real.log (1 + (4 * l * vf / 1.919) ^ 2)) := by ring
    _ ≤ _ := mul_le_mul_of_nonneg_left b2 this

theorem scrM_low (vf l k : ℝ) (hv : 0 < vf) (hv' : vf ≤ 1.29) (k0 : 0 ≤ k) (k1 : k ≤ 0.8) (h : 0.2195 * k ≤ l) : 0.0941 * k ^ 2 ≤ scrM vf l := by
  refine le_trans ?_ (scrM_mono vf (0.2195 * k) l (by positivity) h hv)
  unfold scrM
  set u := (4 * (0.2195 * k) * vf / 1.919) ^ 2 with hu
  have u0 : 0 ≤ u := by positivity
  have hw : 0 ≤ k * vf ∧ k * vf ≤ 0.8 * 1.29 := ⟨by positivity, mul_le_mul k1 hv' hv.le (by norm_num)⟩
  have u1 : u ≤ 0.2232 := by
    have e : u = (4 * 0.2195 / 1.919 * (k * vf)) ^ 2 := by rw [hu]; ring
    rw [e]
    have := pow_le_pow_left₀ (by positivity) (mul_le_mul_of_nonneg_left hw.2 (show (0 : ℝ) ≤ 4 * 0.2195 / 1.919 by norm_num)) 2
    refine this.trans (by norm_num)
  have l1 := Real.le_log_one_add_of_nonneg u0
  have l2 : u / 1.1116 ≤ 2 * u / (u + 2) := by
    rw [div_le_div_iff₀ (by norm_num) (by positivity)]
    norm_num at u1 ⊢
    nlinarith
  calc 0.0941 * k ^ 2 ≤ 1 / (2 * (vf * vf)) * (u / 1.1116) := by
        have e : 1 / (2 * (vf * vf)) * (u / 1.1116) = (16 * 0.2195 ^ 2 / (2 * 1.919 ^ 2 * 1.1116)) * k ^ 2 := by
          rw [hu]; field_simp; ring
        rw [e]
        exact mul_le_mul_of_nonneg_right (by norm_num) (by positivity)
    _ ≤ _ := mul_le_mul_of_nonneg_left (l2.trans l1) (by positivity)

/-- What the tables give for the charge of an ion `pZ` in a target with the Fermi velocity `vf`. -/
structure ScreenIn (pZ : Int) (iz lam vf : ℝ) : Prop where
  three : 3 ≤ pZ
  iz0 : 0 < iz
  cube : pZ * iz ^ 3 = 1
  lam0 : 0.81 ≤ lam
  lam1 : lam ≤ 1.2
  prod : 0.2195 ≤ lam * iz
  vf0 : 0 < vf
  vf1 : vf ≤ 1.29
  mid : 24 ≤ pZ → pZ ≤ 25 → 0.91 ≤ lam
  mid' : 26 ≤ pZ → pZ ≤ 27 → 0.88 ≤ lam

/-- The screening length. -/
noncomputable def scrL (pZ : Int) (iz lam q : ℝ) : ℝ :=
  max (hiL1 (pZ : ℝ) q iz) ((0.8 - q * min 1.2 (0.6 + (pZ : ℝ) / 30)) * iz * lam)

/-- The charge (relative to the nuclear charge) without the Gaussian factor. -/
noncomputable def zeta0 (pZ : Int) (iz lam vf q : ℝ) : ℝ := q + (1 - q) * scrM vf (scrL pZ iz lam q)

theorem ScreenIn.iz1 {pZ iz lam vf} (h : ScreenIn pZ iz lam vf) : iz ≤ 0.6935 := by
  by_contra hc
  rw [not_le] at hc
  have h3 : (3 : ℝ) ≤ pZ := by exact_mod_cast h.three
  have := pow_lt_pow_left₀ hc (by norm_num) (n := 3) (by norm_num)
  have e := h.cube
  have : (3 : ℝ) * 0.6935 ^ 3 < pZ * iz ^ 3 := by
    have := h.iz0
    nlinarith [pow_pos this 3]
  rw [e] at this
  norm_num at this

theorem slope_c (pZ : Int) (h : 3 ≤ pZ) : 0.7 ≤ min 1.2 (0.6 + (pZ : ℝ) / 30) ∧ min 1.2 (0.6 + (pZ : ℝ) / 30) ≤ 1.2 := by
  have h3 : (3 : ℝ) ≤ pZ := by exact_mod_cast h
  exact ⟨le_min (by norm_num) (by norm_num; linarith), min_le_left _ _⟩

theorem scrL_bounds {pZ iz lam vf} (h : ScreenIn pZ iz lam vf) (q : ℝ) (h0 : 0 ≤ q) (h1 : q ≤ 1) :
    0 ≤ scrL pZ iz lam q ∧ scrL pZ iz lam q ≤ 0.666 ∧ scrM vf (scrL pZ iz lam q) ≤ 0.965 := by
  obtain ⟨a1, a2⟩ := hiL1_bounds pZ h.three iz q h.iz0 h1
  obtain ⟨b0, b1, b2⟩ := bL_bounds pZ iz h.iz0
  obtain ⟨c0, c1⟩ := slope_c pZ h.three
  have iz1 := h.iz1
  have k : scrL pZ iz lam q ≤ 0.666 := by
    unfold scrL
    refine max_le ?_ ?_
    · norm_num at *; linarith
    · have i0 := h.iz0
      have l0 := h.lam0
      have l1 := h.lam1
      have lp : 0 ≤ lam := le_trans (by norm_num) l0
      have e1 : iz * lam ≤ 0.6935 * 1.2 := mul_le_mul iz1 l1 lp (by norm_num)
      have e2 : (0.8 - q * min 1.2 (0.6 + (pZ : ℝ) / 30)) * (iz * lam) ≤ 0.8 * (iz * lam) := by
        refine mul_le_mul_of_nonneg_right ?_ (by positivity)
        have : 0 ≤ q * min 1.2 (0.6 + (pZ : ℝ) / 30) := mul_nonneg h0 (le_trans (by norm_num) c0)
        linarith
      rw [mul_assoc]
      norm_num at *
      linarith
  have k0 : 0 ≤ scrL pZ iz lam q := a1.trans (le_max_left _ _)
  refine ⟨k0, k, (scrM_le vf _ k0 h.vf0).trans ?_⟩
  have := pow_le_pow_left₀ k0 k 2
  norm_num at this ⊢
  linarith

/-- Bound of the squared inverse cube root. -/
theorem ScreenIn.sq_le {pZ iz lam vf} (h : ScreenIn pZ iz lam vf) (u : ℝ) (hu : 0 ≤ u) (hu' : 1 ≤ u ^ 3 * (pZ : ℝ) ^ 2) : iz ^ 2 ≤ u := by
  by_contra hc
  rw [not_le] at hc
  have p := pow_lt_pow_left₀ hc hu (n := 3) (by norm_num)
  have z3 : (3 : ℝ) ≤ pZ := by exact_mod_cast h.three
  have e : (iz ^ 2) ^ 3 * (pZ : ℝ) ^ 2 = 1 := by
    have := congrArg (· ^ 2) h.cube
    simp only [one_pow] at this
    rw [← this]; ring
  have : u ^ 3 * (pZ : ℝ) ^ 2 < (iz ^ 2) ^ 3 * (pZ : ℝ) ^ 2 := mul_lt_mul_of_pos_right p (by positivity)
  linarith

/-- Bounds of the squared screening length over the slope of its rise. -/
theorem rise_bound {pZ iz lam vf} (h : ScreenIn pZ iz lam vf) (h25 : pZ ≤ 25) :
    bL pZ iz ^ 2 ≤ (if pZ ≤ 23 then 0.1838 else 0.2885) * (0.9 - 0.025 * (pZ : ℝ) - 0.2000001) := by
  have h3 := h.three
  have key : ∀ u B : ℝ, 0 ≤ u → 1 ≤ u ^ 3 * (pZ : ℝ) ^ 2 → (min 0.43 (max 0.32 (0.12 + 0.025 * (pZ : ℝ)))) ^ 2 * u ≤ B → bL pZ iz ^ 2 ≤ B := by
    intro u B hu hu' hB
    unfold bL
    rw [mul_pow]
    exact (mul_le_mul_of_nonneg_left (h.sq_le u hu hu') (sq_nonneg _)).trans hB
  interval_cases pZ
  all_goals norm_num at key ⊢
  · exact key 0.4808 _ (by norm_num) (by norm_num) (by norm_num)
  · exact key 0.3970 _ (by norm_num) (by norm_num) (by norm_num)
  · exact key 0.3421 _ (by norm_num) (by norm_num) (by norm_num)
  · exact key 0.3029 _ (by norm_num) (by norm_num) (by norm_num)
  · exact key 0.2733 _ (by norm_num) (by norm_num) (by norm_num)
  · exact key 0.2501 _ (by norm_num) (by norm_num) (by norm_num)
  · exact key 0.2312 _ (by norm_num) (by norm_num) (by norm_num)
  · exact key 0.2155 _ (by norm_num) (by norm_num) (by norm_num)
  · exact key 0.2023 _ (by norm_num) (by norm_num) (by norm_num)
  · exact key 0.1909 _ (by norm_num) (by norm_num) (by norm_num)
  · exact key 0.1810 _ (by norm_num) (by norm_num) (by norm_num)
  · exact key 0.1723 _ (by norm_num) (by norm_num) (by norm_num)
  · exact key 0.1645 _ (by norm_num) (by norm_num) (by norm_num)
  · exact key 0.1576 _ (by norm_num) (by norm_num) (by norm_num)
  · exact key 0.1514 _ (by norm_num) (by norm_num) (by norm_num)
  · exact key 0.1457 _ (by norm_num) (by norm_num) (by norm_num)
  · exact key 0.1405 _ (by norm_num) (by norm_num) (by norm_num)
  · exact key 0.1358 _ (by norm_num) (by norm_num) (by norm_num)
  · exact key 0.1314 _ (by norm_num) (by norm_num) (by norm_num)
  · exact key 0.1274 _ (by norm_num) (by norm_num) (by norm_num)
  · exact key 0.1237 _ (by norm_num) (by norm_num) (by norm_num)
  · exact key 0.1202 _ (by norm_num) (by norm_num) (by norm_num)
  · exact key 0.1170 _ (by norm_num) (by norm_num) (by norm_num)

theorem zeta0_low {pZ iz lam vf} (h : ScreenIn pZ iz lam vf) (q : ℝ) (h0 : 0 ≤ q) (h1 : q ≤ 1) :
    q ≤ zeta0 pZ iz lam vf q ∧ (q ≤ 0.5 → q + (1 - q) * (0.0941 * (0.8 - 1.2 * q) ^ 2) ≤ zeta0 pZ iz lam vf q) ∧ 0 < zeta0 pZ iz lam vf q := by
  have m0 := scrM_nonneg vf (scrL pZ iz lam q)
  have a : q ≤ zeta0 pZ iz lam vf q := by
    unfold zeta0
    have := mul_nonneg (sub_nonneg.mpr h1) m0
    linarith
  have b : q ≤ 0.5 → q + (1 - q) * (0.0941 * (0.8 - 1.2 * q) ^ 2) ≤ zeta0 pZ iz lam vf q := by
    intro hq
    unfold zeta0
    refine add_le_add le_rfl (mul_le_mul_of_nonneg_left ?_ (by linarith))
    refine scrM_low vf _ (0.8 - 1.2 * q) h.vf0 h.vf1 (by norm_num at hq ⊢; linarith) (by linarith) ?_
    refine le_trans ?_ (le_max_right _ _)
    obtain ⟨c0, c1⟩ := slope_c pZ h.three
    have p : 0 ≤ iz * lam := by rw [mul_comm]; exact le_trans (by norm_num) h.prod
    have e1 : (0.8 - 1.2 * q) * (iz * lam) ≤ (0.8 - q * min 1.2 (0.6 + (pZ : ℝ) / 30)) * (iz * lam) := by
      refine mul_le_mul_of_nonneg_right ?_ p
      have := mul_le_mul_of_nonneg_left c1 h0
      linarith
    have e2 : (0.8 - 1.2 * q) * 0.2195 ≤ (0.8 - 1.2 * q) * (iz * lam) :=
      mul_le_mul_of_nonneg_left (by rw [mul_comm iz]; exact h.prod) (by norm_num at hq ⊢; linarith)
    rw [mul_assoc]
    linarith
  refine ⟨a, b, ?_⟩
  by_cases hq : q ≤ 0
  · have e : q = 0 := le_antisymm hq h0
    have := b (by rw [e]; norm_num)
    rw [e] at this ⊢
    norm_num at this
    linarith
  · linarith [not_le.mp hq]

/-- The rise of the charge is at most `1.64` (or `1.92`) times the rise of the ionisation level. -/
theorem zeta0_rise {pZ iz lam vf} (h : ScreenIn pZ iz lam vf) (q q' : ℝ) (h0 : 0 ≤ q) (hq : q ≤ q') (h1 : q' ≤ 1) :
    zeta0 pZ iz lam vf q' - zeta0 pZ iz lam vf q ≤ q' - q ∨
    (0.2 ≤ q ∧ zeta0 pZ iz lam vf q' - zeta0 pZ iz lam vf q ≤ 1.64 * (q' - q)) ∨
    (0.27 ≤ q ∧ q ≤ 0.4 ∧ zeta0 pZ iz lam vf q' - zeta0 pZ iz lam vf q ≤ 1.92 * (q' - q)) := by
  obtain ⟨a1, a2, a3⟩ := scrL_bounds h q h0 (hq.trans h1)
  obtain ⟨a1', a2', a3'⟩ := scrL_bounds h q' (h0.trans hq) h1
  obtain ⟨c0, c1⟩ := slope_c pZ h.three
  obtain ⟨b0, b1, b2⟩ := bL_bounds pZ iz h.iz0
  obtain ⟨p1, p2⟩ := hiL1_bounds pZ h.three iz q h.iz0 (hq.trans h1)
  obtain ⟨p1', p2'⟩ := hiL1_bounds pZ h.three iz q' h.iz0 h1
  have m0' := scrM_nonneg vf (scrL pZ iz lam q')
  have diff : zeta0 pZ iz lam vf q' - zeta0 pZ iz lam vf q ≤ (q' - q) + (1 - q) * (scrM vf (scrL pZ iz lam q') - scrM vf (scrL pZ iz lam q)) := by
    unfold zeta0
    nlinarith [mul_nonneg (sub_nonneg.mpr hq) m0']
  by_cases hl : scrL pZ iz lam q' ≤ scrL pZ iz lam q
  · left
    have := scrM_mono vf _ _ a1' hl h.vf0
    have := mul_nonneg (show 0 ≤ 1 - q by linarith) (sub_nonneg.mpr this)
    linarith
  rw [not_le] at hl
  right
  have i0 := h.iz0
  have lp : 0 < lam := lt_of_lt_of_le (by norm_num) h.lam0
  have l0mono : (0.8 - q' * min 1.2 (0.6 + (pZ : ℝ) / 30)) * iz * lam ≤ (0.8 - q * min 1.2 (0.6 + (pZ : ℝ) / 30)) * iz * lam := by
    have : q * min 1.2 (0.6 + (pZ : ℝ) / 30) ≤ q' * min 1.2 (0.6 + (pZ : ℝ) / 30) := mul_le_mul_of_nonneg_right hq (le_trans (by norm_num) c0)
    gcongr
  have l2 : (0.8 - q * min 1.2 (0.6 + (pZ : ℝ) / 30)) * iz * lam ≤ scrL pZ iz lam q := le_max_right _ _
  have l3 : hiL1 (pZ : ℝ) q iz ≤ scrL pZ iz lam q := le_max_left _ _
  have e' : scrL pZ iz lam q' = hiL1 (pZ : ℝ) q' iz := by
    unfold scrL
    refine max_eq_left ?_
    by_contra hc
    rw [not_le] at hc
    have : scrL pZ iz lam q' = (0.8 - q' * min 1.2 (0.6 + (pZ : ℝ) / 30)) * iz * lam := max_eq_right hc.le
    linarith
  rw [e'] at hl a1' a2' diff
  -- the ionisation level where the length may grow
  have grow : ∀ k, k ≤ lam → (0.8 - 1.2 * q) * k < 0.430005 ∨ 0.8 - 1.2 * q < 0 := by
    intro k hk
    by_cases hn : 0.8 - 1.2 * q < 0
    · exact Or.inr hn
    · left
      rw [not_lt] at hn
      have g1 : (0.8 - 1.2 * q) * k ≤ (0.8 - q * min 1.2 (0.6 + (pZ : ℝ) / 30)) * lam := by
        have := mul_le_mul_of_nonneg_left c1 h0
        exact (mul_le_mul_of_nonneg_left hk hn).trans (mul_le_mul_of_nonneg_right (by linarith) lp.le)
      have g2 : (0.8 - q * min 1.2 (0.6 + (pZ : ℝ) / 30)) * lam * iz < 0.430005 * iz := by
        have : (0.8 - q * min 1.2 (0.6 + (pZ : ℝ) / 30)) * lam * iz = (0.8 - q * min 1.2 (0.6 + (pZ : ℝ) / 30)) * iz * lam := by ring
        norm_num at *
        linarith
      exact lt_of_le_of_lt g1 (lt_of_mul_lt_mul_right g2 i0.le)
  have q2 : 0.2 ≤ q := by
    by_contra hc
    rw [not_le] at hc
    rcases grow 0.81 h.lam0 with g | g <;> norm_num at g hc <;> linarith
  obtain ⟨p27, qr, rise⟩ := hiL1_up pZ h.three iz q q' h.iz0 hq h1 q2 (lt_of_le_of_lt l3 hl)
  have p25 : pZ ≤ 25 := by
    by_contra hc
    have h26 : 26 ≤ pZ := by omega
    have hz : (26 : ℝ) ≤ pZ := by exact_mod_cast h26
    rcases grow 0.88 (h.mid' h26 p27) with g | g <;> norm_num at g qr <;> linarith
  have rb := rise_bound h p25
  have d1 : 0 < 0.9 - 0.025 * (pZ : ℝ) - 0.2000001 := by
    have : (pZ : ℝ) ≤ 25 := by exact_mod_cast p25
    norm_num
    linarith
  have md := scrM_diff vf (hiL1 (pZ : ℝ) q iz) (hiL1 (pZ : ℝ) q' iz) p1 (l3.trans hl.le) h.vf0
  have mm := scrM_mono vf _ _ p1 l3 h.vf0
  -- the bound by the slope
  have sl : ∀ B, bL pZ iz ^ 2 ≤ B * (0.9 - 0.025 * (pZ : ℝ) - 0.2000001) → 0 ≤ B →
      scrM vf (hiL1 (pZ : ℝ) q' iz) - scrM vf (scrL pZ iz lam q) ≤ 4.3452 * B * (q' - q) := by
    intro B hB B0
    have r1 : (hiL1 (pZ : ℝ) q' iz) ^ 2 - (hiL1 (pZ : ℝ) q iz) ^ 2 ≤ bL pZ iz * (q' - q) / (0.9 - 0.025 * (pZ : ℝ) - 0.2000001) * (2.00002 * bL pZ iz) := by
      have e : (hiL1 (pZ : ℝ) q' iz) ^ 2 - (hiL1 (pZ : ℝ) q iz) ^ 2 = (hiL1 (pZ : ℝ) q' iz - hiL1 (pZ : ℝ) q iz) * (hiL1 (pZ : ℝ) q' iz + hiL1 (pZ : ℝ) q iz) := by ring
      rw [e]
      refine mul_le_mul rise ?_ (add_nonneg p1' p1) (div_nonneg (mul_nonneg b2.le (by linarith)) d1.le)
      norm_num at p2 p2' ⊢
      linarith
    have r2 : bL pZ iz * (q' - q) / (0.9 - 0.025 * (pZ : ℝ) - 0.2000001) * (2.00002 * bL pZ iz) ≤ 2.00002 * B * (q' - q) := by
      rw [div_mul_eq_mul_div, div_le_iff₀ d1]
      have := mul_le_mul_of_nonneg_right hB (mul_nonneg (show (0 : ℝ) ≤ 2.00002 by norm_num) (sub_nonneg.mpr hq))
      calc _ = bL pZ iz ^ 2 * (2.00002 * (q' - q)) := by ring
        _ ≤ _ := this
        _ = _ := by ring
    have r3 : 0 ≤ B * (q' - q) := mul_nonneg B0 (by linarith)
    norm_num at md r1 r2 ⊢
    linarith
  by_cases p23 : pZ ≤ 23
  · left
    rw [if_pos p23] at rb
    have s1 := sl _ rb (by norm_num)
    refine ⟨q2, ?_⟩
    have s2 : (1 - q) * (scrM vf (hiL1 (pZ : ℝ) q' iz) - scrM vf (scrL pZ iz lam q)) ≤ 0.8 * (4.3452 * 0.1838 * (q' - q)) := by
      refine (mul_le_mul_of_nonneg_left s1 (by linarith)).trans (mul_le_mul_of_nonneg_right (by norm_num at q2 ⊢; linarith) ?_)
      exact mul_nonneg (by norm_num) (by linarith)
    norm_num at s2 ⊢
    linarith
  · right
    rw [if_neg p23] at rb
    have s1 := sl _ rb (by norm_num)
    have q27 : 0.27 ≤ q := by
      by_contra hc
      rw [not_le] at hc
      rcases grow 0.91 (h.mid (by omega) p25) with g | g <;> norm_num at g hc <;> linarith
    have q4 : q ≤ 0.4 := by
      have : (24 : ℝ) ≤ pZ := by
        have : 24 ≤ pZ := by omega
        exact_mod_cast this
      norm_num at qr ⊢
      linarith
    refine ⟨q27, q4, ?_⟩
    have s2 : (1 - q) * (scrM vf (hiL1 (pZ : ℝ) q' iz) - scrM vf (scrL pZ iz lam q)) ≤ 0.73 * (4.3452 * 0.2885 * (q' - q)) := by
      refine (mul_le_mul_of_nonneg_left s1 (by linarith)).trans (mul_le_mul_of_nonneg_right (by norm_num at q27 ⊢; linarith) ?_)
      exact mul_nonneg (by norm_num) (by linarith)
    norm_num at s2 ⊢
    linarith

theorem zeta0_up {pZ iz lam vf} (h : ScreenIn pZ iz lam vf) (q q' : ℝ) (h0 : 0 ≤ q) (hq : q ≤ q') (h1 : q' ≤ 1)
    (hd : q' - q ≤ 0.0078) (hd' : q' - q ≤ 0.0033 + 0.018 * q) :
    zeta0 pZ iz lam vf q' ≤ 1.0585 * zeta0 pZ iz lam vf q ∧ (0.5 ≤ q → zeta0 pZ iz lam vf q' ≤ 1.029 * zeta0 pZ iz lam vf q) := by
  obtain ⟨a, b, c⟩ := zeta0_low h q h0 (hq.trans h1)
  have first : q' - q ≤ 0.0585 * zeta0 pZ iz lam vf q := by
    by_cases hc : q ≤ 0.25
    · have b' := b (by norm_num at hc ⊢; linarith)
      have e : (1 - q) * (0.0941 * (0.8 - 1.2 * q) ^ 2) ≥ 0.0941 * (0.64 - 2.56 * q) := by
        have : (1 - q) * (0.8 - 1.2 * q) ^ 2 - (0.64 - 2.56 * q) = q ^ 2 * (3.36 - 1.44 * q) := by ring
        have p : 0 ≤ q ^ 2 * (3.36 - 1.44 * q) := mul_nonneg (sq_nonneg q) (by norm_num at hc ⊢; linarith)
        norm_num at this p ⊢
        linarith
      norm_num at *
      linarith
    · norm_num at *; linarith
  rcases zeta0_rise h q q' h0 hq h1 with r | ⟨g, r⟩ | ⟨g, g', r⟩
  · exact ⟨by norm_num at *; linarith, fun h5 => by norm_num at *; linarith⟩
  · refine ⟨?_, fun h5 => by norm_num at *; linarith⟩
    by_cases hc : q ≤ 0.25
    · norm_num at *; linarith
    · norm_num at *; linarith
  · exact ⟨by norm_num at *; linarith, fun h5 => by norm_num at *; linarith⟩

set_option maxHeartbeats 1000000 in
theorem zeta0_down {pZ iz lam vf} (h : ScreenIn pZ iz lam vf) (q q' : ℝ) (h0 : 0 ≤ q) (hq : q ≤ q') (h1 : q' ≤ 1)
    (hd : q' - q ≤ 0.0078) :
    zeta0 pZ iz lam vf q ≤ 1.0515 * zeta0 pZ iz lam vf q' ∧ (0.5 ≤ q → zeta0 pZ iz lam vf q ≤ 1.0145 * zeta0 pZ iz lam vf q') := by
  obtain ⟨a1, a2, a3⟩ := scrL_bounds h q h0 (hq.trans h1)
  obtain ⟨a1', a2', a3'⟩ := scrL_bounds h q' (h0.trans hq) h1
  obtain ⟨c0, c1⟩ := slope_c pZ h.three
  obtain ⟨b0, b1, b2⟩ := bL_bounds pZ iz h.iz0
  obtain ⟨p1, p2⟩ := hiL1_bounds pZ h.three iz q h.iz0 (hq.trans h1)
  obtain ⟨p1', p2'⟩ := hiL1_bounds pZ h.three iz q' h.iz0 h1
  obtain ⟨a', -, c'⟩ := zeta0_low h q' (h0.trans hq) h1
  have m0' := scrM_nonneg vf (scrL pZ iz lam q')
  have m0 := scrM_nonneg vf (scrL pZ iz lam q)
  have i0 := h.iz0
  have lp : 0 < lam := lt_of_lt_of_le (by norm_num) h.lam0
  have low : q + (1 - q) * scrM vf (scrL pZ iz lam q') ≤ zeta0 pZ iz lam vf q' := by
    unfold zeta0
    norm_num at a3'
    nlinarith [mul_nonneg (sub_nonneg.mpr hq) (show 0 ≤ 1 - scrM vf (scrL pZ iz lam q') by linarith)]
  have el : zeta0 pZ iz lam vf q = q + (1 - q) * scrM vf (scrL pZ iz lam q) := rfl
  by_cases hl : scrL pZ iz lam q ≤ scrL pZ iz lam q'
  · have := scrM_mono vf _ _ a1 hl h.vf0
    have := mul_le_mul_of_nonneg_left this (show 0 ≤ 1 - q by linarith)
    exact ⟨by norm_num at *; linarith, fun _ => by norm_num at *; linarith⟩
  rw [not_le] at hl
  obtain ⟨d1, d2⟩ := hiL1_down pZ h.three iz q q' h.iz0 hq h1 hd
  have l2' : (0.8 - q' * min 1.2 (0.6 + (pZ : ℝ) / 30)) * iz * lam ≤ scrL pZ iz lam q' := le_max_right _ _
  have l3' : hiL1 (pZ : ℝ) q' iz ≤ scrL pZ iz lam q' := le_max_left _ _
  by_cases q35 : q ≤ 0.35
  · have ratio : 0.9753 * scrL pZ iz lam q ≤ scrL pZ iz lam q' := by
      rcases max_choice (hiL1 (pZ : ℝ) q iz) ((0.8 - q * min 1.2 (0.6 + (pZ : ℝ) / 30)) * iz * lam) with e | e
      · have e : scrL pZ iz lam q = hiL1 (pZ : ℝ) q iz := e
        rw [e]
        have := d1 q35
        norm_num at *
        linarith
      · have e : scrL pZ iz lam q = (0.8 - q * min 1.2 (0.6 + (pZ : ℝ) / 30)) * iz * lam := e
        rw [e]
        refine le_trans ?_ l2'
        rw [mul_assoc _ iz, mul_assoc _ iz, ← mul_assoc]
        refine mul_le_mul_of_nonneg_right ?_ (by positivity)
        have e1 : q' * min 1.2 (0.6 + (pZ : ℝ) / 30) ≤ (q + 0.0078) * min 1.2 (0.6 + (pZ : ℝ) / 30) :=
          mul_le_mul_of_nonneg_right (by linarith) (le_trans (by norm_num) c0)
        have e2 : q * min 1.2 (0.6 + (pZ : ℝ) / 30) ≤ 0.35 * 1.2 := mul_le_mul q35 c1 (le_trans (by norm_num) c0) (by norm_num)
        generalize min 1.2 (0.6 + (pZ : ℝ) / 30) = k at *
        norm_num at *
        linarith
    have mr := scrM_ratio vf _ _ 0.9753 a1 (by norm_num) (by norm_num) ratio h.vf0
    have := mul_le_mul_of_nonneg_left mr (show 0 ≤ 1 - q by linarith)
    refine ⟨?_, fun h5 => by norm_num at h5 q35; linarith⟩
    rw [el]
    have p := mul_nonneg (show 0 ≤ 1 - q by linarith) m0
    norm_num at this low ⊢
    nlinarith
  rw [not_le] at q35
  have md := scrM_diff vf _ _ a1' hl.le h.vf0
  have main : (1 - q) * ((scrL pZ iz lam q) ^ 2 - (scrL pZ iz lam q') ^ 2) ≤ 0.0071 / 2.1725 := by
    have f : (1 - q) * ((scrL pZ iz lam q) ^ 2 - (scrL pZ iz lam q') ^ 2) ≤ (1 - q) * (scrL pZ iz lam q - scrL pZ iz lam q') * (2 * scrL pZ iz lam q) := by
      have e : (scrL pZ iz lam q) ^ 2 - (scrL pZ iz lam q') ^ 2 = (scrL pZ iz lam q - scrL pZ iz lam q') * (scrL pZ iz lam q + scrL pZ iz lam q') := by ring
      rw [e, mul_assoc]
      refine mul_le_mul_of_nonneg_left (mul_le_mul_of_nonneg_left (by linarith) (by linarith)) (by linarith)
    refine f.trans ?_
    rcases max_choice (hiL1 (pZ : ℝ) q iz) ((0.8 - q * min 1.2 (0.6 + (pZ : ℝ) / 30)) * iz * lam) with e | e
    · have e : scrL pZ iz lam q = hiL1 (pZ : ℝ) q iz := e
      rw [e]
      have iz1 := h.iz1
      have g1 : (1 - q) * (hiL1 (pZ : ℝ) q iz - scrL pZ iz lam q') ≤ 0.0087 * (0.43 * 0.6935) := by
        have : (1 - q) * (hiL1 (pZ : ℝ) q iz - scrL pZ iz lam q') ≤ (1 - q) * (hiL1 (pZ : ℝ) q iz - hiL1 (pZ : ℝ) q' iz) :=
          mul_le_mul_of_nonneg_left (by linarith) (by linarith)
        norm_num at *
        linarith
      have g2 : 2 * hiL1 (pZ : ℝ) q iz ≤ 2 * (1.00001 * (0.43 * 0.6935)) := by norm_num at *; linarith
      refine (mul_le_mul g1 g2 (by positivity) (by norm_num)).trans (by norm_num)
    · have e : scrL pZ iz lam q = (0.8 - q * min 1.2 (0.6 + (pZ : ℝ) / 30)) * iz * lam := e
      rw [e]
      rw [e] at a1
      have iz1 := h.iz1
      have w0 : 0 < iz * lam := by positivity
      have w1 : (iz * lam) ^ 2 ≤ 0.6926 := by
        have e1 : iz * lam ≤ 0.6935 * 1.2 := mul_le_mul iz1 h.lam1 lp.le (by norm_num)
        exact (pow_le_pow_left₀ w0.le e1 2).trans (by norm_num)
      generalize hk : min 1.2 (0.6 + (pZ : ℝ) / 30) = k at *
      have k0 : 0 < k := lt_of_lt_of_le (by norm_num) c0
      have t0 : 0 ≤ 0.8 - q * k := by
        rw [mul_assoc] at a1
        exact nonneg_of_mul_nonneg_left a1 w0
      have g1 : (0.8 - q * k) * iz * lam - scrL pZ iz lam q' ≤ 0.0078 * k * (iz * lam) := by
        have : (0.8 - q * k) * iz * lam - (0.8 - q' * k) * iz * lam = (q' - q) * (k * (iz * lam)) := by ring
        have := mul_le_mul_of_nonneg_right hd (show 0 ≤ k * (iz * lam) by positivity)
        linarith
      have g2 : k * (0.8 - q * k) ≤ 0.4572 := by
        have : k * (0.8 - q * k) ≤ k * (0.8 - 0.35 * k) := by
          refine mul_le_mul_of_nonneg_left ?_ k0.le
          have := mul_le_mul_of_nonneg_right q35.le k0.le
          linarith
        refine this.trans ?_
        norm_num
        nlinarith [sq_nonneg (k - 1.1429)]
      have g3 : (1 - q) * ((0.8 - q * k) * iz * lam - scrL pZ iz lam q') ≤ 0.65 * (0.0078 * k * (iz * lam)) := by
        have p : 0 ≤ 0.0078 * k * (iz * lam) := by positivity
        exact (mul_le_mul_of_nonneg_left g1 (by linarith)).trans (mul_le_mul_of_nonneg_right (by norm_num at q35 ⊢; linarith) p)
      calc _ ≤ 0.65 * (0.0078 * k * (iz * lam)) * (2 * ((0.8 - q * k) * iz * lam)) :=
            mul_le_mul_of_nonneg_right g3 (by positivity)
        _ = 0.65 * 0.0078 * 2 * ((k * (0.8 - q * k)) * (iz * lam) ^ 2) := by ring
        _ ≤ 0.65 * 0.0078 * 2 * (0.4572 * 0.6926) := by
            refine mul_le_mul_of_nonneg_left (mul_le_mul g2 w1 (sq_nonneg _) (by norm_num)) (by norm_num)
        _ ≤ _ := by norm_num
  have loss : (1 - q) * (scrM vf (scrL pZ iz lam q) - scrM vf (scrL pZ iz lam q')) ≤ 0.0071 := by
    have := mul_le_mul_of_nonneg_left md (show 0 ≤ 1 - q by linarith)
    have m := main
    norm_num at this m ⊢
    linarith
  rw [el]
  refine ⟨by norm_num at *; linarith, fun h5 => ?_⟩
  norm_num at *
  linarith

end Catima
