import Verif.Props.FasterOut
import Verif.Props.Flight
import Verif.Props.NegativeEnergy
import Verif.Props.Wrapper
import Verif.Lemmas.RangeGap

/-!
# C129: magnifications are positive
-/

namespace Catima

theorem momentum_increases (A a b : ℝ) (hA : 0 < A) (ha : 0 ≤ a) (hab : a < b) : p_from_T a A < p_from_T b A := by
  have hu := amu_pos
  unfold p_from_T
  rw [sqrt_real, sqrt_real]
  refine mul_lt_mul_of_pos_right (Real.sqrt_lt_sqrt (by positivity) ?_) hA
  norm_num
  nlinarith

theorem momentum_positive (A a : ℝ) (hA : 0 < A) (ha : 0 < a) : 0 < p_from_T a A := by
  have hu := amu_pos
  unfold p_from_T
  rw [sqrt_real]
  have : 0 < √(a * (a + 2.0 * atomic_mass_unit)) := Real.sqrt_pos.mpr (by positivity)
  positivity

/-- C129: the magnifications of energy and momentum are both 0 (if one of the three ions does not leave the layer) or both
positive, after any history, if the ranges at 99 % and 101 % of the energy differ by slightly more than twice the tolerance of the
search. -/
theorem magnification_positive (env : Env ℝ) (hj : SmallJunk env.junk) (w w' v0 v0' v2 v2' : World ℝ)
    (hr : ReachableW env w) (q0 : ReachableW env v0) (q2 : ReachableW env v2) (p : Projectile ℝ) (n : Int) (t : Material ℝ) (c : Config ℝ)
    (h : UsualIon p n t c) (hk : NonDefault p t c) (hrho : 0 < t.rho) (hth : 0 < t.th) (Ein R0 R2 : ℝ) (hE : 0 < Ein)
    (hR0 : range env (p.withT (0.99 * Ein)) t c v0 = .ok (R0, v0')) (hR2 : range env (p.withT (1.01 * Ein)) t c v2 = .ok (R2, v2'))
    (hd : R0 + 2.1e-5 + 3e-10 * |R0 - t.th| ≤ R2) (m : ℝ × ℝ) (hm : w_magnification env p Ein t c w = .ok (m, w')) :
    m = (0, 0) ∨ 0 < m.1 ∧ 0 < m.2 := by
  have hA := h.computable.ion.A
  obtain ⟨e0, e1, e2, hv, hz, hp⟩ := (magnification_cases env p Ein t c w).2 hrho hth m w' hm
  by_cases hpos : 0 < e0 ∧ 0 < e1 ∧ 0 < e2
  swap
  · exact .inl (hz hpos)
  refine .inr ?_
  obtain ⟨p0, p1, p2⟩ := hpos
  obtain ⟨m1, m2⟩ := hp p0 p1 p2
  have hr' : ReachableW env w' := reachableW_call hr (.w_magnification p Ein t c) (r := .pair m.1 m.2) (by
    show (do let r ← w_magnification env p Ein t c; pure (Response.pair r.1 r.2) : Api ℝ _) w = _
    rw [api_bind]
    exact ⟨m, w', hm, rfl⟩)
  obtain ⟨-, hl⟩ := energy_out_vector env w w' hr p _ t c (key_refl_real _) _ hv
  have out : ∀ (i : Nat) T e, [0.99 * Ein, Ein, 1.01 * Ein][i]? = some T → [e0, e1, e2][i]? = some e → 0 < e →
      energy_out env (p.withT T) t c w' = .ok (e, w') := by
    intro i T e hi he h0
    obtain ⟨v, a, b, d⟩ := hl i T hi
    rw [he] at a
    cases a
    cases hT : Scalar.lt T (1.0e-3 : ℝ)
    · exact d hT
    · have := b hT
      rw [this] at h0
      norm_num at h0
  have o0 := out 0 _ e0 rfl rfl p0
  have o2 := out 2 _ e2 rfl rfl p2
  have n0 : e0 ≠ 0 ∧ e0 ≠ -1 := ⟨by linarith, by linarith⟩
  have n2 : e2 ≠ 0 ∧ e2 ≠ -1 := ⟨by linarith, by linarith⟩
  have lt := energy_out_faster env hj p n t c h hk v0 v2 w' w' v0' v2' w' w' q0 q2 hr' hr' _ _ t.th t.th R0 R2 e0 e2 hR0 hR2 o0 o2 n0 n2
    (by linarith)
  have i1 : 0.99 * Ein < Ein := by norm_num; linarith
  have i2 : 0.99 * Ein < 1.01 * Ein := by norm_num; linarith
  have g1 := momentum_increases p.A e0 e2 hA p0.le lt
  have g2 := momentum_increases p.A _ _ hA (by positivity) i2
  have g3 := momentum_positive p.A e1 hA p1
  have g4 := momentum_positive p.A Ein hA hE
  rw [m1, m2]
  exact ⟨div_pos (div_pos (by linarith) p1) (div_pos (by linarith) hE), div_pos (div_pos (by linarith) g3) (div_pos (by linarith) g4)⟩

/-- Protons of about 9 MeV in front of 1e-5 g/cm2 of hydrogen meet the hypotheses. -/
example (env : Env ℝ) (hdbg : env.debug = false) (hj : SmallJunk env.junk) (w : World ℝ) (hr : ReachableW env w) :
    ∃ Ein R0 R2 v0 v2 m w', UsualIon (slowProton Ein) 1 (hydrogenGas 1e-5) .default ∧ NonDefault (slowProton Ein) (hydrogenGas 1e-5) .default ∧
      9 ≤ Ein ∧ Ein ≤ 9.5 ∧ range env (slowProton (0.99 * Ein)) (hydrogenGas 1e-5) .default w = .ok (R0, v0) ∧
      range env (slowProton (1.01 * Ein)) (hydrogenGas 1e-5) .default w = .ok (R2, v2) ∧ R0 + 2.1e-5 + 3e-10 * |R0 - 1e-5| ≤ R2 ∧
      w_magnification env (slowProton Ein) Ein (hydrogenGas 1e-5) .default w = .ok (m, w') := by
  have hu : ∀ T th, UsualIon (slowProton T) 1 (hydrogenGas th) .default := fun T th => .inl ⟨rfl, proton_hydrogen_in T th⟩
  obtain ⟨d, s, hd, hs, hview⟩ := range_view env (slowProton 0) 1 (hydrogenGas 0) .default (hu 0 0).computable (proton_hydrogen_nonDefault 0 0)
  have ht := range_table_tame env _ 1 _ _ (hu 0 0).computable ((hu 0 0).steady env) d hd
  obtain ⟨s', hs', -, hinc⟩ := interpolant_increasing env.junk hj env.calcIndex d.range ht
  obtain ⟨a, b, ha, hb, hab⟩ := hydrogen_range_gap env d hd
  obtain ⟨d', hd', -, hz, -⟩ := range_table_strict env _ 1 _ _ (hu 0 0).computable (hu 0 0).usual
  rw [hd] at hd'
  cases hd'
  obtain ⟨s1, hs1, k1⟩ := library_knot env d.range ht.length 237 (by norm_num) a ha
  obtain ⟨s2, hs2, k2⟩ := library_knot env d.range ht.length 238 (by norm_num) b hb
  obtain ⟨s3, hs3, htot⟩ := spline_total env.junk _ _ (library_table_ordered env.calcIndex) d.range ht.length
  unfold newSpline at hs hs1 hs2
  rw [hs] at hs' hs1 hs2 hs3
  cases hs'
  cases hs1
  cases hs2
  cases hs3
  have hval : ∀ T th, ∃ R w', range env (slowProton T) (hydrogenGas th) .default w = .ok (R, w') ∧ s.evaluate T = .ok R := by
    intro T th
    obtain ⟨w', R, E, h1, -⟩ := energy_out_succeeds env hdbg w hr (slowProton T) 1 (hydrogenGas th) .default
      (hu T th).computable (proton_hydrogen_nonDefault T th)
    exact ⟨R, w', h1, (hview w hr T th).1 R w' h1⟩
  have fin : ∀ Ein, 9 ≤ Ein → Ein ≤ 9.5 → ∀ u v, s.evaluate (0.99 * Ein) = .ok u → s.evaluate (1.01 * Ein) = .ok v → 0 ≤ u → u ≤ 30 → u + 3e-5 ≤ v →
      ∃ Ein R0 R2 v0 v2 m w', UsualIon (slowProton Ein) 1 (hydrogenGas 1e-5) .default ∧ NonDefault (slowProton Ein) (hydrogenGas 1e-5) .default ∧
      9 ≤ Ein ∧ Ein ≤ 9.5 ∧ range env (slowProton (0.99 * Ein)) (hydrogenGas 1e-5) .default w = .ok (R0, v0) ∧
      range env (slowProton (1.01 * Ein)) (hydrogenGas 1e-5) .default w = .ok (R2, v2) ∧ R0 + 2.1e-5 + 3e-10 * |R0 - 1e-5| ≤ R2 ∧
      w_magnification env (slowProton Ein) Ein (hydrogenGas 1e-5) .default w = .ok (m, w') := by
    intro Ein e1 e2 u v h1 h2 u0 u1 huv
    obtain ⟨R0, v0, q1, q2⟩ := hval (0.99 * Ein) 1e-5
    obtain ⟨R2, v2, q3, q4⟩ := hval (1.01 * Ein) 1e-5
    rw [h1] at q2
    rw [h2] at q4
    cases q2
    cases q4
    obtain ⟨m, w', hm⟩ := magnification_defined env hdbg w hr (slowProton Ein) 1 Ein (hydrogenGas 1e-5) .default (hu Ein _).computable
      (proton_hydrogen_nonDefault Ein _)
    refine ⟨Ein, _, _, v0, v2, m, w', hu _ _, proton_hydrogen_nonDefault _ _, e1, e2, q1, q3, ?_, hm⟩
    have : |u - 1e-5| ≤ 31 := by rw [abs_le]; constructor <;> norm_num <;> linarith
    norm_num at this huv ⊢
    linarith
  -- two steps from 99 % to 101 % cover more than one step of the table
  obtain ⟨x1, x2⟩ := grid_237
  have hx : (energy_table : EnergyTable ℝ).val 238 = gridRatio * (energy_table : EnergyTable ℝ).val 237 := grid_geometric 237
  have hq := gridRatio_bounds
  rw [hx] at k2
  generalize (energy_table : EnergyTable ℝ).val 237 = X at *
  norm_num at x2 hq
  obtain ⟨E1, hE1⟩ : ∃ E1 : ℝ, 0.99 * E1 = X := ⟨X / 0.99, by ring⟩
  obtain ⟨E2, hE2⟩ : ∃ E2 : ℝ, 0.99 * E2 = 1.01 * E1 := ⟨1.01 * E1 / 0.99, by ring⟩
  obtain ⟨⟨v, hv⟩, -⟩ := htot (1.01 * E1)
  obtain ⟨⟨z, hz'⟩, -⟩ := htot (1.01 * E2)
  norm_num at hE1 hE2 hab
  obtain ⟨b', hb', bl⟩ := hydrogen_range_le env d hd 238 le_rfl
  rw [hb] at hb'
  cases hb'
  rw [hx] at bl
  have bl : b ≤ 20 := by nlinarith
  obtain ⟨s4, hs4, k0⟩ := library_knot env d.range ht.length 0 (by norm_num) 0 hz
  unfold newSpline at hs4
  rw [hs] at hs4
  cases hs4
  have a0 : 0 ≤ a := (hinc _ _ _ _ k0 k1 (.inl (by have := (abs_le.mp energy_table_range.2.1).2; norm_num at this ⊢; linarith))).le
  have av : a < v := hinc _ _ _ _ k1 hv (.inl (by norm_num; linarith))
  have vb : v < b := hinc _ _ _ _ hv k2 (.inl (by norm_num; nlinarith))
  by_cases c1 : a + 3e-5 ≤ v
  · exact fin E1 (by linarith) (by norm_num; linarith) a v (by rw [show 0.99 * E1 = X by norm_num; linarith]; exact k1) hv a0 (by linarith) c1
  · by_cases c2 : v + 3e-5 ≤ z
    · exact fin E2 (by linarith) (by norm_num; linarith) v z (by rw [show 0.99 * E2 = 1.01 * E1 by norm_num; linarith]; exact hv) hz' (by linarith) (by linarith) c2
    · exfalso
      have := hinc _ _ _ _ k2 hz' (.inl (by norm_num; nlinarith))
      norm_num at c1 c2
      linarith

end Catima
