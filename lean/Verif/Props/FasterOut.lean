import Verif.Lemmas.NearlyIncreasing
import Verif.Lemmas.ProtonHydrogen
import Verif.Props.EnergyOutStops
import Verif.Props.PositiveRanges

/-!
# C122: ions with more range left leave a layer with more energy
-/

namespace Catima

/-- What `energy_out` certifies about the interpolator, for results other than the codes 0 and -1. -/
theorem energy_out_spline_found {debug : Bool} {s : Spline ℝ} {T th E : ℝ} (h : energy_out_spline debug T th s = .ok E)
    (hne : E ≠ 0 ∧ E ≠ -1) : ∃ R RE, s.evaluate T = .ok R ∧ s.evaluate E = .ok RE ∧ |R - RE - th| < 1e-5 := by
  unfold energy_out_spline at h
  rw [ok_bind] at h
  obtain ⟨R, hR, h⟩ := h
  rw [ok_bind] at h
  obtain ⟨dR, hdR, h⟩ := h
  dsimp only at h
  rw [ok_ite] at h
  rcases h with ⟨_, h⟩ | ⟨hle, h⟩
  · cases h; exact absurd (by norm_num) hne.1
  rcases loop_cases h with h | h | ⟨RE, hRE, h⟩
  · exact absurd (by rw [h]; norm_num) hne.1
  · exact absurd (by rw [h]; norm_num) hne.2
  · rw [lt_real, fabs_real] at h
    exact ⟨R, RE, hR, hRE, lt_of_lt_of_eq h (by norm_num)⟩

/-- C122: of two ions of one kind in front of layers of one material, the one that has more range left behind its layer (by at
least 2e-5 g/cm2) has the higher energy behind it, whatever the energies and the thicknesses and after any histories: strictly
for the searched index (up to 9.9e6 MeV/u), up to 2e-13 MeV/u otherwise.  Results other than the codes 0 and -1. -/
theorem energy_out_ordered (env : Env ℝ) (hj : SmallJunk env.junk) (p : Projectile ℝ) (n : Int) (t : Material ℝ) (c : Config ℝ)
    (h : UsualIon p n t c) (hk : NonDefault p t c) (v1 v2 w1 w2 v1' v2' w1' w2' : World ℝ) (q1 : ReachableW env v1)
    (q2 : ReachableW env v2) (r1 : ReachableW env w1) (r2 : ReachableW env w2) (T1 T2 th1 th2 R1 R2 E1 E2 : ℝ)
    (hR1 : range env (p.withT T1) { t with th := th1 } c v1 = .ok (R1, v1'))
    (hR2 : range env (p.withT T2) { t with th := th2 } c v2 = .ok (R2, v2'))
    (hE1 : energy_out env (p.withT T1) { t with th := th1 } c w1 = .ok (E1, w1'))
    (hE2 : energy_out env (p.withT T2) { t with th := th2 } c w2 = .ok (E2, w2'))
    (n1 : E1 ≠ 0 ∧ E1 ≠ -1) (n2 : E2 ≠ 0 ∧ E2 ≠ -1) (hleft : R1 - th1 + 2e-5 ≤ R2 - th2) :
    E1 < E2 + 2e-13 ∧ (env.calcIndex = false → E1 ≤ 9.9e6 → E1 < E2) := by
  obtain ⟨d, s, hd, hs, hv⟩ := range_view env p n t c h.computable hk
  have ht := range_table_tame env p n t c h.computable (h.steady env) d hd
  obtain ⟨s', hs', -, hinc⟩ := interpolant_increasing env.junk hj env.calcIndex d.range ht
  unfold newSpline at hs
  rw [hs'] at hs
  cases hs
  have a1 := (hv v1 q1 T1 th1).1 R1 v1' hR1
  have a2 := (hv v2 q2 T2 th2).1 R2 v2' hR2
  obtain ⟨R, RE1, hR, hRE1, b1⟩ := energy_out_spline_found ((hv w1 r1 T1 th1).2 E1 w1' hE1) n1
  rw [a1] at hR
  cases hR
  obtain ⟨R, RE2, hR, hRE2, b2⟩ := energy_out_spline_found ((hv w2 r2 T2 th2).2 E2 w2' hE2) n2
  rw [a2] at hR
  cases hR
  rw [abs_lt] at b1 b2
  have lt : RE1 < RE2 := by linarith
  constructor
  · by_contra hc
    have := hinc E2 E1 RE2 RE1 hRE2 hRE1 (.inl (not_lt.mp hc))
    linarith
  · intro hci h9
    by_contra hc
    rcases (not_lt.mp hc).lt_or_eq with hlt | heq
    · have := hinc E2 E1 RE2 RE1 hRE2 hRE1 (.inr ⟨hci, hlt, h9⟩)
      linarith
    · subst heq
      rw [hRE1] at hRE2
      cases hRE2
      linarith

/-- C122 for every build: with 2.1e-5 g/cm2 and 3e-10 of its range more left, an ion has the higher energy behind its layer, also if the
index into the table is calculated. -/
theorem energy_out_faster (env : Env ℝ) (hj : SmallJunk env.junk) (p : Projectile ℝ) (n : Int) (t : Material ℝ) (c : Config ℝ)
    (h : UsualIon p n t c) (hk : NonDefault p t c) (v1 v2 w1 w2 v1' v2' w1' w2' : World ℝ) (q1 : ReachableW env v1)
    (q2 : ReachableW env v2) (r1 : ReachableW env w1) (r2 : ReachableW env w2) (T1 T2 th1 th2 R1 R2 E1 E2 : ℝ)
    (hR1 : range env (p.withT T1) { t with th := th1 } c v1 = .ok (R1, v1'))
    (hR2 : range env (p.withT T2) { t with th := th2 } c v2 = .ok (R2, v2'))
    (hE1 : energy_out env (p.withT T1) { t with th := th1 } c w1 = .ok (E1, w1'))
    (hE2 : energy_out env (p.withT T2) { t with th := th2 } c w2 = .ok (E2, w2'))
    (n1 : E1 ≠ 0 ∧ E1 ≠ -1) (n2 : E2 ≠ 0 ∧ E2 ≠ -1) (hleft : R1 - th1 + 2.1e-5 + 3e-10 * |R1 - th1| ≤ R2 - th2) :
    E1 < E2 := by
  obtain ⟨d, s, hd, hs, hv⟩ := range_view env p n t c h.computable hk
  have ht := range_table_tame env p n t c h.computable (h.steady env) d hd
  obtain ⟨d', hd', hl, hz, hpw⟩ := range_table_strict env p n t c h.computable h.usual
  rw [hd] at hd'
  cases hd'
  have hy0 : ∀ i < 600, 0 ≤ d.range.getD i 0 := by
    intro i hi
    rw [List.getElem?_eq_getElem (by omega)] at hz
    rw [List.getD_eq_getElem?_getD, List.getElem?_eq_getElem (by omega), Option.getD_some]
    rcases Nat.eq_zero_or_pos i with e | e
    · subst e
      exact (Option.some.inj hz).ge
    · have := List.pairwise_iff_getElem.mp hpw 0 i (by omega) (by omega) e
      rw [Option.some.inj hz] at this
      exact this.le
  obtain ⟨s', hs', -, hinc⟩ := interpolant_increasing env.junk hj env.calcIndex d.range ht
  obtain ⟨s'', hs'', hnear⟩ := interpolant_nearly env.junk hj env.calcIndex d.range ht hy0
  unfold newSpline at hs
  rw [hs'] at hs hs''
  cases hs
  cases hs''
  have a1 := (hv v1 q1 T1 th1).1 R1 v1' hR1
  have a2 := (hv v2 q2 T2 th2).1 R2 v2' hR2
  obtain ⟨R, RE1, hR, hRE1, b1⟩ := energy_out_spline_found ((hv w1 r1 T1 th1).2 E1 w1' hE1) n1
  rw [a1] at hR
  cases hR
  obtain ⟨R, RE2, hR, hRE2, b2⟩ := energy_out_spline_found ((hv w2 r2 T2 th2).2 E2 w2' hE2) n2
  rw [a2] at hR
  cases hR
  rw [abs_lt] at b1 b2
  have l0 := abs_nonneg (R1 - th1)
  have l1 := le_abs_self (R1 - th1)
  norm_num at b1 b2 hleft
  by_contra hc
  rcases (not_lt.mp hc).lt_or_eq with hlt | heq
  · rcases le_or_gt (E2 + 2e-13) E1 with hfar | hfar
    · have := hinc E2 E1 RE2 RE1 hRE2 hRE1 (.inl hfar)
      linarith
    · rcases hnear E2 E1 RE2 RE1 hRE2 hRE1 hlt hfar with h1 | ⟨h1, h2⟩
      · linarith
      · norm_num at h2
        linarith
  · subst heq
    rw [hRE1] at hRE2
    cases hRE2
    linarith

/-- Carbon ions above the table, behind 0.5 g/cm2 of water: both energies are found, and the range left differs by 1 g/cm2. -/
example (env : Env ℝ) (hdbg : env.debug = false) (hj : SmallJunk env.junk) (w : World ℝ) (hr : ReachableW env w) :
    ∃ T1 T2 R1 R2 E1 E2 w1 w2,
      range env (⟨12, 6, 6, T1⟩ : Projectile ℝ) ⟨1, 0.5, 18.015, 78, [⟨1.00794, 1, 2⟩, ⟨15.9994, 8, 1⟩]⟩ .default w = .ok (R1, w1) ∧
      range env (⟨12, 6, 6, T2⟩ : Projectile ℝ) ⟨1, 0.5, 18.015, 78, [⟨1.00794, 1, 2⟩, ⟨15.9994, 8, 1⟩]⟩ .default w = .ok (R2, w2) ∧
      energy_out env (⟨12, 6, 6, T1⟩ : Projectile ℝ) ⟨1, 0.5, 18.015, 78, [⟨1.00794, 1, 2⟩, ⟨15.9994, 8, 1⟩]⟩ .default w = .ok (E1, w1) ∧
      energy_out env (⟨12, 6, 6, T2⟩ : Projectile ℝ) ⟨1, 0.5, 18.015, 78, [⟨1.00794, 1, 2⟩, ⟨15.9994, 8, 1⟩]⟩ .default w = .ok (E2, w2) ∧
      (E1 ≠ 0 ∧ E1 ≠ -1) ∧ (E2 ≠ 0 ∧ E2 ≠ -1) ∧ R1 - 0.5 + 2.1e-5 + 3e-10 * |R1 - 0.5| ≤ R2 - 0.5 := by
  have hu := carbon_water 0
  have hk := carbon_water_nonDefault 0
  obtain ⟨d, s, hd, hs, hv⟩ := range_view env _ 6 _ _ (carbon_water_computable 0) hk
  have ht := range_table_tame env _ 6 _ _ hu.computable (ion_stopping_steady env _ 6 _ _ hu) d hd
  obtain ⟨d', hd', hl, hz, hpos⟩ := range_table_strict env _ 6 _ _ (carbon_water_computable 0) (UsualIon.usual (.inr (.inr hu)))
  rw [hd] at hd'
  cases hd'
  obtain ⟨s', hs', hder, hinc⟩ := interpolant_increasing env.junk hj env.calcIndex d.range ht
  have hg := library_table_ordered env.calcIndex
  obtain ⟨s2, hs2, P, -, -, -, -, hP⟩ := spline_pieces env.junk _ _ hg d.range hl
  obtain ⟨s3, hs3, f, hf, hdf⟩ := spline_deriv env.junk _ _ hg d.range hl
  obtain ⟨s4, hs4, hkn⟩ := spline_knots env.junk _ _ hg d.range hl
  unfold newSpline at hs
  rw [hs] at hs' hs2 hs3 hs4
  cases hs'
  cases hs2
  cases hs3
  cases hs4
  set X : ℝ := (energy_table.grid env.calcIndex : Grid ℝ).val ((energy_table.grid env.calcIndex : Grid ℝ).n - 1) with hX
  obtain ⟨m, Y, hP⟩ : ∃ m Y : ℝ, ∀ v, X ≤ v → s.evaluate v = .ok (m * (v - X) + Y) := ⟨_, _, hP⟩
  have hdm : ∀ v, X < v → s.deriv v = .ok m := by
    intro v hv'
    obtain ⟨d', h1, h2⟩ := hdf v (.inr (.inl hv'))
    rw [h1]
    have hev : f =ᶠ[nhds v] fun x => m * (x - X) + Y := by
      filter_upwards [lt_mem_nhds hv'] with x hx
      have := hP x hx.le
      rw [hf] at this
      exact Except.ok.inj this
    have h3 : HasDerivAt (fun x => m * (x - X) + Y) m v := by
      simpa using (((hasDerivAt_id v).sub_const X).const_mul m).add_const Y
    exact congrArg Except.ok ((h2.congr_of_eventuallyEq hev.symm).unique h3)
  have m0 : 0 < m := by
    obtain ⟨d', h1, h2⟩ := hder (X + 1)
    rw [hdm (X + 1) (by linarith)] at h1
    cases h1
    exact h2
  have X0 : 1 ≤ X := by
    have := (abs_le.mp energy_table_range.2.2).1
    have e : X = (energy_table : EnergyTable ℝ).val 599 := rfl
    rw [e]
    norm_num at this ⊢
    linarith
  have Y0 : 0 < Y := by
    have a := hP X le_rfl
    have b := hkn 0 (by show 0 < 600; norm_num)
    have e' : d.range[0]'(by rw [hl]; show 0 < 600; norm_num) = 0 := by
      rw [List.getElem?_eq_getElem (by rw [hl]; show 0 < 600; norm_num)] at hz
      exact Option.some.inj hz
    rw [e'] at b
    have c : (energy_table.grid env.calcIndex : Grid ℝ).val 0 + 2e-13 ≤ X := by
      have := (abs_le.mp energy_table_range.2.1).2
      have e : (energy_table.grid env.calcIndex : Grid ℝ).val 0 = (energy_table : EnergyTable ℝ).val 0 := rfl
      rw [e]
      norm_num at this ⊢
      linarith
    have := hinc _ _ _ _ b a (.inl c)
    linarith
  have key : ∀ x, 1 ≤ x → ∃ w', range env (⟨12, 6, 6, X + x + 0.5 / m⟩ : Projectile ℝ) ⟨1, 0.5, 18.015, 78, [⟨1.00794, 1, 2⟩, ⟨15.9994, 8, 1⟩]⟩ .default w = .ok (m * x + 0.5 + Y, w') ∧
      energy_out env (⟨12, 6, 6, X + x + 0.5 / m⟩ : Projectile ℝ) ⟨1, 0.5, 18.015, 78, [⟨1.00794, 1, 2⟩, ⟨15.9994, 8, 1⟩]⟩ .default w = .ok (X + x, w') := by
    intro x hx
    have hq : 0 < 0.5 / m := by positivity
    obtain ⟨w', R, E, h1, h2⟩ := energy_out_succeeds env hdbg w hr (⟨12, 6, 6, X + x + 0.5 / m⟩ : Projectile ℝ) 6 _ _ (carbon_water_computable _) (carbon_water_nonDefault _)
    have a := (hv w hr (X + x + 0.5 / m) 0.5).1 R w' h1
    have b := (hv w hr (X + x + 0.5 / m) 0.5).2 E w' h2
    have e1 : s.evaluate (X + x + 0.5 / m) = .ok (m * x + 0.5 + Y) := by
      rw [hP _ (by linarith), show m * (X + x + 0.5 / m - X) + Y = m * x + 0.5 + Y by field_simp; ring]
    have e2 : s.evaluate (X + x) = .ok (m * x + Y) := by
      rw [hP _ (by linarith), show m * (X + x - X) + Y = m * x + Y by ring]
    have mx : 0 < m * x := by positivity
    have e3 := energy_out_spline_first env.debug s (X + x + 0.5 / m) _ m 0.5 (X + x) _ e1 (hdm _ (by linarith)) (by linarith)
      (by ring) e2 (by norm_num)
    rw [e1] at a
    rw [e3] at b
    cases a
    cases b
    exact ⟨w', h1, h2⟩
  have hx : 1 ≤ 1 + (1 + m + Y) / m := by
    have : 0 < (1 + m + Y) / m := by positivity
    linarith
  obtain ⟨w1, a1, b1⟩ := key 1 le_rfl
  obtain ⟨w2, a2, b2⟩ := key (1 + (1 + m + Y) / m) hx
  refine ⟨_, _, _, _, _, _, w1, w2, a1, a2, b1, b2, ⟨by linarith, by linarith⟩, ⟨by linarith, by linarith⟩, ?_⟩
  have : m * (1 + (1 + m + Y) / m) = m + (1 + m + Y) := by field_simp
  rw [this, abs_of_pos (by linarith)]
  norm_num
  linarith

end Catima
