import Verif.Props.ConfigTof
import Verif.Props.Reactions
import Verif.Spec.Reactions

/-!
# C86: reactions in compounds
-/

namespace Catima

/-- The cross section used for a component. -/
noncomputable def sigmaOf (p : Projectile ℝ) (iso : Int → Int) (E : ℝ) (a : Target ℝ) : ℝ :=
  SigmaR_Kox (Scalar.lround p.A) (Scalar.lround p.Z) E (iso a.Z) a.Z

theorem sigma_r_value (debug : Bool) (p : Projectile ℝ) (t : Material ℝ) (iso : Int → Int)
    (hiso : ∀ a ∈ t.atoms, get_isotope_a a.Z 0 = .ok (iso a.Z)) (rs : Spline ℝ) (x E : ℝ)
    (hE : energy_out_spline debug p.T x rs = .ok E) :
    sigma_r debug p t (Scalar.lround p.A) (Scalar.lround p.Z) rs x =
      .ok ((t.atoms.map fun a => t.mfrac a * sigmaOf p iso E a).sum / (t.atoms.map t.mfrac).sum) := by
  unfold sigma_r
  rw [hE, bind_ok]
  have key : ∀ (l : List (Target ℝ)) (acc : ℝ × ℝ), (∀ a ∈ l, a ∈ t.atoms) →
      l.foldlM (fun (acc : ℝ × ℝ) t_1 => (do
        let at_ ← get_isotope_a t_1.Z 0
        return (acc.1 + t.mfrac t_1, acc.2 + t.mfrac t_1 * SigmaR_Kox (Scalar.lround p.A)
          (Scalar.lround p.Z) E at_ t_1.Z) : M (ℝ × ℝ))) acc =
      .ok (acc.1 + (l.map t.mfrac).sum, acc.2 + (l.map fun a => t.mfrac a * sigmaOf p iso E a).sum) := by
    intro l
    induction l with
    | nil => intro acc _; simp; rfl
    | cons a l ih =>
      intro acc hl
      rw [List.foldlM_cons, hiso a (hl a (by simp)), bind_ok, pure_bind, ih _ fun b hb => hl b (by simp [hb])]
      simp only [List.map_cons, List.sum_cons, sigmaOf]
      rw [add_assoc, add_assoc]
  rw [key t.atoms _ fun _ h => h, bind_ok]
  norm_num
  rfl

theorem mfrac_spec (t : Material ℝ) (a : Target ℝ) :
    t.mfrac a = if a.stn < 1 then a.stn * t.molar_mass / a.A else a.stn := by
  unfold Material.mfrac
  by_cases h : a.stn < 1
  · rw [if_pos (by rw [lt_real]; norm_num; exact h), if_pos h]
  · rw [if_neg (by rw [lt_real]; norm_num; linarith), if_neg h]

theorem atomsPerUnit_eq (t : Material ℝ) : (t.atoms.map t.mfrac).sum = atomsPerUnit t := by
  unfold atomsPerUnit
  congr 1
  exact List.map_congr_left fun a _ => mfrac_spec t a

theorem atomsPerArea_eq {t : Material ℝ} (ht : t.Sound) {a : Target ℝ} (ha : a ∈ t.atoms) :
    atomsPerArea t a = t.number_density_cm2 * t.mfrac a * 1e23 := by
  have h1 := ht.A a ha
  have h2 := ht.molar
  rw [mfrac_spec]
  unfold atomsPerArea Material.number_density_cm2 Avogadro
  split <;> field_simp <;> norm_num <;> ring

theorem expectedReactions_eq {t : Material ℝ} (ht : t.Sound) (σ : Target ℝ → ℝ) :
    expectedReactions t σ =
      t.number_density_cm2 * (t.atoms.map fun a => t.mfrac a * σ a).sum * 0.0001 := by
  unfold expectedReactions
  have : ∀ l : List (Target ℝ), (∀ a ∈ l, a ∈ t.atoms) →
      (l.map fun a => atomsPerArea t a * (σ a * 1e-27)).sum =
        t.number_density_cm2 * (l.map fun a => t.mfrac a * σ a).sum * 0.0001 := by
    intro l
    induction l with
    | nil => simp
    | cons a l ih =>
      intro hl
      rw [List.map_cons, List.sum_cons, ih fun b hb => hl b (by simp [hb]), List.map_cons, List.sum_cons,
        atomsPerArea_eq ht (hl a (by simp))]
      ring
  exact this _ fun _ h => h

/-- What the code computes for a layer in which the cross section changes by less than 5 %: the
expected number of reactions is divided by the number of atoms per formula unit. -/
theorem nonreaction_thin (env : Env ℝ) (w : World ℝ) (hr : ReachableW env w) (p : Projectile ℝ)
    (n : Int) (t : Material ℝ) (c : Config ℝ) (h : Computable p n t c) (hk : NonDefault p t c)
    (iso : Int → Int) (hiso : ∀ a ∈ t.atoms, get_isotope_a a.Z 0 = .ok (iso a.Z))
    (hT : 30 ≤ p.T) (hth : 0 < t.th) (E0 E1 : ℝ) (w0 w1 : World ℝ)
    (h0 : energy_out env p (t.set_thickness 0) c w = .ok (E0, w0))
    (h1 : energy_out env p t c w = .ok (E1, w1)) (hE : 30 ≤ E1)
    (hpos : 0 < expectedReactions t (sigmaOf p iso E0))
    (hthin : |expectedReactions t (sigmaOf p iso E0) - expectedReactions t (sigmaOf p iso E1)| <
      0.05 * expectedReactions t (sigmaOf p iso E0)) :
    nonreaction_rate env p t c w = .ok (Real.exp (-((expectedReactions t (sigmaOf p iso E0) +
      expectedReactions t (sigmaOf p iso E1)) / 2 / atomsPerUnit t)), w1) := by
  obtain ⟨-, rs, -, -, -, -, hview⟩ := range_spline env p n t c h hk
  have hs : ∀ x E w', energy_out env p (t.set_thickness x) c w = .ok (E, w') →
      energy_out_spline env.debug p.T x rs = .ok E ∧
      ∃ d, get_data env p (t.set_thickness x) c w = .ok (d, w') ∧ get_range_spline env d = .ok rs := by
    intro x E w' hx
    obtain ⟨d, w2, hd, hrs⟩ := hview w hr p.T x
    change get_data env p (t.set_thickness x) c w = _ at hd
    unfold energy_out at hx
    simp only [api_bind, api_pureM, ok_bind] at hx
    obtain ⟨d', w2', hd', ⟨rs', hrs', hx⟩, rfl⟩ := hx
    rw [hd] at hd'
    cases hd'
    rw [hrs] at hrs'
    cases hrs'
    exact ⟨hx, d, hd, hrs⟩
  obtain ⟨hs0, -⟩ := hs 0 E0 w0 h0
  obtain ⟨hs1, d, hd, hrs⟩ := hs t.th E1 w1 h1
  have hM := h.sound.molar
  have hnd : 0 < t.number_density_cm2 := by
    unfold Material.number_density_cm2
    have hAv : (0 : ℝ) < Avogadro := by unfold Avogadro; norm_num
    positivity
  have hN : 0 < (t.atoms.map t.mfrac).sum :=
    sum_pos_of_forall _ _ (fun a ha => mfrac_pos h.sound ha) h.sound.nonempty
  rw [expectedReactions_eq h.sound] at hpos
  rw [expectedReactions_eq h.sound, expectedReactions_eq h.sound] at hthin
  rw [expectedReactions_eq h.sound, expectedReactions_eq h.sound, ← atomsPerUnit_eq]
  have v0 := sigma_r_value env.debug p t iso hiso rs 0 E0 hs0
  have v1 := sigma_r_value env.debug p t iso hiso rs t.th E1 hs1
  set S0 := (t.atoms.map fun a => t.mfrac a * sigmaOf p iso E0 a).sum with hS0
  set S1 := (t.atoms.map fun a => t.mfrac a * sigmaOf p iso E1 a).sum with hS1
  set N := (t.atoms.map t.mfrac).sum with hNd
  set D := t.number_density_cm2 with hD
  have hS0p : 0 < S0 := by
    by_contra hle
    push Not at hle
    have := mul_nonpos_of_nonneg_of_nonpos hnd.le hle
    norm_num at hpos
    linarith
  have hcond : |S0 / N - S1 / N| / (S0 / N) < 0.05 := by
    rw [← sub_div, abs_div, abs_of_pos hN, div_div_div_cancel_right₀ hN.ne', div_lt_iff₀ hS0p]
    have e : D * S0 * 0.0001 - D * S1 * 0.0001 = D * 0.0001 * (S0 - S1) := by ring
    have hD' : 0 < D * 0.0001 := by positivity
    rw [e, abs_mul, abs_of_pos hD'] at hthin
    refine lt_of_mul_lt_mul_left (?_ : D * 0.0001 * _ < D * 0.0001 * _) hD'.le
    linarith
  have z0 : (0.0 : ℝ) = 0 := by norm_num
  have hval : nonreaction_rate_from env p t rs = .ok (Real.exp (-((D * S0 * 0.0001 + D * S1 * 0.0001) / 2 / N))) := by
    unfold nonreaction_rate_from
    rw [hs1, bind_ok]
    dsimp only
    rw [if_neg (by rw [lt_real]; unfold emin_reaction; norm_num; exact hE), z0, v0, bind_ok, v1, bind_ok,
      if_pos (by rw [lt_real, fabs_real]; exact hcond), pure_bind, exp_real]
    show Except.ok _ = Except.ok _
    congr 2
    rw [show (2.0 : ℝ) = 2 by norm_num, show (0.0001 : ℝ) = 1 / 10000 by norm_num]
    clear_value S0 S1 N D
    have := hN.ne'
    field_simp
    rw [← hD]
    ring
  unfold nonreaction_rate
  rw [if_neg (by rw [lt_real]; unfold emin_reaction; norm_num; exact hT),
    if_neg (by rw [le_real]; norm_num; exact hth)]
  simp only [api_bind, api_pureM, ok_bind]
  exact ⟨d, w1, hd, ⟨rs, hrs, hval⟩, rfl⟩

/-- C86, what holds: the probability of no reaction is right if the composition sums to one atom per
formula unit, as for elements.  For the whole claim `hN` would have to go, see
`nonreaction_per_atom_wrong`. -/
theorem nonreaction_per_atom_partial (env : Env ℝ) (w : World ℝ) (hr : ReachableW env w)
    (p : Projectile ℝ) (n : Int) (t : Material ℝ) (c : Config ℝ) (h : Computable p n t c)
    (hk : NonDefault p t c) (hN : atomsPerUnit t = 1) (iso : Int → Int)
    (hiso : ∀ a ∈ t.atoms, get_isotope_a a.Z 0 = .ok (iso a.Z))
    (hT : 30 ≤ p.T) (hth : 0 < t.th) (E0 E1 : ℝ) (w0 w1 : World ℝ)
    (h0 : energy_out env p (t.set_thickness 0) c w = .ok (E0, w0))
    (h1 : energy_out env p t c w = .ok (E1, w1)) (hE : 30 ≤ E1)
    (hpos : 0 < expectedReactions t (sigmaOf p iso E0))
    (hthin : |expectedReactions t (sigmaOf p iso E0) - expectedReactions t (sigmaOf p iso E1)| <
      0.05 * expectedReactions t (sigmaOf p iso E0)) :
    nonreaction_rate env p t c w = .ok (Real.exp (-((expectedReactions t (sigmaOf p iso E0) +
      expectedReactions t (sigmaOf p iso E1)) / 2)), w1) := by
  rw [nonreaction_thin env w hr p n t c h hk iso hiso hT hth E0 E1 w0 w1 h0 h1 hE hpos hthin, hN, div_one]

/-- Carbon on oxygen reacts at every energy above 32 MeV/u. -/
theorem kox_carbon_oxygen_pos (E : ℝ) (hE : 32 ≤ E) : 0 < SigmaR_Kox 12 6 E 16 8 := by
  have hroot : ∀ a : ℝ, 8 ≤ a → 2 ≤ a ^ ((1 : ℝ) / 3) := by
    intro a ha
    have hc : (a ^ ((1 : ℝ) / 3)) ^ 3 = a := by
      have := cube_root (show (0 : ℝ) ≤ a by linarith)
      rwa [show ((1.0 : ℝ) / 3.0) = 1 / 3 by norm_num] at this
    by_contra hlt
    push Not at hlt
    have : (a ^ ((1 : ℝ) / 3)) ^ 3 < 2 ^ 3 := pow_lt_pow_left₀ hlt (by positivity) (by norm_num)
    rw [hc] at this
    linarith
  have h12 := hroot 12 (by norm_num)
  have h16 := hroot 16 (by norm_num)
  unfold SigmaR_Kox Ecm_from_T
  dsimp only
  simp only [ofInt_real, pow_real, log10_real]
  rw [show ((1.0 : ℝ) / 3.0) = 1 / 3 by norm_num]
  push_cast
  set x := (12 : ℝ) ^ ((1 : ℝ) / 3) with hx
  set y := (16 : ℝ) ^ ((1 : ℝ) / 3) with hy
  set c := (if (Scalar.lt (Real.logb 10 E) 1.5) = true then
        ((2.0 : ℝ) - 10.0 / (1.5 * 1.5 * 1.5 * 1.5 * 1.5)) * (Real.logb 10 E / 1.5) ^ (3.0 : ℝ)
      else -10.0 / Real.logb 10 E ^ (5.0 : ℝ) + 2.0) with hc
  have hlog : 1.5 ≤ Real.logb 10 E := by
    rw [Real.le_logb_iff_rpow_le (by norm_num) (by linarith)]
    have h1 : ((10 : ℝ) ^ (1.5 : ℝ)) ^ 2 = 1000 := by
      rw [← Real.rpow_natCast, ← Real.rpow_mul (by norm_num)]
      norm_num
    have h2 : (0 : ℝ) < (10 : ℝ) ^ (1.5 : ℝ) := by positivity
    nlinarith
  have hc2 : c ≤ 2 := by
    rw [hc, if_neg (by rw [lt_real]; linarith)]
    have : 0 < Real.logb 10 E := by norm_num at hlog; linarith
    have : 0 < 10.0 / Real.logb 10 E ^ (5.0 : ℝ) := by positivity
    rw [neg_div, show (2.0 : ℝ) = 2 by norm_num]
    linarith
  clear_value c
  have hR : 0 < 1.1 * (x + y) + (1.1 * (1.85 * x * y / (x + y) - c) + 5.0 * 0 * 6 / 192) := by
    have : 0 ≤ 1.85 * x * y / (x + y) := by positivity
    norm_num at this ⊢
    nlinarith
  have hB : 0 < (1.0 : ℝ) - 48 / (1.3 * (x + y)) / (E * 12 * 16 / (12 + 16)) := by
    have : 48 / (1.3 * (x + y)) / (E * 12 * 16 / (12 + 16)) < 1 := by
      rw [div_div, div_lt_one (by positivity)]
      have := mul_le_mul (show (4 : ℝ) ≤ x + y by linarith) hE (by norm_num) (by linarith)
      norm_num
      nlinarith
    norm_num at this ⊢
    linarith
  have hPI : (0 : ℝ) < PI := by unfold PI; norm_num
  have := mul_pos (mul_pos (mul_pos (mul_pos (show (0 : ℝ) < 10.0 by norm_num) hPI) hR) hR) hB
  exact this

/-- The most abundant isotopes of hydrogen and oxygen. -/
def waterIso (z : Int) : Int := if z = 1 then 1 else 16

/-- Hydrogen and oxygen with any stoichiometric numbers or weight fractions. -/
def hydrogenOxygen (M s1 s2 th : ℝ) : Material ℝ := ⟨1, th, M, 0, [⟨1.00794, 1, s1⟩, ⟨15.9994, 8, s2⟩]⟩

/-- There are thin layers of hydrogen and oxygen in which the energy of carbon hardly changes. -/
theorem thin_case (env : Env ℝ) (M s1 s2 : ℝ) (hM : 0 < M) (hs1 : 0 < s1) (hs2 : 0 < s2) :
    ∃ T th E w0 w1, 0 < th ∧ 30 ≤ T ∧ 30 ≤ E ∧
      Computable ⟨12, 6, 6, T⟩ 6 (hydrogenOxygen M s1 s2 th) .default ∧
      NonDefault ⟨12, 6, 6, T⟩ (hydrogenOxygen M s1 s2 th) .default ∧
      (∀ a ∈ (hydrogenOxygen M s1 s2 th).atoms, get_isotope_a a.Z 0 = .ok (waterIso a.Z)) ∧
      energy_out env ⟨12, 6, 6, T⟩ (hydrogenOxygen M s1 s2 0) .default .init = .ok (T, w0) ∧
      energy_out env ⟨12, 6, 6, T⟩ (hydrogenOxygen M s1 s2 th) .default .init = .ok (E, w1) ∧
      0 < expectedReactions (hydrogenOxygen M s1 s2 th) (sigmaOf ⟨12, 6, 6, T⟩ waterIso T) ∧
      0 < expectedReactions (hydrogenOxygen M s1 s2 th) (sigmaOf ⟨12, 6, 6, T⟩ waterIso E) ∧
      |expectedReactions (hydrogenOxygen M s1 s2 th) (sigmaOf ⟨12, 6, 6, T⟩ waterIso T) -
        expectedReactions (hydrogenOxygen M s1 s2 th) (sigmaOf ⟨12, 6, 6, T⟩ waterIso E)| <
        0.05 * expectedReactions (hydrogenOxygen M s1 s2 th) (sigmaOf ⟨12, 6, 6, T⟩ waterIso T) := by
  have hsound : ∀ th, (hydrogenOxygen M s1 s2 th).Sound :=
    fun th => ⟨by simp [hydrogenOxygen], by simp [hydrogenOxygen], by simp [hydrogenOxygen]; norm_num,
      by simp [hydrogenOxygen, hs1, hs2], hM⟩
  have hcd : ∀ T th, Computable ⟨12, 6, 6, T⟩ 6 (hydrogenOxygen M s1 s2 th) .default := fun T th =>
    ⟨(carbon_water_usual 6 T).1.ion, by norm_num, hsound th, by simp [hydrogenOxygen], Or.inl rfl⟩
  have hnd : ∀ T th, NonDefault ⟨12, 6, 6, T⟩ (hydrogenOxygen M s1 s2 th) .default := by
    intro T th
    simp only [NonDefault, Key.eq, Key.default, Projectile.eq, Projectile.default]
    simp
    intro h
    norm_num at h
  have hu : Usual ⟨12, 6, 6, 100⟩ 6 (hydrogenOxygen M s1 s2 1) :=
    ⟨(carbon_water_usual 6 100).2.1, by simp [hydrogenOxygen, TypicalI]⟩
  obtain ⟨rs, f, T, d, hT1, hT2, -, hsm, hdata⟩ :=
    smooth_range env _ 6 _ _ (hcd 100 1) hu (hnd 100 1) 300 (by norm_num) (by norm_num)
  obtain ⟨hb1, hb2⟩ := table_around_100
  obtain ⟨δ, hδ, hout⟩ := thin_energy_out hsm
  have hd := abs_pos.mpr hsm.ne
  have hr12 : (Scalar.lround (12 : ℝ)) = 12 := by
    refine (if_pos (by norm_num : (0 : ℝ) ≤ 12)).trans ?_
    rw [Int.floor_eq_iff]; norm_num
  have hr6 : (Scalar.lround (6 : ℝ)) = 6 := by
    refine (if_pos (by norm_num : (0 : ℝ) ≤ 6)).trans ?_
    rw [Int.floor_eq_iff]; norm_num
  obtain ⟨k1, hk1, ek1⟩ : ∃ k : ℝ, 0 < k ∧ k = 6.022140857e-4 *
    (if s1 < 1 then s1 else s1 * 1.00794 / M) / 1.00794 := ⟨_, by split <;> positivity, rfl⟩
  obtain ⟨k2, hk2, ek2⟩ : ∃ k : ℝ, 0 < k ∧ k = 6.022140857e-4 *
    (if s2 < 1 then s2 else s2 * 15.9994 / M) / 15.9994 := ⟨_, by split <;> positivity, rfl⟩
  set S : ℝ → ℝ := fun E => k1 * SigmaR_Kox 12 6 E 1 1 + k2 * SigmaR_Kox 12 6 E 16 8 with hS
  have hexp : ∀ th E, expectedReactions (hydrogenOxygen M s1 s2 th)
      (sigmaOf ⟨12, 6, 6, T⟩ waterIso E) = th * S E := by
    intro th E
    unfold expectedReactions atomsPerArea sigmaOf hydrogenOxygen
    simp only [List.map_cons, List.map_nil, List.sum_cons, List.sum_nil, hr12, hr6, hS,
      show waterIso 1 = 1 from rfl, show waterIso 8 = 16 from rfl]
    rw [ek1, ek2]
    generalize (if s1 < 1 then s1 else s1 * 1.00794 / M) = u1
    generalize (if s2 < 1 then s2 else s2 * 15.9994 / M) = u2
    norm_num
    ring
  have hSpos : ∀ E, 32 ≤ E → 0 < S E := by
    intro E hE
    have h1 := mul_pos hk2 (kox_carbon_oxygen_pos E hE)
    have h2 := mul_nonneg hk1.le (kox_nonneg_above_limit 12 6 1 1 E (by norm_num) (by norm_num) (by norm_num)
      (by norm_num) (by norm_num) (by norm_num) (by norm_num) (by linarith))
    simp only [hS]
    linarith
  have hScont : ContinuousAt S T := by
    have hmem : Set.Ioi (0 : ℝ) ∈ nhds T := Ioi_mem_nhds (by linarith)
    exact ((kox_continuous 12 6 1 1 (by norm_num) (by norm_num)).continuousAt hmem).const_mul k1 |>.add
      (((kox_continuous 12 6 16 8 (by norm_num) (by norm_num)).continuousAt hmem).const_mul k2)
  have hST := hSpos T (by linarith)
  obtain ⟨η, hη, hη'⟩ := Metric.continuousAt_iff.mp hScont (0.05 * S T) (by positivity)
  obtain ⟨th, h0, h1, h2, h3⟩ : ∃ th : ℝ, 0 < th ∧ th < δ ∧ th / |d| < 1 ∧ th / |d| < η := by
    refine ⟨min (δ / 2) (|d| * min (1 / 2) (η / 2)), by positivity, ?_, ?_, ?_⟩
    · have := min_le_left (δ / 2) (|d| * min (1 / 2) (η / 2))
      linarith
    · rw [div_lt_iff₀ hd]
      have := min_le_right (δ / 2) (|d| * min (1 / 2) (η / 2))
      have := mul_le_mul_of_nonneg_left (min_le_left (1 / 2) (η / 2)) hd.le
      linarith
    · rw [div_lt_iff₀ hd]
      have := min_le_right (δ / 2) (|d| * min (1 / 2) (η / 2))
      have := mul_le_mul_of_nonneg_left (min_le_right (1 / 2) (η / 2)) hd.le
      nlinarith
  have hab : |th / d| = th / |d| := by rw [abs_div, abs_of_pos h0]
  obtain ⟨ha1, ha2⟩ := abs_lt.mp (hab ▸ h2 : |th / d| < 1)
  obtain ⟨dd, wd, hg, hrs⟩ := hdata .init ⟨[], rfl⟩ T th
  obtain ⟨dd0, wd0, hg0, hrs0⟩ := hdata .init ⟨[], rfl⟩ T 0
  have hE0 : energy_out env ⟨12, 6, 6, T⟩ (hydrogenOxygen M s1 s2 0) .default .init = .ok (T, wd0) := by
    have := hout 0 le_rfl hδ env.debug
    rw [zero_div, sub_zero] at this
    unfold energy_out
    simp only [api_bind, api_pureM, ok_bind]
    exact ⟨dd0, wd0, hg0, ⟨rs, hrs0, this⟩, rfl⟩
  have hE1 : energy_out env ⟨12, 6, 6, T⟩ (hydrogenOxygen M s1 s2 th) .default .init =
      .ok (T - th / d, wd) := by
    unfold energy_out
    simp only [api_bind, api_pureM, ok_bind]
    exact ⟨dd, wd, hg, ⟨rs, hrs, hout th h0.le h1 _⟩, rfl⟩
  have hdist := hη' (show dist (T - th / d) T < η by
    rw [Real.dist_eq, show T - th / d - T = -(th / d) by ring, abs_neg, hab]; exact h3)
  rw [Real.dist_eq] at hdist
  have hSE := hSpos (T - th / d) (by linarith)
  refine ⟨T, th, T - th / d, wd0, wd, h0, by linarith, by linarith, hcd T th, hnd T th, ?_, hE0, hE1, ?_, ?_, ?_⟩
  · intro a ha
    simp only [hydrogenOxygen, List.mem_cons, List.not_mem_nil, or_false] at ha
    rcases ha with rfl | rfl <;> rfl
  · rw [hexp]; positivity
  · rw [hexp]; positivity
  · rw [hexp, hexp, ← mul_sub, abs_mul, abs_of_pos h0, abs_sub_comm]
    have := mul_lt_mul_of_pos_left hdist h0
    linarith

/-- C86, what fails: for carbon in a thin layer of water, given as two atoms of hydrogen and one of
oxygen, the result is the cube root of the probability of no reaction: reactions are undercounted by the
number of atoms in the molecule. -/
theorem nonreaction_per_atom_wrong (env : Env ℝ) :
    ∃ T th E v w0 w1, 0 < th ∧ 30 ≤ E ∧
      energy_out env ⟨12, 6, 6, T⟩ (hydrogenOxygen 18.015 2 1 0) .default .init = .ok (T, w0) ∧
      energy_out env ⟨12, 6, 6, T⟩ (hydrogenOxygen 18.015 2 1 th) .default .init = .ok (E, w1) ∧
      nonreaction_rate env ⟨12, 6, 6, T⟩ (hydrogenOxygen 18.015 2 1 th) .default .init = .ok (v, w1) ∧
      0 < v ∧ v < 1 ∧
      Real.exp (-((expectedReactions (hydrogenOxygen 18.015 2 1 th) (sigmaOf ⟨12, 6, 6, T⟩ waterIso T) +
        expectedReactions (hydrogenOxygen 18.015 2 1 th) (sigmaOf ⟨12, 6, 6, T⟩ waterIso E)) / 2)) = v ^ 3 := by
  obtain ⟨T, th, E, w0, w1, h0, hT, hE, hc, hnd, hiso, hE0, hE1, p1, p2, hthin⟩ :=
    thin_case env 18.015 2 1 (by norm_num) (by norm_num) (by norm_num)
  have hunit : atomsPerUnit (hydrogenOxygen 18.015 2 1 th) = 3 := by
    unfold atomsPerUnit hydrogenOxygen
    simp only [List.map_cons, List.map_nil, List.sum_cons, List.sum_nil]
    rw [if_neg (by norm_num), if_neg (by norm_num)]
    norm_num
  have hval := nonreaction_thin env .init ⟨[], rfl⟩ ⟨12, 6, 6, T⟩ 6 _ .default hc hnd waterIso hiso hT h0 T E
    w0 w1 hE0 hE1 hE p1 hthin
  rw [hunit] at hval
  refine ⟨T, th, E, _, w0, w1, h0, hE, hE0, hE1, hval, Real.exp_pos _, ?_, ?_⟩
  · rw [Real.exp_lt_one_iff]
    linarith
  · rw [← Real.exp_nat_mul]
    congr 1
    push_cast
    ring

/-- C86: compounds given by weight fractions have one atom per formula unit, because `Material` takes
the mean atomic weight as their molar mass. -/
theorem weights_one_per_unit (m : Material ℝ) (hne : m.atoms ≠ []) (hA : ∀ a ∈ m.atoms, 0 < a.A)
    (h0 : ∀ a ∈ m.atoms, 0 < a.stn) (h1 : ∀ a ∈ m.atoms, a.stn < 1) : atomsPerUnit m.calculate = 1 := by
  have hall : (m.atoms.all fun t => t.stn <? 1.0) = true := by
    rw [List.all_eq_true]
    intro a ha
    rw [lt_real]
    norm_num
    exact h1 a ha
  have hfold : ∀ (l : List (Target ℝ)) (s : ℝ),
      l.foldl (fun s e => s + e.stn / e.A) s = s + (l.map fun e => e.stn / e.A).sum := by
    intro l
    induction l with
    | nil => simp
    | cons a l ih => intro s; rw [List.foldl_cons, ih, List.map_cons, List.sum_cons, add_assoc]
  have hsum := sum_pos_of_forall m.atoms (fun e => e.stn / e.A)
    (fun a ha => div_pos (h0 a ha) (hA a ha)) hne
  unfold Material.calculate
  rw [if_pos hall, hfold]
  unfold atomsPerUnit
  dsimp only
  have : ∀ (l : List (Target ℝ)) (M : ℝ), (∀ a ∈ l, a.stn < 1) →
      (l.map fun a => if a.stn < 1 then a.stn * M / a.A else a.stn).sum =
        M * (l.map fun e => e.stn / e.A).sum := by
    intro l M
    induction l with
    | nil => simp
    | cons a l ih =>
      intro hl
      rw [List.map_cons, List.sum_cons, ih fun b hb => hl b (by simp [hb]), if_pos (hl a (by simp)),
        List.map_cons, List.sum_cons]
      ring
  rw [this _ _ h1]
  norm_num
  exact inv_mul_cancel₀ hsum.ne'

/-- Carbon in a thin layer of water given by weight fractions meets the hypotheses. -/
example (env : Env ℝ) : ∃ (M T th E : ℝ) (w1 : World ℝ),
    atomsPerUnit (hydrogenOxygen M 0.1119 0.8881 th) = 1 ∧
    nonreaction_rate env ⟨12, 6, 6, T⟩ (hydrogenOxygen M 0.1119 0.8881 th) .default .init =
      .ok (Real.exp (-((expectedReactions (hydrogenOxygen M 0.1119 0.8881 th)
          (sigmaOf ⟨12, 6, 6, T⟩ waterIso T) +
        expectedReactions (hydrogenOxygen M 0.1119 0.8881 th)
          (sigmaOf ⟨12, 6, 6, T⟩ waterIso E)) / 2)), w1) := by
  have hM : (0 : ℝ) < 1 / (0.1119 / 1.00794 + 0.8881 / 15.9994) := by positivity
  obtain ⟨T, th, E, w0, w1, h0, hT, hE, hc, hnd, hiso, hE0, hE1, p1, p2, hthin⟩ :=
    thin_case env _ 0.1119 0.8881 hM (by norm_num) (by norm_num)
  have hunit : atomsPerUnit (hydrogenOxygen (1 / (0.1119 / 1.00794 + 0.8881 / 15.9994)) 0.1119 0.8881 th) = 1 := by
    unfold atomsPerUnit hydrogenOxygen
    simp only [List.map_cons, List.map_nil, List.sum_cons, List.sum_nil]
    rw [if_pos (by norm_num), if_pos (by norm_num)]
    norm_num
  exact ⟨_, T, th, E, w1, hunit, nonreaction_per_atom_partial env .init ⟨[], rfl⟩ ⟨12, 6, 6, T⟩ 6 _ .default hc
    hnd hunit waterIso hiso hT h0 T E w0 w1 hE0 hE1 hE p1 hthin⟩

end Catima
