import Verif.Model.Global
import Verif.Props.EffectiveChargeLower
import Mathlib.Topology.Order.Lattice
import Mathlib.Analysis.SpecialFunctions.Pow.Continuity

/-!
# C96: the effective charge of ATIMA 1.4 in builds with the GLOBAL library
-/

namespace Catima

/-- The weight of the upper of two formulas that are blended between `a` and `b`. -/
noncomputable def blend (a b T : ℝ) : ℝ := max 0 (min 1 ((T - a) / (b - a)))

theorem blend_le (a b T : ℝ) (hab : a < b) (h : T ≤ a) : blend a b T = 0 := by
  unfold blend
  have : (T - a) / (b - a) ≤ 0 := div_nonpos_of_nonpos_of_nonneg (by linarith) (by linarith)
  rw [min_eq_right (by linarith), max_eq_left this]

theorem blend_ge (a b T : ℝ) (hab : a < b) (h : b ≤ T) : blend a b T = 1 := by
  unfold blend
  have : 1 ≤ (T - a) / (b - a) := by rw [le_div_iff₀ (by linarith)]; linarith
  rw [min_eq_left this, max_eq_right (by norm_num)]

theorem blend_mid (a b T : ℝ) (hab : a < b) (h1 : a ≤ T) (h2 : T ≤ b) :
    blend a b T = (T - a) / (b - a) := by
  unfold blend
  have h3 : (T - a) / (b - a) ≤ 1 := by rw [div_le_iff₀ (by linarith)]; linarith
  have h4 : 0 ≤ (T - a) / (b - a) := div_nonneg (by linarith) (by linarith)
  rw [min_eq_right h3, max_eq_right h4]

theorem blend_range (a b T : ℝ) : 0 ≤ blend a b T ∧ blend a b T ≤ 1 := by
  unfold blend
  exact ⟨le_max_left _ _, max_le (by norm_num) (min_le_left _ _)⟩

theorem blend_continuous (a b : ℝ) : Continuous (blend a b) := by
  unfold blend
  fun_prop

/-- The blended value of the GLOBAL charge, with the energy restricted to 30...1500 MeV/u. -/
noncomputable def qGlobal (qmean : ℝ → ℝ → ℝ → ℝ) (pz T tz : ℝ) : ℝ :=
  let E := max 30 (min T 1500)
  ((if pz < 29 then z_eff_Pierce_Blann pz E else qmean pz tz E) -
    z_eff_Pierce_Blann pz (beta_from_T T)) * 1.4 / (tz + 1) ^ (0.28 : ℝ) *
    (1 - Real.exp (-0.04 * T)) + z_eff_Pierce_Blann pz (beta_from_T T)

theorem atima14_light (qmean : ℝ → ℝ → ℝ → ℝ) (pz T tz : ℝ) (hp : pz ≤ 28) :
    z_eff_atima14_lib qmean pz T tz =
      (1 - blend 1000 1500 T) * z_eff_Winger pz (beta_from_T T) tz +
        blend 1000 1500 T * qHigh pz (beta_from_T T) (gamma_from_T T) tz := by
  unfold z_eff_atima14_lib
  dsimp only
  generalize z_eff_Winger pz (beta_from_T T) tz = W
  generalize qHigh pz (beta_from_T T) (gamma_from_T T) tz = H
  have hp' : (pz ≤? (28.0 : ℝ)) = true := by rw [le_real]; norm_num; exact hp
  simp only [hp', if_true]
  by_cases h1 : 1500 < T
  · rw [if_pos (by rw [lt_real]; norm_num; exact h1), blend_ge _ _ _ (by norm_num) h1.le]
    ring
  rw [if_neg (by rw [lt_real]; norm_num; linarith)]
  by_cases h2 : 1000 ≤ T
  · rw [if_pos (by rw [Bool.and_eq_true, le_real, le_real]; norm_num; constructor <;> linarith),
      blend_mid _ _ _ (by norm_num) h2 (by linarith)]
    norm_num
    ring
  · rw [if_neg (by rw [Bool.and_eq_true, le_real, le_real]; norm_num; intro h; linarith),
      blend_le _ _ _ (by norm_num) (by linarith)]
    ring

theorem atima14_heavy (qmean : ℝ → ℝ → ℝ → ℝ) (pz T tz : ℝ) (hp : 28 < pz) :
    z_eff_atima14_lib qmean pz T tz =
      (1 - blend 1000 1500 T) * ((1 - blend 30 70 T) * z_eff_Winger pz (beta_from_T T) tz +
        blend 30 70 T * qGlobal qmean pz T tz) +
        blend 1000 1500 T * qHigh pz (beta_from_T T) (gamma_from_T T) tz := by
  unfold z_eff_atima14_lib
  dsimp only
  generalize z_eff_Winger pz (beta_from_T T) tz = W
  generalize qHigh pz (beta_from_T T) (gamma_from_T T) tz = H
  have hp' : (pz ≤? (28.0 : ℝ)) = false := by
    rw [Bool.eq_false_iff, ne_eq, le_real]; norm_num; exact hp
  have hp2 : (pz >? (28.0 : ℝ)) = true := by rw [lt_real]; norm_num; exact hp
  simp only [hp', hp2, Bool.false_eq_true, if_false, Bool.and_true]
  -- the GLOBAL charge in the range where it counts
  have hG : 30 < T → T < 1500 → (if ((T >? (30.0 : ℝ)) && (T <? 1500.0)) = true then
      (z_eff_global_lib qmean pz T tz - z_eff_Pierce_Blann pz (beta_from_T T)) * 1.4 /
        Scalar.pow (tz + 1.0) 0.28 * (1.0 - Scalar.exp (-0.04 * T)) +
        z_eff_Pierce_Blann pz (beta_from_T T) else 0.0) = qGlobal qmean pz T tz := by
    intro h1 h2
    rw [if_pos (by rw [Bool.and_eq_true, lt_real, lt_real]; norm_num; exact ⟨h1, h2⟩)]
    unfold qGlobal z_eff_global_lib
    dsimp only
    have e1 : max 30 (min T 1500) = T := by
      rw [min_eq_left h2.le, max_eq_right h1.le]
    have e2 : (1.0 : ℝ) = 1 := by norm_num
    rw [e1, pow_real, exp_real, e2, if_neg (by rw [lt_real]; norm_num; linarith)]
    by_cases h3 : pz < 29
    · rw [if_pos (by rw [Bool.or_eq_true, lt_real, lt_real]; norm_num; exact Or.inr h3), if_pos h3]
    · rw [if_neg (by rw [Bool.or_eq_true, lt_real, lt_real]; norm_num; constructor <;> linarith),
        if_neg h3]
  generalize (if ((T >? (30.0 : ℝ)) && (T <? 1500.0)) = true then
      (z_eff_global_lib qmean pz T tz - z_eff_Pierce_Blann pz (beta_from_T T)) * 1.4 /
        Scalar.pow (tz + 1.0) 0.28 * (1.0 - Scalar.exp (-0.04 * T)) +
        z_eff_Pierce_Blann pz (beta_from_T T) else 0.0) = q at hG
  by_cases h1 : 1500 < T
  · rw [if_pos (by rw [lt_real]; norm_num; exact h1), blend_ge 1000 _ _ (by norm_num) h1.le]
    ring
  rw [if_neg (by rw [lt_real]; norm_num; linarith)]
  by_cases h2 : 1000 ≤ T
  · rw [if_pos (by rw [Bool.and_eq_true, le_real, le_real]; norm_num; constructor <;> linarith),
      blend_mid 1000 1500 _ (by norm_num) h2 (by linarith), blend_ge 30 70 _ (by norm_num) (by linarith)]
    by_cases h3 : T = 1500
    · subst h3
      norm_num
    · have h4 : T < 1500 := lt_of_le_of_ne (by linarith) h3
      rw [hG (by linarith) h4]
      norm_num
      ring
  rw [if_neg (by rw [Bool.and_eq_true, le_real, le_real]; norm_num; intro h; linarith),
      blend_le 1000 _ _ (by norm_num) (by linarith)]
  by_cases h3 : 70 ≤ T
  · rw [if_pos (by rw [le_real]; norm_num; exact h3), blend_ge 30 70 _ (by norm_num) h3,
      hG (by linarith) (by linarith)]
    ring
  rw [if_neg (by rw [le_real]; norm_num; linarith)]
  by_cases h4 : T < 30
  · rw [if_pos (by rw [lt_real]; norm_num; exact h4), blend_le 30 70 _ (by norm_num) h4.le]
    ring
  rw [if_neg (by rw [lt_real]; norm_num; linarith),
    blend_mid 30 70 _ (by norm_num) (by linarith) (by linarith)]
  by_cases h5 : T = 30
  · subst h5
    norm_num
  · have h6 : 30 < T := lt_of_le_of_ne (by linarith) (Ne.symm h5)
    rw [hG h6 (by linarith)]
    norm_num
    ring

/-! ## Continuity -/

theorem gamma_continuous : Continuous (gamma_from_T : ℝ → ℝ) := by
  unfold gamma_from_T
  fun_prop

theorem beta_continuousOn : ContinuousOn (beta_from_T : ℝ → ℝ) (Set.Ioi 0) := by
  unfold beta_from_T
  simp only [sqrt_real]
  apply ContinuousOn.sqrt
  apply ContinuousOn.sub continuousOn_const
  apply ContinuousOn.div continuousOn_const
  · exact (gamma_continuous.mul gamma_continuous).continuousOn
  · intro T hT
    have := (gamma_beta_bounds T hT).1
    positivity

theorem pierce_continuous (z : ℝ) : Continuous (z_eff_Pierce_Blann z) := by
  have : z_eff_Pierce_Blann z = fun b =>
    z * (1 - Real.exp (-(0.95 * fine_structure_inverted / z ^ ((2 : ℝ) / 3) * b))) :=
    funext (pierce_blann_eq z)
  rw [this]
  fun_prop

theorem winger_continuous (z tz : ℝ) : Continuous fun b => z_eff_Winger z b tz := by
  have : (fun b => z_eff_Winger z b tz) = fun b => z * (1 - Real.exp (wingerPoly (Real.log z)
      (Real.log (wingerZ tz)) (b / 0.012 / z ^ (0.45 : ℝ)))) := funext fun b => winger_eq z b tz
  rw [this]
  unfold wingerPoly
  fun_prop

theorem qHigh_continuousOn (z tz : ℝ) :
    ContinuousOn (fun T : ℝ => qHigh z (beta_from_T T) (gamma_from_T T) tz) (Set.Ioi 0) := by
  unfold qHigh
  simp only [exp_real, pow_real]
  have h1 := beta_continuousOn
  have h2 : ContinuousOn (fun T : ℝ => gamma_from_T T ^ (0.18 : ℝ)) (Set.Ioi 0) := by
    apply ContinuousOn.rpow_const gamma_continuous.continuousOn
    intro T hT
    left
    have := (gamma_beta_bounds T hT).1
    linarith
  fun_prop

/-- C96, continuity: with GLOBAL the effective charge of ATIMA 1.4 has no jumps at the energies where
formulas are exchanged, whatever continuous function the GLOBAL library implements. -/
theorem atima14_continuous (qmean : ℝ → ℝ → ℝ → ℝ) (pz tz : ℝ)
    (hq : ContinuousOn (qmean pz tz) (Set.Icc 30 1500)) :
    ContinuousOn (fun T => z_eff_atima14_lib qmean pz T tz) (Set.Ioi 0) := by
  have hb := beta_continuousOn
  have hw : ContinuousOn (fun T => z_eff_Winger pz (beta_from_T T) tz) (Set.Ioi 0) :=
    (winger_continuous pz tz).comp_continuousOn hb
  have hh := qHigh_continuousOn pz tz
  have b1 := (blend_continuous 1000 1500).continuousOn (s := Set.Ioi 0)
  have b2 := (blend_continuous 30 70).continuousOn (s := Set.Ioi 0)
  by_cases hp : pz ≤ 28
  · refine ContinuousOn.congr ?_ (fun T _ => atima14_light qmean pz T tz hp)
    fun_prop
  · have hp : 28 < pz := lt_of_not_ge hp
    refine ContinuousOn.congr ?_ (fun T _ => atima14_heavy qmean pz T tz hp)
    have hpb : ContinuousOn (fun T => z_eff_Pierce_Blann pz (beta_from_T T)) (Set.Ioi 0) :=
      (pierce_continuous pz).comp_continuousOn hb
    have hE : Continuous fun T : ℝ => max 30 (min T 1500) := by fun_prop
    have hg : ContinuousOn (fun T : ℝ => if pz < 29 then z_eff_Pierce_Blann pz (max 30 (min T 1500))
        else qmean pz tz (max 30 (min T 1500))) (Set.Ioi 0) := by
      by_cases h : pz < 29
      · simp only [if_pos h]
        exact ((pierce_continuous pz).comp hE).continuousOn
      · simp only [if_neg h]
        refine hq.comp hE.continuousOn fun T _ => ⟨le_max_left _ _, ?_⟩
        exact max_le (by norm_num) (min_le_right _ _)
    have hG : ContinuousOn (fun T => qGlobal qmean pz T tz) (Set.Ioi 0) := by
      unfold qGlobal
      dsimp only
      fun_prop
    fun_prop

/-- For ²³⁸U in carbon with a GLOBAL library that reports a charge rising linearly with the energy. -/
example : ContinuousOn (fun T => z_eff_atima14_lib (fun z _ E => z * (0.9 + E / 15000)) 92 T 6)
    (Set.Ioi (0 : ℝ)) :=
  atima14_continuous _ _ _ (by fun_prop)

/-! ## Bounds -/

theorem qHigh_bounds (z T : ℝ) (tz : ℤ) (hz : 0 < z) (hT : 0 < T) (ht : 1 ≤ tz) :
    0 ≤ qHigh z (beta_from_T T) (gamma_from_T T) (tz : ℝ) ∧
      qHigh z (beta_from_T T) (gamma_from_T T) (tz : ℝ) ≤ z := by
  unfold qHigh
  simp only [exp_real, pow_real]
  obtain ⟨h1, h2, -⟩ := gamma_beta_bounds T hT
  have ht' : (0 : ℝ) < tz := by
    have : (1 : ℝ) ≤ tz := by exact_mod_cast ht
    linarith
  have g0 : (0 : ℝ) < gamma_from_T T := by linarith
  have p1 := Real.rpow_pos_of_pos g0 0.18
  have p2 := Real.rpow_pos_of_pos hz (-0.82)
  have p3 := Real.rpow_pos_of_pos ht' 0.1
  have hneg : -180.0 * beta_from_T T * gamma_from_T T ^ (0.18 : ℝ) * z ^ (-0.82 : ℝ) *
      (tz : ℝ) ^ (0.1 : ℝ) ≤ 0 := by
    have : 0 ≤ 180.0 * beta_from_T T * gamma_from_T T ^ (0.18 : ℝ) * z ^ (-0.82 : ℝ) *
      (tz : ℝ) ^ (0.1 : ℝ) := by positivity
    linarith
  have e1 := Real.exp_le_one_iff.mpr hneg
  have e2 := Real.exp_pos (-180.0 * beta_from_T T * gamma_from_T T ^ (0.18 : ℝ) * z ^ (-0.82 : ℝ) *
      (tz : ℝ) ^ (0.1 : ℝ))
  have e3 : (1.0 : ℝ) = 1 := by norm_num
  rw [e3]
  constructor
  · exact mul_nonneg hz.le (by linarith)
  · nlinarith

theorem winger_bounds (z T : ℝ) (tz : ℤ) (hz : 1 ≤ z) (hz' : z ≤ 99) (hT : 0 < T) (ht : 1 ≤ tz) :
    0 ≤ z_eff_Winger z (beta_from_T T) (tz : ℝ) ∧ z_eff_Winger z (beta_from_T T) (tz : ℝ) ≤ z := by
  have hb := (gamma_beta_bounds T hT).2
  refine ⟨winger_nonneg _ _ _ hz hz' ht hb.1.le hb.2.le, ?_⟩
  rw [winger_eq]
  have := Real.exp_pos (wingerPoly (Real.log z) (Real.log (wingerZ tz))
      (beta_from_T T / 0.012 / z ^ (0.45 : ℝ)))
  nlinarith

theorem convex_bounds (s a b z : ℝ) (hs : 0 ≤ s ∧ s ≤ 1) (ha : 0 ≤ a ∧ a ≤ z) (hb : 0 ≤ b ∧ b ≤ z) :
    0 ≤ (1 - s) * a + s * b ∧ (1 - s) * a + s * b ≤ z := by
  have h1 : 0 ≤ 1 - s := by linarith
  constructor
  · exact add_nonneg (mul_nonneg h1 ha.1) (mul_nonneg hs.1 hb.1)
  · calc (1 - s) * a + s * b ≤ (1 - s) * z + s * z :=
        add_le_add (mul_le_mul_of_nonneg_left ha.2 h1) (mul_le_mul_of_nonneg_left hb.2 hs.1)
      _ = z := by ring

/-- C96, bounds: projectiles up to nickel in every target; up to einsteinium in targets from lithium
on, provided the GLOBAL library itself reports a charge between 0 and `Z`.  Missing: hydrogen and
helium as target, see `atima14_exceeds_Z`. -/
theorem atima14_bounds_partial (qmean : ℝ → ℝ → ℝ → ℝ) (pz T : ℝ) (tz : ℤ) (hz : 1 ≤ pz)
    (hz' : pz ≤ 99) (hT : 0 < T) (ht : 1 ≤ tz)
    (h : 28 < pz → 3 ≤ tz ∧ ∀ E, 30 ≤ E → E ≤ 1500 → 0 ≤ qmean pz tz E ∧ qmean pz tz E ≤ pz) :
    0 ≤ z_eff_atima14_lib qmean pz T tz ∧ z_eff_atima14_lib qmean pz T tz ≤ pz := by
  have hw := winger_bounds pz T tz hz hz' hT ht
  have hh := qHigh_bounds pz T tz (by linarith) hT ht
  by_cases hp : pz ≤ 28
  · rw [atima14_light qmean pz T tz hp]
    exact convex_bounds _ _ _ _ (blend_range _ _ _) hw hh
  have hp : 28 < pz := lt_of_not_ge hp
  obtain ⟨h3, hq⟩ := h hp
  rw [atima14_heavy qmean pz T tz hp]
  refine convex_bounds _ _ _ _ (blend_range _ _ _)
    (convex_bounds _ _ _ _ (blend_range _ _ _) hw ?_) hh
  unfold qGlobal
  dsimp only
  have hE : (30 : ℝ) ≤ max 30 (min T 1500) ∧ max 30 (min T 1500) ≤ 1500 :=
    ⟨le_max_left _ _, max_le (by norm_num) (min_le_right _ _)⟩
  generalize max 30 (min T 1500) = E at hE
  have hpb := pierce_blann_bounds pz (beta_from_T T) (by linarith) (gamma_beta_bounds T hT).2.1.le
  generalize z_eff_Pierce_Blann pz (beta_from_T T) = qpb at hpb
  have hg : 0 ≤ (if pz < 29 then z_eff_Pierce_Blann pz E else qmean pz tz E) ∧
      (if pz < 29 then z_eff_Pierce_Blann pz E else qmean pz tz E) ≤ pz := by
    split
    · have := pierce_blann_bounds pz E (by linarith) (by linarith)
      exact ⟨this.1, this.2.le⟩
    · exact hq E hE.1 hE.2
  generalize (if pz < 29 then z_eff_Pierce_Blann pz E else qmean pz tz E) = g at hg
  have h4 : (4 : ℝ) ≤ tz + 1 := by
    have : (3 : ℝ) ≤ tz := by exact_mod_cast h3
    linarith
  have hpow : (1.4 : ℝ) ≤ (tz + 1 : ℝ) ^ (0.28 : ℝ) := by
    have h5 : (1.4 : ℝ) ≤ (4 : ℝ) ^ (0.28 : ℝ) := by
      have h6 : (1.4 : ℝ) = ((1.4 : ℝ) ^ (25 : ℕ)) ^ ((25 : ℕ) : ℝ)⁻¹ :=
        (Real.pow_rpow_inv_natCast (by norm_num) (by norm_num)).symm
      have h7 : (4 : ℝ) ^ (0.28 : ℝ) = ((4 : ℝ) ^ (7 : ℕ)) ^ ((25 : ℕ) : ℝ)⁻¹ := by
        rw [← Real.rpow_natCast, ← Real.rpow_mul (by norm_num)]
        norm_num
      rw [h6, h7]
      exact Real.rpow_le_rpow (by norm_num) (by norm_num) (by norm_num)
    exact h5.trans (Real.rpow_le_rpow (by norm_num) h4 (by norm_num))
  have e1 : Real.exp (-0.04 * T) ≤ 1 := Real.exp_le_one_iff.mpr (by linarith)
  have e2 := Real.exp_pos (-0.04 * T)
  generalize (tz + 1 : ℝ) ^ (0.28 : ℝ) = w at hpow
  generalize Real.exp (-0.04 * T) = y at e1 e2
  have hκ : 0 ≤ 1.4 / w * (1 - y) ∧ 1.4 / w * (1 - y) ≤ 1 := by
    have hw0 : 0 < w := by linarith
    have h5 : 1.4 / w ≤ 1 := by rw [div_le_one hw0]; exact hpow
    have h6 : 0 ≤ 1.4 / w := by positivity
    constructor
    · exact mul_nonneg h6 (by linarith)
    · nlinarith
  have := convex_bounds (1.4 / w * (1 - y)) qpb g pz hκ ⟨hpb.1, hpb.2.le⟩ hg
  have e : (g - qpb) * 1.4 / w * (1 - y) + qpb =
      (1 - 1.4 / w * (1 - y)) * qpb + 1.4 / w * (1 - y) * g := by ring
  rw [e]
  exact this

/-- Uranium at 400 MeV/u in carbon, with a GLOBAL library reporting bare ions. -/
example : 0 ≤ z_eff_atima14_lib (fun z _ _ => z) 92 400 ((6 : ℤ) : ℝ) ∧
    z_eff_atima14_lib (fun z _ _ => z) 92 400 ((6 : ℤ) : ℝ) ≤ 92 :=
  atima14_bounds_partial _ 92 400 6 (by norm_num) (by norm_num) (by norm_num) (by norm_num)
    fun _ => ⟨by norm_num, fun _ _ _ => ⟨by norm_num, le_rfl⟩⟩

/-- C96 refuted in hydrogen: when the GLOBAL library reports a bare uranium ion at 500 MeV/u, the
effective charge exceeds 92. -/
theorem atima14_exceeds_Z (qmean : ℝ → ℝ → ℝ → ℝ) (hq : qmean 92 1 500 = 92) :
    92 < z_eff_atima14_lib qmean 92 500 1 := by
  rw [atima14_heavy qmean 92 500 1 (by norm_num), blend_le 1000 1500 500 (by norm_num) (by norm_num),
    blend_ge 30 70 500 (by norm_num) (by norm_num)]
  unfold qGlobal
  dsimp only
  have e1 : max (30 : ℝ) (min 500 1500) = 500 := by norm_num
  rw [e1, if_neg (by norm_num), hq]
  have hpb := (pierce_blann_bounds 92 (beta_from_T 500) (by norm_num)
    (gamma_beta_bounds 500 (by norm_num)).2.1.le).2
  generalize z_eff_Pierce_Blann (92 : ℝ) (beta_from_T 500) = qpb at hpb ⊢
  have hy : Real.exp (-0.04 * 500) ≤ 0.01 :=
    exp_neg_le 10 20 _ _ (by norm_num) (by norm_num) (by norm_num)
      (by norm_num [Finset.sum_range_succ, Nat.factorial])
  generalize Real.exp (-0.04 * 500) = y at hy
  have hw : (1 + 1 : ℝ) ^ (0.28 : ℝ) ≤ 1.22 := by
    have h6 : (1.22 : ℝ) = ((1.22 : ℝ) ^ (25 : ℕ)) ^ ((25 : ℕ) : ℝ)⁻¹ :=
      (Real.pow_rpow_inv_natCast (by norm_num) (by norm_num)).symm
    have h7 : (1 + 1 : ℝ) ^ (0.28 : ℝ) = ((2 : ℝ) ^ (7 : ℕ)) ^ ((25 : ℕ) : ℝ)⁻¹ := by
      rw [← Real.rpow_natCast, ← Real.rpow_mul (by norm_num)]
      norm_num
    rw [h6, h7]
    exact Real.rpow_le_rpow (by norm_num) (by norm_num) (by norm_num)
  have hw0 : 0 < (1 + 1 : ℝ) ^ (0.28 : ℝ) := Real.rpow_pos_of_pos (by norm_num) _
  generalize (1 + 1 : ℝ) ^ (0.28 : ℝ) = w at hw hw0
  have h1 : (1.14 : ℝ) ≤ 1.4 / w := by
    rw [le_div_iff₀ hw0]
    linarith
  have h2 : 1.1 ≤ 1.4 / w * (1 - y) := by nlinarith
  have e : (92 - qpb) * 1.4 / w * (1 - y) + qpb = (92 - qpb) * (1.4 / w * (1 - y)) + qpb := by ring
  rw [e]
  nlinarith

end Catima
