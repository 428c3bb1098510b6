import Verif.Spec.NaN
import Verif.Lemmas.Run
import Verif.Lemmas.IntegrateTotal
import Verif.Lemmas.Transparency
import Verif.Lemmas.View
import Verif.Model.Calculate

/-!
# C104: NaN inputs

All theorems hold in every arithmetic with a value that satisfies the laws of NaN.
-/

namespace Catima

variable {α : Type} [Scalar α] {nan : α}

/-! ## Tables and interpolators -/

/-- With the default build option, the index of NaN is the last one. -/
theorem nan_index (hn : IsNaN nan) (t : EnergyTable α) (hs : (t.step =? 0.0) = false) :
    t.index false nan = .ok (t.N - 1) := by
  have hu : t.upperBound nan = t.N := by
    unfold EnergyTable.upperBound
    rw [List.findIdx_eq_length_of_false (by intro k _; exact hn.lt_left _), List.length_range]
  unfold EnergyTable.index
  rw [hn.lt_left, hs]
  simp only [Bool.or_self, Bool.false_eq_true, if_false, hn.le_right, hu]

/-- C104: with the build option that calculates the index, NaN is converted to an integer, which is undefined. -/
theorem nan_calculated_index (hn : IsNaN nan) (t : EnergyTable α) (hs : (t.step =? 0.0) = false) :
    t.index true nan = .error .badCast := by
  unfold EnergyTable.index
  rw [hn.lt_left, hs]
  simp only [Bool.or_self, Bool.false_eq_true, if_false, hn.le_right, if_true, hn.div_left, hn.log, hn.floor]
  unfold castInt
  rw [hn.toInt]
  rfl

/-- C104: linear interpolation at NaN reads behind the last point of the table. -/
theorem nan_interpolate (hn : IsNaN nan) (t : EnergyTable α) (hs : (t.step =? 0.0) = false) (y : List α) :
    t.interpolate false nan y = .error .outOfBounds := by
  unfold EnergyTable.interpolate
  rw [hn.lt_left, nan_index hn t hs]
  simp only [Scalar.gt, hn.lt_right, hn.beq_left, Bool.or_self, Bool.false_eq_true, if_false, bind_ok]
  unfold EnergyTable.get
  rw [if_neg (by omega)]
  rfl

/-- C104: so the precalculated Lindhard-Sorensen correction of a NaN energy is undefined behaviour for every ion. -/
theorem nan_lindhard (hn : IsNaN nan) (p : Projectile α) (z : Int) (hz : Scalar.toInt p.Z = some z)
    (h0 : 1 ≤ z) (h1 : z ≤ 108) (hT : p.T = nan) (hs : ((ls_energy_table : EnergyTable α).step =? 0.0) = false) :
    precalculated_lindhard false p = .error .outOfBounds := by
  have hlen : (108 : ℕ) ≤ ls_coefficients_a.length := by decide +kernel
  have hrow : ∃ r, (lsRowAt ls_coefficients_a (z - 1) : M (List α)) = .ok r := by
    unfold lsRowAt rd
    rw [if_neg (by omega)]
    have : (z - 1).toNat < ls_coefficients_a.length := by omega
    rw [List.getElem?_eq_getElem this]
    exact ⟨_, rfl⟩
  obtain ⟨r, hr⟩ := hrow
  unfold precalculated_lindhard lsZ castInt
  rw [hz, hT, hn.lt_left]
  simp only [bind_ok, Bool.false_eq_true, if_false]
  have : (if z > 110 then 110 else z) = z := if_neg (by omega)
  show lsValue false ls_coefficients_a ls_coefficients_ahi (if z > 110 then 110 else z) p.A nan = _
  rw [this]
  unfold lsValue lsValueOf
  rw [hr]
  simp only [bind_ok]
  rw [nan_interpolate hn _ hs]
  rfl

/-- Whatever an interpolator returns for NaN is NaN. -/
theorem nan_evaluate (hn : IsNaN nan) (s : Spline α) (v : α) (h : s.evaluate nan = .ok v) : v = nan := by
  unfold Spline.evaluate at h
  simp only [Scalar.gt, hn.lt_left, hn.lt_right, hn.sub_left, hn.mul_right, hn.add_right, hn.add_left, hn.mul_left,
    Bool.false_eq_true, if_false] at h
  simp only [ok_bind] at h
  obtain ⟨_, _, _, _, _, _, _, _, _, _, h⟩ := h
  cases h
  rfl

theorem nan_deriv (hn : IsNaN nan) (s : Spline α) (v : α) (h : s.deriv nan = .ok v) : v = nan := by
  unfold Spline.deriv at h
  simp only [Scalar.gt, hn.lt_left, hn.lt_right, hn.sub_left, hn.mul_right, hn.add_right, hn.add_left, hn.mul_left,
    Bool.false_eq_true, if_false] at h
  simp only [ok_bind] at h
  obtain ⟨_, _, _, _, _, _, _, _, h⟩ := h
  cases h
  rfl

/-- C104: the range of a NaN energy is NaN. -/
theorem nan_range_partial (hn : IsNaN nan) (env : Env α) (p : Projectile α) (t : Material α) (c : Config α) (hT : p.T = nan)
    (w w' : World α) (v : α) (h : range env p t c w = .ok (v, w')) : v = nan := by
  unfold range at h
  rw [api_bind] at h
  obtain ⟨d, w1, -, h⟩ := h
  rw [api_pureM, ok_bind] at h
  obtain ⟨⟨s, -, h⟩, -⟩ := h
  rw [hT] at h
  exact nan_evaluate hn s v h

/-! ## The outgoing energy -/

theorem nan_energyOutLoop (hn : IsNaN nan) (debug : Bool) (rs : Spline α) (range th : α) :
    ∀ fuel e dedx v, (range = nan ∨ th = nan) → energyOutLoop debug rs range th fuel e dedx = .ok v → v = -1.0 := by
  intro fuel
  induction fuel with
  | zero => intro e dedx v _ h; cases h; rfl
  | succ fuel ih =>
    intro e dedx v hr h
    unfold energyOutLoop at h
    rw [ok_bind] at h
    obtain ⟨r, -, h⟩ := h
    have hr' : range - r - th = nan := by
      rcases hr with rfl | rfl
      · rw [hn.sub_left, hn.sub_left]
      · rw [hn.sub_right]
    rw [hr'] at h
    simp only [hn.fabs, hn.lt_left, hn.neg, hn.mul_left, hn.sub_right, Bool.false_eq_true, if_false] at h
    rw [ok_bind] at h
    obtain ⟨d, -, h⟩ := h
    rw [ok_ite] at h
    rcases h with ⟨-, h⟩ | ⟨-, h⟩
    · rw [ok_bind] at h
      obtain ⟨-, -, h⟩ := h
      cases h
      rfl
    · exact ih _ _ v hr h

/-- The result of the search for a NaN energy or a NaN thickness. -/
theorem nan_energy_out_spline (hn : IsNaN nan) (debug : Bool) (T th : α) (rs : Spline α) (v : α)
    (hT : T = nan ∨ th = nan) (h : energy_out_spline debug T th rs = .ok v) : v = -1.0 := by
  unfold energy_out_spline at h
  simp only [ok_bind] at h
  obtain ⟨r, hr, d, -, h⟩ := h
  have hor : r = nan ∨ th = nan := by
    rcases hT with rfl | h
    · left; exact nan_evaluate hn rs r hr
    · right; exact h
  have hle : (r ≤? th) = false := by
    rcases hor with rfl | rfl
    · exact hn.le_left _
    · exact hn.le_right _
  rw [hle] at h
  simp only [Bool.false_eq_true, if_false] at h
  exact nan_energyOutLoop hn debug rs r th _ _ _ v hor h

/-- C104, refuted: `energy_out` turns a NaN energy or a NaN thickness into the number -1. -/
theorem nan_energy_out_wrong (hn : IsNaN nan) (env : Env α) (p : Projectile α) (t : Material α) (c : Config α)
    (hT : p.T = nan ∨ t.th = nan) (w w' : World α) (v : α) (h : energy_out env p t c w = .ok (v, w')) : v = -1.0 := by
  unfold energy_out at h
  rw [api_bind] at h
  obtain ⟨d, w1, -, h⟩ := h
  rw [api_pureM, ok_bind] at h
  obtain ⟨⟨s, -, h⟩, -⟩ := h
  exact nan_energy_out_spline hn env.debug p.T t.th s v hT h

/-- C104, refuted: `calculate` reports the outgoing energy -1, and no time of flight, energy spread or slope, for a projectile of NaN energy (the other
fields that depend on the energy are NaN). -/
theorem nan_calculate_wrong (hn : IsNaN nan) (env : Env α) (p : Projectile α) (t : Material α) (c : Config α)
    (hT : p.T = nan) (hth : (t.th =? 0.0) = false) (hneg : ((-1.0 : α) <? Ezero) = true)
    (w w' : World α) (r : Result α) (h : calculate env p t c w = .ok (r, w')) :
    r.Eout = -1.0 ∧ r.tof = 0.0 ∧ r.sigma_E = 0.0 ∧ r.dEdxo = 0.0 ∧
    r.Ein = nan ∧ r.range = nan ∧ r.Eloss = nan ∧ r.dEdxi = nan ∧ r.sigma_r = nan := by
  unfold calculate at h
  simp only [hT, hn.lt_left, Bool.and_self, Bool.false_eq_true, if_false, hth] at h
  rw [api_bind] at h
  obtain ⟨d, w1, -, h⟩ := h
  rw [api_bind] at h
  obtain ⟨rs, w2, -, h⟩ := h
  rw [api_bind] at h
  obtain ⟨ss, w3, -, h⟩ := h
  rw [api_bind] at h
  obtain ⟨rng, w4, hrng, h⟩ := h
  rw [api_pureM] at hrng
  have e1 := nan_evaluate hn rs rng hrng.1
  rw [api_bind] at h
  obtain ⟨di, w5, hdi, h⟩ := h
  rw [api_pureM, ok_bind] at hdi
  obtain ⟨⟨di', hdi', hdi⟩, -⟩ := hdi
  cases hdi
  have e2 := nan_deriv hn rs di' hdi'
  rw [api_bind] at h
  obtain ⟨sr, w6, hsr, h⟩ := h
  rw [api_pureM, ok_bind] at hsr
  obtain ⟨⟨sr', hsr', hsr⟩, -⟩ := hsr
  cases hsr
  have e3 := nan_evaluate hn ss sr' hsr'
  rw [api_bind] at h
  obtain ⟨eo, w7, heo, h⟩ := h
  rw [api_pureM] at heo
  have e4 := nan_energy_out_spline hn env.debug nan t.th rs eo (Or.inl rfl) heo.1
  subst e4
  simp only [hneg, if_true] at h
  rw [api_bind] at h
  obtain ⟨res, w8, hres, h⟩ := h
  rw [api_pure] at hres
  obtain ⟨hres, -⟩ := hres
  rw [api_bind] at h
  obtain ⟨sx, w9, -, h⟩ := h
  rw [api_bind] at h
  obtain ⟨cv, w10, -, h⟩ := h
  rw [api_bind] at h
  obtain ⟨sp, w11, -, h⟩ := h
  rw [api_pure] at h
  obtain ⟨h, -⟩ := h
  subst h
  subst hres
  refine ⟨rfl, rfl, rfl, rfl, rfl, e1, ?_, ?_, ?_⟩
  · show (nan - -1.0) * p.A = nan
    rw [hn.sub_left, hn.mul_left]
  · show p.A / di' = nan
    rw [e2, hn.div_right]
  · show Scalar.sqrt sr' = nan
    rw [e3, hn.sqrt]

/-- C104, refuted: with two or more layers the total reports the outgoing energy 0, as if the projectile had been stopped. -/
theorem nan_layers_wrong (hn : IsNaN nan) (env : Env α) (p : Projectile α) (ps : Phasespace α)
    (m m' : Material α) (ms : List (Material α)) (c : Config α)
    (hT : p.T = nan) (hth : (m.th =? 0.0) = false)
    (h1 : ((-1.0 : α) <? Ezero) = true) (h1' : ((-1.0 : α) <? Ezero - numeric_epsilon) = true)
    (h0 : ((0.0 : α) <? Ezero) = true) (h0' : ((0.0 : α) <? Ezero - numeric_epsilon) = true)
    (w w' : World α) (r : MultiResult α) (h : calculate_layers env p ps ⟨m :: m' :: ms⟩ c w = .ok (r, w')) :
    r.total_result.Eout = 0.0 ∧ r.total_result.Ein = nan ∧ (r.results.head?.map Result.Eout = some (-1.0)) := by
  have hstop : ∀ (e : α) (m : Material α) (w w' : World α) (r : Result α), (e <? Ezero) = true →
      (e <? Ezero - numeric_epsilon) = true → calculate_T env p m e c w = .ok (r, w') → r = Result.init := by
    intro e m w w' r he he' h
    unfold calculate_T calculate at h
    have hpe : (p.withT e).T = e := rfl
    simp only [hpe, he, he', Bool.and_self, if_true] at h
    rw [api_pure] at h
    exact h.1.symm
  have hloop : ∀ (l : List (Material α)) (e : α) (tot : Result α) (w w' : World α) x, (e <? Ezero) = true →
      (e <? Ezero - numeric_epsilon) = true → (l ≠ [] ∨ tot.Eout = 0.0) → layersLoop env p c l e tot w = .ok (x, w') →
      x.2.1.Eout = 0.0 ∧ x.2.1.Ein = tot.Ein := by
    intro l
    induction l with
    | nil =>
      intro e tot w w' x _ _ hl h
      rw [layersLoop, api_pure] at h
      obtain ⟨h, -⟩ := h
      subst h
      rcases hl with hl | hl
      · exact absurd rfl hl
      · exact ⟨hl, rfl⟩
    | cons m l ih =>
      intro e tot w w' x he he' _ h
      rw [layersLoop, api_bind] at h
      obtain ⟨r, w1, hr, h⟩ := h
      have hri := hstop e m w w1 r he he' hr
      subst hri
      rw [api_bind] at h
      obtain ⟨y, w2, hy, h⟩ := h
      rw [api_pure] at h
      obtain ⟨h, -⟩ := h
      subst h
      have := ih Result.init.Eout (addLayerResult m Result.init tot) w1 w2 y h0 h0' (Or.inr rfl) hy
      exact this
  unfold calculate_layers at h
  rw [api_bind] at h
  obtain ⟨x, w1, hx, h⟩ := h
  rw [api_pure] at h
  obtain ⟨h, -⟩ := h
  subst h
  rw [layersLoop, api_bind] at hx
  obtain ⟨r, w2, hr, hx⟩ := hx
  have hr1 := nan_calculate_wrong hn env (p.withT p.T) m c hT hth h1 w w2 r hr
  rw [api_bind] at hx
  obtain ⟨y, w3, hy, hx⟩ := hx
  rw [api_pure] at hx
  obtain ⟨hx, -⟩ := hx
  subst hx
  rw [hr1.1] at hy
  obtain ⟨k1, k2⟩ := hloop (m' :: ms) _ _ w2 w3 y h1 h1' (Or.inl (by simp)) hy
  refine ⟨?_, ?_, ?_⟩
  · show (finishTotal y.2.2 y.2.1).Eout = 0.0
    unfold finishTotal
    split_ifs <;> exact k1
  · show (finishTotal y.2.2 y.2.1).Ein = nan
    unfold finishTotal
    have : y.2.1.Ein = nan := by rw [k2]; exact hT
    split_ifs <;> exact this
  · show some r.Eout = _
    rw [hr1.1]

/-! ## The default build -/

/-- The interpolators of a data point returned by the cache are built on the energy table. -/
theorem reachable_splines (env : Env α) (w w' : World α) (hr : ReachableW env w) (p : Projectile α) (t : Material α)
    (c : Config α) (d : DataPoint α) (hd : get_data env p t c w = .ok (d, w')) (s : Spline α)
    (hs : get_range_spline env d = .ok s) : s.grid = energy_table.grid env.calcIndex := by
  have hnew : ∀ y (s : Spline α), newSpline env y = .ok s → s.grid = energy_table.grid env.calcIndex := by
    intro y s h
    unfold newSpline Spline.new at h
    rw [ok_ite] at h
    rcases h with ⟨-, h⟩ | ⟨-, h⟩
    · cases h
    · rw [ok_bind] at h
      obtain ⟨b, -, h⟩ := h
      cases h
      rfl
  by_cases hss : env.storeSplines = true
  · have hreach := reachableW_reachable env w hr
    have hent := reachable_entries (f := Storage.computeDP env)
      (P := fun e => e = .default ∨ ∃ p t c, Storage.computeDP env p t c = .ok e) (.inl rfl)
      (fun p t c d hd => .inr ⟨p, t, c, hd⟩) hreach
    have hd' : d = .default ∨ ∃ p t c, Storage.computeDP env p t c = .ok d := by
      unfold get_data at hd
      rw [ok_bind] at hd
      obtain ⟨⟨d1, s1⟩, h1, h2⟩ := hd
      cases h2
      rcases getWith_cases (k := ⟨p, t, c⟩) (reachable_shape hreach) h1 with ⟨_, h2, -, -⟩ | ⟨_, h2, -⟩
      · exact hent _ h2
      · exact .inr ⟨_, _, _, h2⟩
    unfold get_range_spline at hs
    rw [if_pos hss] at hs
    rcases hd' with rfl | ⟨p', t', c', hc⟩
    · cases hs
    · unfold Storage.computeDP DataPoint.withSplines at hc
      simp only [hss, if_true, ok_bind] at hc
      obtain ⟨d0, _, r, hr, _, _, _, _, hc⟩ := hc
      cases hc
      cases hs
      exact hnew _ _ hr
  · unfold get_range_spline at hs
    rw [if_neg hss] at hs
    exact hnew _ _ hs

/-- C104, refuted: in the default build (`ET_CALCULATED_INDEX`), `range`, `energy_out` and `calculate` for a NaN energy convert
NaN to an integer, which is undefined behaviour; none of them ever returns a value. -/
theorem nan_energy_wrong (hn : IsNaN nan) (env : Env α) (hci : env.calcIndex = true)
    (hstep : ((energy_table : EnergyTable α).step =? 0.0) = false) (w : World α) (hr : ReachableW env w)
    (p : Projectile α) (t : Material α) (c : Config α) (hT : p.T = nan) :
    (∀ x, range env p t c w ≠ .ok x) ∧ (∀ x, energy_out env p t c w ≠ .ok x) ∧ (∀ x, calculate env p t c w ≠ .ok x) := by
  have hev : ∀ d w' s, get_data env p t c w = .ok (d, w') → get_range_spline env d = .ok s →
      s.evaluate nan = .error .badCast := by
    intro d w' s hd hs
    have hg := reachable_splines env w w' hr p t c d hd s hs
    unfold Spline.evaluate
    rw [hg, hci]
    show (energy_table.index true nan >>= _) = _
    rw [nan_calculated_index hn _ hstep]
    rfl
  refine ⟨fun x h => ?_, fun x h => ?_, fun x h => ?_⟩
  · unfold range at h
    rw [show x = (x.1, x.2) from rfl, api_bind] at h
    obtain ⟨d, w1, hd, h⟩ := h
    rw [api_pureM, ok_bind] at h
    obtain ⟨⟨s, hs, h⟩, -⟩ := h
    rw [hT, hev d w1 s hd hs] at h
    cases h
  · unfold energy_out at h
    rw [show x = (x.1, x.2) from rfl, api_bind] at h
    obtain ⟨d, w1, hd, h⟩ := h
    rw [api_pureM, ok_bind] at h
    obtain ⟨⟨s, hs, h⟩, -⟩ := h
    unfold energy_out_spline at h
    rw [hT, hev d w1 s hd hs] at h
    cases h
  · unfold calculate at h
    simp only [hT, hn.lt_left, Bool.and_self, Bool.false_eq_true, if_false] at h
    rw [show x = (x.1, x.2) from rfl, api_bind] at h
    obtain ⟨d, w1, hd, h⟩ := h
    rw [api_bind] at h
    obtain ⟨rs, w2, hrs, h⟩ := h
    rw [api_pureM] at hrs
    rw [api_bind] at h
    obtain ⟨ss, w3, -, h⟩ := h
    rw [api_bind] at h
    obtain ⟨rng, w4, hrng, h⟩ := h
    rw [api_pureM, hev d w1 rs hd hrs.1] at hrng
    cases hrng.1

/-- C104, refuted: the same for a NaN thickness. -/
theorem nan_thickness_wrong (hn : IsNaN nan) (env : Env α) (hci : env.calcIndex = true)
    (hstep : ((energy_table : EnergyTable α).step =? 0.0) = false) (w : World α) (hr : ReachableW env w)
    (p : Projectile α) (t : Material α) (c : Config α) (hth : t.th = nan) :
    (∀ x, energy_out env p t c w ≠ .ok x) ∧ ((p.T <? Ezero) = false → ∀ x, calculate env p t c w ≠ .ok x) := by
  have hev : ∀ d w' s, get_data env p t c w = .ok (d, w') → get_range_spline env d = .ok s →
      ∀ x, energy_out_spline env.debug p.T nan s ≠ .ok x := by
    intro d w' s hd hs x h
    have hg := reachable_splines env w w' hr p t c d hd s hs
    unfold energy_out_spline at h
    simp only [ok_bind, hn.le_right, hn.mul_left, hn.sub_right, Bool.false_eq_true, if_false] at h
    obtain ⟨r, -, d, -, h⟩ := h
    unfold energyOutLoop at h
    rw [ok_bind] at h
    obtain ⟨r', h, -⟩ := h
    unfold Spline.evaluate at h
    rw [hg, hci] at h
    have : ((energy_table : EnergyTable α).grid true).index nan = .error .badCast := nan_calculated_index hn _ hstep
    rw [this] at h
    cases h
  refine ⟨fun x h => ?_, fun hE x h => ?_⟩
  · unfold energy_out at h
    rw [show x = (x.1, x.2) from rfl, api_bind] at h
    obtain ⟨d, w1, hd, h⟩ := h
    rw [api_pureM, ok_bind] at h
    obtain ⟨⟨s, hs, h⟩, -⟩ := h
    rw [hth] at h
    exact hev d w1 s hd hs _ h
  · unfold calculate at h
    simp only [hE, hth, hn.beq_left, Bool.false_and, Bool.false_eq_true, if_false] at h
    rw [show x = (x.1, x.2) from rfl, api_bind] at h
    obtain ⟨d, w1, hd, h⟩ := h
    rw [api_bind] at h
    obtain ⟨rs, w2, hrs, h⟩ := h
    rw [api_pureM] at hrs
    rw [api_bind] at h
    obtain ⟨ss, w3, -, h⟩ := h
    rw [api_bind] at h
    obtain ⟨rng, w4, -, h⟩ := h
    rw [api_bind] at h
    obtain ⟨di, w5, -, h⟩ := h
    rw [api_bind] at h
    obtain ⟨sr, w6, -, h⟩ := h
    rw [api_bind] at h
    obtain ⟨eo, w7, heo, h⟩ := h
    rw [api_pureM] at heo
    exact hev d w1 rs hd hrs.1 _ heo.1

/-! ## Materials -/

/-- C104, refuted: a material of NaN density is equal to the same material with any density, so it uses a cached entry that belongs to
another density. -/
theorem nan_density_wrong (hn : IsNaN nan) (m : Material α) (ρ : α) (hm : (m.set_density ρ).eq (m.set_density ρ) = true) :
    (m.set_density nan).eq (m.set_density ρ) = true ∧ (m.set_density ρ).eq (m.set_density nan) = true := by
  unfold Material.eq Material.set_density at hm ⊢
  simp only [hn.sub_left, hn.sub_right, hn.fabs, Scalar.gt, hn.lt_right, Bool.not_false, Bool.true_and] at hm ⊢
  simp only [Bool.and_eq_true] at hm ⊢
  obtain ⟨⟨⟨⟨-, h1⟩, h2⟩, h3⟩, h4⟩ := hm
  exact ⟨⟨⟨⟨h1, h2⟩, h3⟩, h4⟩, ⟨⟨⟨h1, h2⟩, h3⟩, h4⟩⟩

/-! ## Concrete cases -/

/-- An interpolator with coefficients for every point of its table returns NaN for NaN, so the outgoing energy is -1. -/
theorem nan_energy_out_defined (hn : IsNaN nan) (s : Spline α) (T th : α) (hT : T = nan)
    (hg : s.grid = energy_table.grid false) (hstep : ((energy_table : EnergyTable α).step =? 0.0) = false)
    (ha : s.a.length = 600) (hb : s.b.length = 600) (hc : s.c.length = 600) (hy : s.y.length = 600) :
    s.evaluate nan = .ok nan ∧ energy_out_spline false T th s = .ok (-1.0) := by
  subst hT
  have hidx : s.grid.index T = .ok 599 := by
    rw [hg]
    exact nan_index hn energy_table hstep
  have hrd : ∀ l : List α, l.length = 600 → ∃ v, rd l 599 = .ok v := by
    intro l hl
    unfold rd
    rw [if_neg (by omega), List.getElem?_eq_getElem (by rw [hl]; decide)]
    exact ⟨_, rfl⟩
  obtain ⟨va, ea⟩ := hrd _ ha
  obtain ⟨vb, eb⟩ := hrd _ hb
  obtain ⟨vc, ec⟩ := hrd _ hc
  obtain ⟨vy, ey⟩ := hrd _ hy
  have hmax : max (599 : Int) 0 = 599 := by decide
  have hev : s.evaluate T = .ok T := by
    unfold Spline.evaluate
    rw [hidx]
    simp only [bind_ok, hmax, Scalar.gt, hn.lt_left, hn.lt_right, Bool.false_eq_true, if_false, ea, eb, ec, ey]
    show Except.ok _ = _
    rw [hn.sub_left, hn.mul_right, hn.add_left]
  have hde : s.deriv T = .ok T := by
    unfold Spline.deriv
    rw [hidx]
    simp only [bind_ok, hmax, Scalar.gt, hn.lt_left, hn.lt_right, Bool.false_eq_true, if_false, ea, eb, ec]
    show Except.ok _ = _
    rw [hn.sub_left, hn.mul_right, hn.add_left]
  have hloop : ∀ fuel, energyOutLoop false s T th fuel T T = .ok (-1.0) := by
    intro fuel
    induction fuel with
    | zero => rfl
    | succ fuel ih =>
      unfold energyOutLoop
      rw [hev]
      simp only [bind_ok, hn.sub_left, hn.fabs, hn.lt_left, hn.neg, hn.mul_left, Bool.false_eq_true, if_false, hde,
        hn.div_right]
      split_ifs
      · rfl
      · exact ih
  refine ⟨hev, ?_⟩
  unfold energy_out_spline
  rw [hev, hde]
  simp only [bind_ok, hn.le_left, hn.div_right, hn.mul_right, hn.sub_left, Bool.false_eq_true, if_false]
  exact hloop 101

/-- The integral of a function that always returns. -/
theorem integrate_returns (f : α → M α) (hf : ∀ x, ∃ v, f x = .ok v) (a b : α) : ∃ v, integrator.integrate f a b = .ok v := by
  choose g hg using hf
  rw [show f = fun x => .ok (g x) from funext hg]
  exact integrate_total integrator (by simp [integrator, GLData.supported]) g a b

theorem api_returns {β γ : Type} {x : Api α β} {f : β → Api α γ} {w w1 : World α} {a : β} (h : x w = .ok (a, w1))
    (h' : ∃ r w', f a w1 = .ok (r, w')) : ∃ r w', (x >>= f) w = .ok (r, w') := by
  obtain ⟨r, w', h'⟩ := h'
  exact ⟨r, w', api_bind.mpr ⟨a, w1, h, h'⟩⟩

/-- Without the calculated index, `calculate` does return for a projectile of NaN energy whose tables are in the cache. -/
theorem nan_calculate_returns (hn : IsNaN nan) (junk : Junk α) (p : Projectile α) (t : Material α) (c : Config α)
    (d : DataPoint α) (hT : p.T = nan) (hth : (t.th =? 0.0) = false) (hneg : ((-1.0 : α) <? Ezero) = true)
    (hneg' : ((-1.0 : α) <? emin_reaction) = true) (h2 : ((2.0 : α) =? 0.0) = false)
    (hstep : ((energy_table : EnergyTable α).step =? 0.0) = false) (hc : c.scattering ≠ scattering_gottschalk)
    (hhit : Storage.hit p t c d = true) (hr : d.range.length = 600) (hs : d.range_straggling.length = 600)
    (w : World α) (hw : w.storage.slots = [d]) :
    ∃ r w', calculate ⟨false, false, false, false, junk⟩ p t c w = .ok (r, w') := by
  obtain ⟨env, henv⟩ : ∃ e : Env α, e = ⟨false, false, false, false, junk⟩ := ⟨_, rfl⟩
  have hdb : env.debug = false := by rw [henv]
  have hci : env.calcIndex = false := by rw [henv]
  have hss : env.storeSplines = false := by rw [henv]
  rw [← henv]
  have hget : ∀ q : Projectile α, Storage.hit q t c d = true → get_data env q t c w = .ok (d, w) := by
    intro q hq
    unfold get_data Storage.getWith
    rw [hw]
    simp only [List.find?_cons, hq]
    rfl
  have hnew : ∀ y : List α, y.length = 600 → ∃ s, newSpline env y = .ok s ∧ s.grid = energy_table.grid false ∧
      s.a.length = 600 ∧ s.b.length = 600 ∧ s.c.length = 600 ∧ s.y.length = 600 := by
    intro y hy
    unfold newSpline Spline.new
    rw [hci, if_neg (by rw [hy]; exact (show ¬600 < max_datapoints by decide))]
    have htr : ∃ bs, (Spline.matrix (energy_table.grid false : Grid α).n (energy_table.grid false : Grid α).val
        env.junk).trig_solve (energy_table.grid false : Grid α).n
        (Spline.rhs (energy_table.grid false : Grid α).n (energy_table.grid false : Grid α).val (fun i => y.getD i 0.0)) =
        .ok bs := by
      unfold Tridiag.trig_solve
      have : (Spline.matrix (energy_table.grid false : Grid α).n (energy_table.grid false : Grid α).val
        env.junk).d 0 = 2.0 := rfl
      rw [this, h2]
      simp only [Bool.false_eq_true, if_false]
      split <;> exact ⟨_, rfl⟩
    obtain ⟨bs, hbs⟩ := htr
    rw [hbs]
    refine ⟨_, rfl, rfl, ?_, ?_, ?_, hy⟩
    all_goals
      show (List.map _ (List.range 599) ++ [_]).length = 600
      rw [List.length_append, List.length_map, List.length_range, List.length_singleton]
  obtain ⟨rs, hrs, g1, a1, b1, c1, y1⟩ := hnew _ hr
  obtain ⟨ss, hss', g2, a2, b2, c2, y2⟩ := hnew _ hs
  have hgr : get_range_spline env d = .ok rs := by
    unfold get_range_spline; rw [if_neg (by rw [hss]; simp), hrs]
  have hgs : get_range_straggling_spline env d = .ok ss := by
    unfold get_range_straggling_spline; rw [if_neg (by rw [hss]; simp), hss']
  have eR := fun th => nan_energy_out_defined hn rs nan th rfl g1 hstep a1 b1 c1 y1
  have eS := (nan_energy_out_defined hn ss nan nan rfl g2 hstep a2 b2 c2 y2).1
  have hder : ∃ v, rs.deriv nan = .ok v := by
    have := (eR nan).2
    unfold energy_out_spline at this
    simp only [ok_bind] at this
    obtain ⟨_, _, v, hv, _⟩ := this
    exact ⟨v, hv⟩
  obtain ⟨dv, hdv⟩ := hder
  have hang : ∀ n : Int, ∃ v, angular_variance env (p.withT nan) t c n w = .ok (v, w) := by
    intro n
    have hint : ∃ v, integrator.integrate (fx0p env.debug (p.withT nan) t c n rs
        (smin (nan / t.rho) t.thickness_cm) (radiation_length t)) 0.0 (smin (nan / t.rho) t.thickness_cm) = .ok v := by
      apply integrate_returns
      intro x
      unfold fx0p
      rw [hdb]
      have : (p.withT nan).T = nan := rfl
      rw [this, (eR _).2]
      exact ⟨_, rfl⟩
    obtain ⟨v, hv⟩ := hint
    have hfrom : ∃ v, angular_variance_from env (p.withT nan) t c n rs = .ok v := by
      unfold angular_variance_from
      have : (p.withT nan).T = nan := rfl
      simp only [this, (eR nan).1, bind_ok, if_neg hc, hv]
      exact ⟨_, rfl⟩
    obtain ⟨v', hv'⟩ := hfrom
    refine ⟨v', ?_⟩
    unfold angular_variance
    simp only [api_bind, api_pureM, ok_cassert, hdb]
    exact ⟨(), w, ⟨rfl, rfl⟩, (), w, ⟨rfl, rfl⟩, (), w, ⟨rfl, rfl⟩, d, w, hget _ hhit, by rw [hgr]; exact hv', rfl⟩
  have hnr : ∃ v, nonreaction_rate env p t c w = .ok (v, w) := by
    unfold nonreaction_rate
    rw [hT, hn.lt_left]
    simp only [Bool.false_eq_true, if_false]
    split_ifs
    · exact ⟨_, rfl⟩
    · refine ⟨-1.0, ?_⟩
      rw [api_bind]
      refine ⟨d, w, hget _ hhit, ?_⟩
      rw [api_pureM, hgr]
      refine ⟨?_, rfl⟩
      show nonreaction_rate_from env p t rs = _
      unfold nonreaction_rate_from
      rw [hT, hdb, (eR _).2]
      simp only [bind_ok, hneg', if_true]
      rfl
  obtain ⟨v2, hv2⟩ := hang 2
  obtain ⟨v1, hv1⟩ := hang 1
  obtain ⟨v3, hv3⟩ := hnr
  unfold calculate
  simp only [hT, hn.lt_left, Bool.and_self, Bool.false_eq_true, if_false, hth]
  refine api_returns (hget _ hhit) (api_returns (api_pureM.mpr ⟨hgr, rfl⟩) (api_returns (api_pureM.mpr ⟨hgs, rfl⟩)
    (api_returns (api_pureM.mpr ⟨(eR nan).1, rfl⟩) (api_returns (a := p.A / dv) (api_pureM.mpr ⟨by rw [hdv]; rfl, rfl⟩)
    (api_returns (a := Scalar.sqrt nan) (api_pureM.mpr ⟨by rw [eS]; rfl, rfl⟩)
    (api_returns (a := -1.0) (api_pureM.mpr ⟨by rw [hdb]; exact (eR _).2, rfl⟩) ?_))))))
  simp only [hneg, if_true]
  exact api_returns (api_pure.mpr ⟨rfl, rfl⟩) (api_returns hv2 (api_returns hv1 (api_returns hv3 ⟨_, _, rfl⟩)))

theorem nreal_step : ((energy_table : EnergyTable NReal).step =? 0.0) = false := by
  show Scalar.beq ((7.0 - -3.0) / (((600 : ℤ) : ℝ) - 1.0) : ℝ) 0.0 = false
  rw [beq_real_false]
  norm_num

theorem nreal_ls_step : ((ls_energy_table : EnergyTable NReal).step =? 0.0) = false := by
  show Scalar.beq ((7.0 - 0.0) / (((200 : ℤ) : ℝ) - 1.0) : ℝ) 0.0 = false
  rw [beq_real_false]
  norm_num

/-- Carbon of NaN energy in the default build. -/
example (t : Material NReal) : ∀ x, calculate Env.default ⟨12.0, 6.0, 6.0, NReal.nan⟩ t .default World.init ≠ .ok x :=
  (nan_energy_wrong NReal.isNaN _ rfl nreal_step _ ⟨[], rfl⟩ _ _ _ rfl).2.2

/-- Carbon of 100 MeV/u and a NaN thickness in the default build. -/
example (t : Material NReal) : ∀ x, calculate Env.default ⟨12.0, 6.0, 6.0, 100.0⟩ (t.set_thickness NReal.nan)
    .default World.init ≠ .ok x :=
  (nan_thickness_wrong NReal.isNaN _ rfl nreal_step _ ⟨[], rfl⟩ _ _ _ rfl).2 (by
    show Scalar.lt (100.0 : ℝ) 1.0e-3 = false
    rw [lt_real_false]
    norm_num)

/-- The Lindhard-Sorensen correction of carbon. -/
example : precalculated_lindhard false (⟨12.0, 6.0, 6.0, NReal.nan⟩ : Projectile NReal) = .error .outOfBounds :=
  nan_lindhard NReal.isNaN _ 6 (by
    show Scalar.toInt (6.0 : ℝ) = some 6
    rw [toInt_real, if_pos (by norm_num), if_pos (by norm_num)]
    norm_num) (by norm_num) (by norm_num) rfl nreal_ls_step

/-- Interpolation in a table of zeros. -/
example : energy_out_spline false NReal.nan 1.0
    ⟨energy_table.grid false, List.replicate 600 0.0, List.replicate 600 0.0, List.replicate 600 0.0,
      List.replicate 600 0.0, 0.0, 0.0⟩ = .ok (-1.0) :=
  (nan_energy_out_defined NReal.isNaN _ _ _ rfl rfl nreal_step List.length_replicate
    List.length_replicate List.length_replicate List.length_replicate).2

/-- A cached carbon beam in hydrogen: `calculate` returns for the NaN energy, and the returned exit energy is -1. -/
example : ∃ r w', calculate ⟨false, false, false, false, ⟨0.0, 0.0⟩⟩ (⟨12.0, 6.0, 6.0, NReal.nan⟩ : Projectile NReal)
    ⟨1.0, 1.0, 1.0, 0.0, [⟨1.0, 1, 1.0⟩]⟩ .default
    { World.init with storage := ⟨[⟨⟨12.0, 6.0, 6.0, 10.0⟩, ⟨1.0, 1.0, 1.0, 0.0, [⟨1.0, 1, 1.0⟩]⟩, .default,
      List.replicate 600 0.0, List.replicate 600 0.0, List.replicate 600 0.0, none⟩], 0⟩ } = .ok (r, w') ∧ r.Eout = -1.0 := by
  have hb : ∀ m s e, Scalar.beq (OfScientific.ofScientific m s e : NReal) (OfScientific.ofScientific m s e) = true := by
    intro m s e
    show Scalar.beq (OfScientific.ofScientific m s e : ℝ) (OfScientific.ofScientific m s e) = true
    rw [beq_real]
  have hneg : ((-1.0 : NReal) <? Ezero) = true := by
    show Scalar.lt (-1.0 : ℝ) 1.0e-3 = true
    rw [lt_real]; norm_num
  have hth : ((1.0 : NReal) =? 0.0) = false := by
    show Scalar.beq (1.0 : ℝ) 0.0 = false
    rw [beq_real_false]; norm_num
  have hf : ∀ z : ℝ, 0 < z → Scalar.lt (α := NReal) (some z) (Scalar.fabs ((1.0 : NReal) - 1.0)) = false := by
    intro z hz
    show Scalar.lt (z : ℝ) (Scalar.fabs ((1.0 : ℝ) - 1.0)) = false
    rw [lt_real_false, fabs_real, sub_self, abs_zero]
    exact hz.le
  have hf0 : Scalar.lt (1.0e-6 : NReal) (Scalar.fabs ((0.0 : NReal) - 0.0)) = false := by
    show Scalar.lt (1.0e-6 : ℝ) (Scalar.fabs ((0.0 : ℝ) - 0.0)) = false
    rw [lt_real_false, fabs_real]
    norm_num
  obtain ⟨r, w', h⟩ := nan_calculate_returns NReal.isNaN ⟨0.0, 0.0⟩ (⟨12.0, 6.0, 6.0, NReal.nan⟩ : Projectile NReal)
    ⟨1.0, 1.0, 1.0, 0.0, [⟨1.0, 1, 1.0⟩]⟩ .default
    ⟨⟨12.0, 6.0, 6.0, 10.0⟩, ⟨1.0, 1.0, 1.0, 0.0, [⟨1.0, 1, 1.0⟩]⟩, .default, List.replicate 600 0.0,
      List.replicate 600 0.0, List.replicate 600 0.0, none⟩ rfl hth hneg
    (by
      show Scalar.lt (-1.0 : ℝ) 30.0 = true
      rw [lt_real]; norm_num)
    (by
      show Scalar.beq (2.0 : ℝ) 0.0 = false
      rw [beq_real_false]; norm_num) nreal_step (by decide)
    (by
      unfold Storage.hit Projectile.eq Material.eq Material.atomEq Config.eq
      have h1 : Scalar.lt (1.0e-6 : NReal) (Scalar.fabs ((1.0 : NReal) - 1.0)) = false := hf 1.0e-6 (by norm_num)
      have h3 : Scalar.lt (1.0e-3 : NReal) (Scalar.fabs ((1.0 : NReal) - 1.0)) = false := hf 1.0e-3 (by norm_num)
      simp only [Config.default, Scalar.gt, h1, h3, hf0, hb, List.zip_cons_cons, List.zip_nil_left, List.all_cons,
        List.all_nil, beq_self_eq_true, Bool.not_false, Bool.and_self, Bool.true_and])
    List.length_replicate List.length_replicate { World.init with storage := ⟨[_], 0⟩ } rfl
  exact ⟨r, w', h, (nan_calculate_wrong NReal.isNaN _ _ _ _ rfl hth hneg _ _ _ h).1⟩

/-- Water with NaN density equals water. -/
example : (Material.mk (NReal.nan) 0.0 18.0 0.0 [⟨1.0, 1, 2.0⟩, ⟨16.0, 8, 1.0⟩]).eq
    ⟨1.0, 0.0, 18.0, 0.0, [⟨1.0, 1, 2.0⟩, ⟨16.0, 8, 1.0⟩]⟩ = true := by
  have hb : ∀ m s e, Scalar.beq (OfScientific.ofScientific m s e : NReal) (OfScientific.ofScientific m s e) = true := by
    intro m s e
    show Scalar.beq (OfScientific.ofScientific m s e : ℝ) (OfScientific.ofScientific m s e) = true
    rw [beq_real]
  refine (nan_density_wrong NReal.isNaN ⟨1.0, 0.0, 18.0, 0.0, [⟨1.0, 1, 2.0⟩, ⟨16.0, 8, 1.0⟩]⟩ 1.0 ?_).1
  have h0 : Scalar.lt (1.0e-6 : NReal) (Scalar.fabs ((1.0 : NReal) - 1.0)) = false := by
    show Scalar.lt (1.0e-6 : ℝ) (Scalar.fabs ((1.0 : ℝ) - 1.0)) = false
    rw [lt_real_false, fabs_real]
    norm_num
  unfold Material.eq Material.set_density Material.atomEq
  simp only [Scalar.gt, h0, hb, List.zip_cons_cons, List.zip_nil_left, List.all_cons, List.all_nil, beq_self_eq_true,
    Bool.not_false, Bool.and_self]

end Catima
