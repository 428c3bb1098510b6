import Verif.Props.Calculate

/-!
# C54-C57: when `calculate` returns
-/

namespace Catima

/-- Interpolators that can be evaluated everywhere, as all of `newSpline` are (`spline_total`). -/
def Spline.Total (rs : Spline ℝ) : Prop :=
  (∀ x, (∃ v, rs.evaluate x = .ok v) ∧ ∃ v, rs.deriv x = .ok v) ∧
  ∀ T th, ∃ E, energy_out_spline false T th rs = .ok E

theorem newSpline_total (env : Env ℝ) (y : List ℝ) (hy : y.length = 600) :
    ∃ s, newSpline env y = .ok s ∧ s.Total := by
  obtain ⟨s, hs, ht⟩ := spline_total env.junk _ _ (library_table_ordered env.calcIndex) y hy
  obtain ⟨s', hs', hE⟩ := energy_out_defined env.junk _ _ (library_table_ordered env.calcIndex) y hy
  rw [hs] at hs'
  cases hs'
  exact ⟨s, hs, ht, hE⟩

theorem integrator_total (f : ℝ → M ℝ) (a b : ℝ) (h : ∀ x, ∃ v, f x = .ok v) :
    ∃ I, integrator.integrate f a b = .ok I := by
  choose g hg using h
  exact ⟨_, integrator.integrate_eq
    (integrator.shape (GLData.supported_shape _ integrator_supported)).1 f g a b fun e _ => hg _⟩

/-- Every component has an atomic weight that fits in an `int`; needed only by the Gottschalk model. -/
def ScatteringReadable (t : Material ℝ) (c : Config ℝ) : Prop :=
  c.scattering = scattering_gottschalk → ∀ a ∈ t.atoms, |a.A| < 2 ^ 31 - 1

theorem castInt_small (x : ℝ) (h : |x| < 2 ^ 31 - 1) : ∃ i, castInt x = .ok i := by
  obtain ⟨h1, h2⟩ := abs_lt.mp h
  norm_num at h1 h2
  unfold castInt
  rw [toInt_real, if_pos ⟨by linarith, by linarith⟩]
  exact ⟨_, rfl⟩

theorem foldlM_total {β γ : Type} (l : List β) (f : γ → β → M γ) (h : ∀ x ∈ l, ∀ r, ∃ v, f r x = .ok v)
    (r : γ) : ∃ v, l.foldlM f r = .ok v := by
  induction l generalizing r with
  | nil => exact ⟨r, rfl⟩
  | cons x l ih =>
    obtain ⟨v, hv⟩ := h x (by simp) r
    obtain ⟨u, hu⟩ := ih (fun y hy => h y (by simp [hy])) v
    exact ⟨u, by rw [List.foldlM_cons, hv, bind_ok]; exact hu⟩

theorem scattering_length_total (t : Material ℝ) (h : ∀ a ∈ t.atoms, |a.A| < 2 ^ 31 - 1) :
    ∃ v, scattering_length t = .ok v := by
  unfold scattering_length
  obtain ⟨v, hv⟩ := foldlM_total t.atoms (fun sum t_1 => do
    let a ← castInt t_1.A
    return sum + t.wfrac t_1 / scattering_length_az a t_1.Z) (fun a ha r => by
      obtain ⟨i, hi⟩ := castInt_small a.A (h a ha)
      exact ⟨_, by rw [hi, bind_ok]; rfl⟩) 0.0
  exact ⟨_, by rw [hv, bind_ok]; rfl⟩

theorem angular_variance_total (env : Env ℝ) (hdbg : env.debug = false) (p : Projectile ℝ)
    (t : Material ℝ) (c : Config ℝ) (o : Int) (rs : Spline ℝ) (hrs : rs.Total)
    (hsc : ScatteringReadable t c) : ∃ v, angular_variance_from env p t c o rs = .ok v := by
  unfold angular_variance_from
  obtain ⟨⟨R, hR⟩, -⟩ := hrs.1 p.T
  dsimp only
  rw [hR, bind_ok]
  split
  · rename_i hs
    obtain ⟨I, hI⟩ := integrator_total (fx0p_2 env.debug p t o rs (smin (R / t.rho) t.thickness_cm)
      (p_from_T p.T p.A) (p_from_T p.T p.A / ((p.T + atomic_mass_unit) * p.A))) 0.0
      (smin (R / t.rho) t.thickness_cm) fun x => by
        unfold fx0p_2
        obtain ⟨E, hE⟩ := hrs.2 p.T (x * t.rho)
        rw [hdbg, hE, bind_ok]
        dsimp only
        unfold angular_scattering_power_xs
        split
        · exact ⟨_, rfl⟩
        · obtain ⟨v, hv⟩ := scattering_length_total t (hsc hs)
          rw [hv]
          exact ⟨_, rfl⟩
    rw [hI]
    exact ⟨_, rfl⟩
  · obtain ⟨I, hI⟩ := integrator_total (fx0p env.debug p t c o rs (smin (R / t.rho) t.thickness_cm)
      (radiation_length t)) 0.0 (smin (R / t.rho) t.thickness_cm) fun x => by
        unfold fx0p
        obtain ⟨E, hE⟩ := hrs.2 p.T (x * t.rho)
        rw [hdbg, hE, bind_ok]
        exact ⟨_, rfl⟩
    rw [hI]
    exact ⟨_, rfl⟩

theorem isotope_zero_table : ∀ z : Fin 109, ∃ a, get_isotope_a (z.val + 1) 0 = .ok a := by
  have : ∀ z : Fin 109, (get_isotope_a (z.val + 1) 0).isOk = true := by decide +kernel
  intro z
  have h := this z
  revert h
  cases get_isotope_a (z.val + 1) 0 with
  | error e => intro h; cases h
  | ok a => exact fun _ => ⟨a, rfl⟩

/-- The most abundant isotope can be looked up for every atomic number. -/
theorem isotope_zero_defined (z : Int) : ∃ a, get_isotope_a z 0 = .ok a := by
  by_cases h : z < 1 ∨ z > abundance_z_max
  · refine ⟨0, ?_⟩
    unfold get_isotope_a get_isotopes_num
    rw [if_pos h]
    rfl
  · have h' : 1 ≤ z ∧ z ≤ 109 := by
      unfold abundance_z_max at h
      omega
    have := isotope_zero_table ⟨(z - 1).toNat, by omega⟩
    have e : (((z - 1).toNat : ℕ) : Int) + 1 = z := by omega
    simp only [e] at this
    exact this

theorem nonreaction_rate_total (env : Env ℝ) (hdbg : env.debug = false) (p : Projectile ℝ)
    (t : Material ℝ) (rs : Spline ℝ) (hrs : rs.Total) :
    ∃ v, nonreaction_rate_from env p t rs = .ok v := by
  have hsig : ∀ a z x, ∃ v, sigma_r env.debug p t a z rs x = .ok v := by
    intro a z x
    unfold sigma_r
    obtain ⟨E, hE⟩ := hrs.2 p.T x
    rw [hdbg, hE, bind_ok]
    obtain ⟨v, hv⟩ := foldlM_total t.atoms (fun (acc : ℝ × ℝ) t_1 => do
      let at_ ← get_isotope_a t_1.Z 0
      return (acc.1 + t.mfrac t_1, acc.2 + t.mfrac t_1 * SigmaR_Kox a z E at_ t_1.Z)) (fun b hb r => by
        obtain ⟨i, hi⟩ := isotope_zero_defined b.Z
        rw [hi]
        exact ⟨_, rfl⟩) (0.0, 0.0)
    rw [hv]
    exact ⟨_, rfl⟩
  unfold nonreaction_rate_from
  obtain ⟨E, hE⟩ := hrs.2 p.T t.th
  obtain ⟨I, hI⟩ := integrator_total _ 0.0 t.th (hsig (Scalar.lround p.A) (Scalar.lround p.Z))
  obtain ⟨s0, h0⟩ := hsig (Scalar.lround p.A) (Scalar.lround p.Z) 0.0
  obtain ⟨s1, h1⟩ := hsig (Scalar.lround p.A) (Scalar.lround p.Z) t.th
  rw [hdbg] at hI h0 h1
  rw [hdbg, hE]
  simp only [bind_ok]
  split
  · exact ⟨_, rfl⟩
  · rw [h0, bind_ok, h1, bind_ok, hI]
    split
    · exact ⟨_, rfl⟩
    · exact ⟨_, rfl⟩

theorem stragglings_total (env : Env ℝ) (A T E dE : ℝ) (b : Bool) (ss as_ : Spline ℝ)
    (hs : ss.Total) (ha : as_.Total) : ∃ v, stragglings env A T E dE b ss as_ = .ok v := by
  unfold stragglings
  obtain ⟨⟨a1, h1⟩, ⟨a2, h2⟩⟩ := hs.1 T
  obtain ⟨⟨a3, h3⟩, ⟨a4, h4⟩⟩ := hs.1 E
  obtain ⟨⟨a5, h5⟩, ⟨a6, h6⟩⟩ := ha.1 T
  obtain ⟨⟨a7, h7⟩, ⟨a8, h8⟩⟩ := ha.1 E
  rw [h1, h2, h3, h4, h5, h6, h7, h8]
  simp only [bind_ok]
  split <;> split <;> exact ⟨_, rfl⟩

/-- The stopping power is defined at every energy below the end of the Lindhard tables. -/
theorem Computable.dedx_below {p : Projectile ℝ} {n : Int} {t : Material ℝ} {c : Config ℝ}
    (h : Computable p n t c) (env : Env ℝ) (x : ℝ)
    (hx : x < (ls_energy_table : EnergyTable ℝ).val 199 - 10 * 2⁻¹ ^ 52) :
    ∃ v, Catima.dedx env (p.withT x) t c = .ok v := by
  rcases le_or_gt x 0 with h0 | h0
  · exact ⟨_, (stopping_zero env (p.withT x) t c h0).1⟩
  · exact h.dedx env x h0 (.inl hx)

/-- The time of flight between any two energies below the end of the Lindhard tables. -/
theorem tof_defined (env : Env ℝ) (p : Projectile ℝ) (n : Int) (t : Material ℝ) (c : Config ℝ)
    (h : Computable p n t c) (E : ℝ)
    (hE : E < (ls_energy_table : EnergyTable ℝ).val 199 - 10 * 2⁻¹ ^ 52)
    (hT : p.T < (ls_energy_table : EnergyTable ℝ).val 199 - 10 * 2⁻¹ ^ 52) :
    ∃ v, calculate_tof_from_E env p E t c = .ok v := by
  have hex : ∀ x, ∃ v, x < (ls_energy_table : EnergyTable ℝ).val 199 - 10 * 2⁻¹ ^ 52 →
      tofIntegrand env p t c x = .ok v := by
    intro x
    by_cases hx : x < (ls_energy_table : EnergyTable ℝ).val 199 - 10 * 2⁻¹ ^ 52
    · obtain ⟨v, hv⟩ := h.dedx_below env x hx
      exact ⟨_, fun _ => by unfold tofIntegrand; rw [hv]; rfl⟩
    · exact ⟨0, fun h => absurd h hx⟩
  choose g hg using hex
  have hI := integrator.integrate_eq (integrator.shape (GLData.supported_shape _ integrator_supported)).1
    (tofIntegrand env p t c) g E p.T fun e he => by
      obtain ⟨h1, h2, -⟩ := integrator_nodes e he
      apply hg
      have h3 : (p.T - E) / 2 * e.1 + (p.T + E) / 2 = p.T * ((1 + e.1) / 2) + E * ((1 - e.1) / 2) := by ring
      rw [h3]
      generalize (ls_energy_table : EnergyTable ℝ).val 199 - 10 * 2⁻¹ ^ 52 = top at hE hT
      have := mul_lt_mul_of_pos_right hT (show 0 < (1 + e.1) / 2 by linarith)
      have := mul_lt_mul_of_pos_right hE (show 0 < (1 - e.1) / 2 by linarith)
      linarith
  unfold calculate_tof_from_E
  rw [hI]
  exact ⟨_, rfl⟩

/-- `calculate` returns for every computable projectile and material, after any history, in builds
without assertions, provided the outgoing energy found is within the tables. -/
theorem calculate_succeeds (env : Env ℝ) (hdbg : env.debug = false) (w : World ℝ)
    (hr : ReachableW env w) (p : Projectile ℝ) (n : Int) (t : Material ℝ) (c : Config ℝ)
    (h : Computable p n t c) (hdef : Computable p n t w.default_config) (hk : NonDefault p t c)
    (hsc : ScatteringReadable t c)
    (hT : p.T < (ls_energy_table : EnergyTable ℝ).val 199 - 10 * 2⁻¹ ^ 52)
    (hE : ∀ E w', energy_out env p t c w = .ok (E, w') →
      E < (ls_energy_table : EnergyTable ℝ).val 199 - 10 * 2⁻¹ ^ 52) :
    ∃ r w', calculate env p t c w = .ok (r, w') := by
  obtain ⟨d, w1, d0, hd, hr1, hw1, -, h1, h2, l1, l2, y, l3, h3⟩ := get_view env w hr p n t c h hk
  obtain ⟨rs, hrs, trs⟩ := newSpline_total env _ l1
  obtain ⟨ss, hss, tss⟩ := newSpline_total env _ l2
  obtain ⟨as_, has, tas⟩ := newSpline_total env _ l3
  rw [hrs] at h1
  rw [hss] at h2
  rw [has] at h3
  have hag : ∀ T, get_data env (p.withT T) t c w1 = .ok (d, w1) := get_again hr (key_refl_real _) hd
  obtain ⟨⟨R, hR⟩, ⟨dR, hdR⟩⟩ := trs.1 p.T
  obtain ⟨⟨S, hS⟩, -⟩ := tss.1 p.T
  obtain ⟨E, hEo⟩ := trs.2 p.T t.th
  have hav : ∀ o, ∃ v, angular_variance env (p.withT p.T) t c o w1 = .ok (v, w1) := by
    intro o
    obtain ⟨v, hv⟩ := angular_variance_total env hdbg (p.withT p.T) t c o rs trs hsc
    refine ⟨v, ?_⟩
    unfold angular_variance
    simp only [hdbg, api_bind, api_pureM, ok_bind]
    exact ⟨(), w1, ⟨by simp [cassert], rfl⟩, (), w1, ⟨by simp [cassert], rfl⟩, (), w1,
      ⟨by simp [cassert], rfl⟩, d, w1, hag _, ⟨rs, h1, hv⟩, rfl⟩
  obtain ⟨sp, hsp⟩ : ∃ v, nonreaction_rate env p t c w1 = .ok (v, w1) := by
    obtain ⟨v, hv⟩ := nonreaction_rate_total env hdbg p t rs trs
    unfold nonreaction_rate
    split
    · exact ⟨_, rfl⟩
    · split
      · exact ⟨_, rfl⟩
      · refine ⟨v, ?_⟩
        simp only [api_bind, api_pureM, ok_bind]
        exact ⟨d, w1, hag p.T, ⟨rs, h1, hv⟩, rfl⟩
  obtain ⟨sx, hsx⟩ := hav 2
  obtain ⟨cov, hcov⟩ := hav 1
  have hEle : E < (ls_energy_table : EnergyTable ℝ).val 199 - 10 * 2⁻¹ ^ 52 := by
    apply hE E w1
    unfold energy_out
    simp only [api_bind, api_pureM, ok_bind]
    exact ⟨d, w1, hd, ⟨rs, h1, by rw [hdbg]; exact hEo⟩, rfl⟩
  unfold calculate
  dsimp only
  split
  · exact ⟨_, _, rfl⟩
  · have e1 : ∀ {β : Type} (k : DataPoint ℝ → Api ℝ β), (get_data env p t c >>= k) w = k d w1 := by
      intro β k
      show (get_data env p t c w >>= fun s => k s.1 s.2) = _
      rw [hd]; rfl
    have e2 : ∀ {β γ : Type} (x : M β) (v : β) (hx : x = .ok v) (k : β → Api ℝ γ) (w0 : World ℝ),
        ((pureM x : Api ℝ β) >>= k) w0 = k v w0 := by
      intro β γ x v hx k w0
      rw [hx]; rfl
    have e3 : ∀ {β γ : Type} (x : Api ℝ β) (w0 w1 : World ℝ) (v : β) (hx : x w0 = .ok (v, w1))
        (k : β → Api ℝ γ), (x >>= k) w0 = k v w1 := by
      intro β γ x w0 w1 v hx k
      show (x w0 >>= fun s => k s.1 s.2) = _
      rw [hx]; rfl
    rw [e1, e2 _ rs h1, e2 _ ss h2, e2 _ R hR, e2 _ (p.A / dR) (by rw [hdR]; rfl),
      e2 _ (Scalar.sqrt S) (by rw [hS]; rfl)]
    split
    · exact ⟨_, _, rfl⟩
    · rw [e2 _ E (by rw [hdbg]; exact hEo)]
      split
      · rw [e3 _ w1 w1 _ rfl, e3 _ w1 w1 sx hsx, e3 _ w1 w1 cov hcov, e3 _ w1 w1 sp hsp]
        exact ⟨_, _, rfl⟩
      · obtain ⟨-, ⟨dRo, hdRo⟩⟩ := trs.1 E
        obtain ⟨⟨sE, sa⟩, hst⟩ := stragglings_total env p.A p.T E (p.A / dRo)
          (c.scattering == scattering_atima) ss as_ tss tas
        obtain ⟨tof, htof⟩ := tof_defined env p n t w.default_config hdef E hEle hT
        obtain ⟨a0, ha0⟩ := hav 0
        have hthr : ∀ res : Result ℝ, res.Eout = E → ∃ r, calculateThrough env p t c d rs ss
            (c.scattering == scattering_atima) res w1 = .ok (r, w1) := by
          intro res hres
          unfold calculateThrough
          dsimp only
          rw [e2 _ as_ h3, e2 _ (p.A / dRo) (by rw [hres, hdRo]; rfl), hres, e2 _ (sE, sa) hst]
          dsimp only
          split
          · rw [e3 _ w1 w1 (Scalar.sqrt a0) (by
              unfold angular_straggling
              rw [e3 _ w1 w1 a0 ha0]; rfl), e3 _ w1 w1 w1 rfl, e2 _ tof (by rw [hw1]; exact htof)]
            exact ⟨_, rfl⟩
          · rw [e3 _ w1 w1 sa rfl, e3 _ w1 w1 w1 rfl, e2 _ tof (by rw [hw1]; exact htof)]
            exact ⟨_, rfl⟩
        obtain ⟨res, hres⟩ := hthr { (Result.init : Result ℝ) with
          Ein := p.T, range := R, dEdxi := p.A / dR, sigma_r := Scalar.sqrt S, Eout := E,
          Eloss := (p.T - E) * p.A } rfl
        rw [e3 _ w1 w1 _ hres, e3 _ w1 w1 sx hsx, e3 _ w1 w1 cov hcov, e3 _ w1 w1 sp hsp]
        exact ⟨_, _, rfl⟩

/-- The last energy of the tables is at least 9.9 TeV/u. -/
theorem below_top (T : ℝ) (h : T ≤ 9.8e6) :
    T < (ls_energy_table : EnergyTable ℝ).val 199 - 10 * 2⁻¹ ^ 52 := by
  have e : (9.9e6 : ℝ) ≤ (ls_energy_table : EnergyTable ℝ).val 199 := by
    rw [EnergyTable.val_eq, ← Real.log_le_iff_le_exp (by norm_num), EnergyTable.step_eq]
    have h1 := (abs_le.mp LN10_near).1
    have h2 : Real.log 9.9e6 = 7 * Real.log 10 + Real.log 0.99 := by
      rw [show (9.9e6 : ℝ) = 10 ^ 7 * 0.99 by norm_num, Real.log_mul (by norm_num) (by norm_num),
        Real.log_pow]
      norm_num
    have h3 : Real.log 0.99 ≤ -0.01 := by
      have := Real.log_le_sub_one_of_pos (x := 0.99) (by norm_num)
      norm_num at this ⊢
      exact this
    rw [h2]
    norm_num [ls_energy_table] at h1 h3 ⊢
    linarith
  norm_num at e h ⊢
  linarith

theorem Computable.thickness {p : Projectile ℝ} {n : Int} {t : Material ℝ} {c : Config ℝ}
    (h : Computable p n t c) (th : ℝ) : Computable p n (t.set_thickness th) c :=
  ⟨h.ion, h.small, ⟨h.sound.nonempty, h.sound.Z, h.sound.A, h.sound.stn, h.sound.molar⟩, h.known, h.charge⟩

theorem NonDefault.thickness {p : Projectile ℝ} {t : Material ℝ} {c : Config ℝ}
    (h : NonDefault p t c) (th : ℝ) : NonDefault p (t.set_thickness th) c := h

set_option maxRecDepth 8000 in
/-- One range interpolator serves all energies, thicknesses and histories. -/
theorem range_spline (env : Env ℝ) (p : Projectile ℝ) (n : Int) (t : Material ℝ) (c : Config ℝ)
    (h : Computable p n t c) (hk : NonDefault p t c) :
    ∃ d0 rs, calculate_DataPoint env p t c = .ok d0 ∧ d0.range.length = 600 ∧
      newSpline env d0.range = .ok rs ∧ rs.Total ∧
      ∀ w, ReachableW env w → ∀ T th, ∃ d w',
        get_data env (p.withT T) (t.set_thickness th) c w = .ok (d, w') ∧
        get_range_spline env d = .ok rs := by
  obtain ⟨d0, h0, l1, -, -⟩ := data_point_defined env p n t c h
  obtain ⟨rs, hrs, trs⟩ := newSpline_total env _ l1
  refine ⟨d0, rs, h0, l1, hrs, trs, fun w hr T th => ?_⟩
  obtain ⟨d, w', d1, hd, -, -, h1, h2, -⟩ := get_view env w hr (p.withT T) n (t.set_thickness th) c
    ((h.withT T).thickness th) hk
  have hrel := tables_rel (env := env) (b := env.storeSplines) (p := p) (p' := p.withT T) (t := t)
    (t' := t.set_thickness th) (c := c) (c' := c)
    ⟨rfl, rfl, rfl, rfl, rfl, rfl, rfl, rfl, rfl, rfl, rfl⟩
  rw [withStore_self, h0, h1] at hrel
  refine ⟨d, w', hd, ?_⟩
  rw [h2, ← hrel.1.1]
  exact hrs

/-- For every computable projectile and material there is a thickness in which `calculate` reports
a stopped projectile. -/
theorem calculate_stopped_reached (env : Env ℝ) (hdbg : env.debug = false) (w : World ℝ)
    (hr : ReachableW env w) (p : Projectile ℝ) (n : Int) (t : Material ℝ) (c : Config ℝ)
    (h : Computable p n t c) (hdef : Computable p n t w.default_config) (hk : NonDefault p t c)
    (hsc : ScatteringReadable t c) (hT0 : 1e-3 ≤ p.T)
    (hT : p.T < (ls_energy_table : EnergyTable ℝ).val 199 - 10 * 2⁻¹ ^ 52) :
    ∃ th r w', 0 < th ∧ calculate env p (t.set_thickness th) c w = .ok (r, w') ∧ r.Ein = p.T ∧
      r.Eout = 0 ∧ r.Eloss = p.T * p.A ∧ r.tof = 0 := by
  obtain ⟨d0, rs, -, -, -, trs, hview⟩ := range_spline env p n t c h hk
  obtain ⟨⟨R, hR⟩, -⟩ := trs.1 p.T
  set th := max R 1 with hth
  have hth0 : 0 < th := lt_of_lt_of_le one_pos (le_max_right _ _)
  have hT00 : (0 : ℝ) ≤ p.T := le_trans (by norm_num) hT0
  obtain ⟨d, w1, hd, hrs⟩ := hview w hr p.T th
  have hrange : range env p (t.set_thickness th) c w = .ok (R, w1) := by
    unfold range
    simp only [api_bind, api_pureM, ok_bind]
    exact ⟨d, w1, hd, ⟨rs, hrs, hR⟩, rfl⟩
  obtain ⟨r, w', hres⟩ := calculate_succeeds env hdbg w hr p n (t.set_thickness th) c (h.thickness th)
    (hdef.thickness th) hk hsc hT fun E w' hE => by
      rw [(energy_out_stops env w w' w1 p _ c E R hE hrange).1 (le_max_left _ _)]
      exact lt_of_le_of_lt hT00 hT
  have hb := calculate_balance env p _ c w w' r hres
  obtain ⟨w2, hE⟩ := hb.2.2 hT0 hth0.ne'
  have h0 := (energy_out_stops env w w2 w1 p _ c r.Eout R hE hrange).1 (le_max_left _ _)
  have hs := calculate_stopped env p _ c w w' r hT0 hth0.ne' hres
  refine ⟨th, r, w', hth0, hres, hb.2.1 hT0, h0, ?_, (hs.2 (by rw [h0]; norm_num)).2.2.2⟩
  rw [hb.1, hb.2.1 hT0, h0, sub_zero]

/-- C54, C55, C56 apply to protons of 100 MeV in thick water in a fresh process. -/
theorem proton_stopped (env : Env ℝ) (hdbg : env.debug = false) : ∃ th r w', 0 < th ∧
    calculate env ⟨1.00794, 1, 1, 100⟩
      (Material.set_thickness ⟨1, 1, 18.015, 0, [⟨1.00794, 1, 2⟩, ⟨15.9994, 8, 1⟩]⟩ th)
      .default .init = .ok (r, w') ∧ r.Ein = (100 : ℝ) ∧ r.Eout = 0 ∧ r.Eloss = 100 * 1.00794 ∧
      r.tof = 0 := by
  refine calculate_stopped_reached env hdbg .init ⟨[], rfl⟩ _ 1 _ .default proton_water_computable
    proton_water_computable proton_water_nonDefault ?_ (by norm_num) ?_
  · intro h
    exact absurd h (by decide)
  · exact below_top _ (by norm_num)

end Catima
