import Verif.Props.CalculateDefined
import Verif.Props.Kinematics

/-!
# C58, C60: time of flight and magnification
-/

namespace Catima

/-! ## C58 -/

/-- C58: the time of flight is positive wherever the stopping power is, and vanishes without an
energy change. -/
theorem tof_nonneg (env : Env ℝ) (p : Projectile ℝ) (t : Material ℝ) (c : Config ℝ) (E : ℝ)
    (hA : 0 < p.A) (hrho : 0 < t.rho) (h0 : 0 ≤ E) (hE : E < p.T)
    (hpos : ∀ x, E < x → x < p.T → ∃ v, dedx env (p.withT x) t c = .ok v ∧ 0 < v) :
    ∃ r, calculate_tof_from_E env p E t c = .ok r ∧ 0 < r := by
  obtain ⟨I, hI, hI0⟩ := integrator_pos (tofIntegrand env p t c) E p.T hE fun x hx => by
    obtain ⟨h1, h2⟩ := hx
    have hx1 : E < x := by linarith
    have hx2 : x < p.T := by linarith
    obtain ⟨v, hv, hv0⟩ := hpos x hx1 hx2
    have hb := (gamma_beta_bounds x (by linarith)).2.1
    refine ⟨1.0 / (v * beta_from_T x), by unfold tofIntegrand; rw [hv]; rfl, ?_⟩
    positivity
  refine ⟨I * 10.0 * p.A / (c_light * t.rho), ?_, ?_⟩
  · unfold calculate_tof_from_E
    rw [hI]; rfl
  · have : (0 : ℝ) < c_light := by unfold c_light; norm_num
    positivity

/-- C58: there is no time of flight without an energy change. -/
theorem tof_same (env : Env ℝ) (p : Projectile ℝ) (t : Material ℝ) (c : Config ℝ) (v : ℝ)
    (h : dedx env p t c = .ok v) : calculate_tof_from_E env p p.T t c = .ok 0 := by
  have hI : integrator.integrate (tofIntegrand env p t c) p.T p.T = .ok ((p.T - p.T) / 2 *
      wsum integrator.full fun _ => 1.0 / (v * beta_from_T p.T)) :=
    integrator.integrate_eq (integrator.shape (GLData.supported_shape _ integrator_supported)).1 _
      (fun _ => 1.0 / (v * beta_from_T p.T)) _ _ fun e _ => by
        have : (p.T - p.T) / 2 * e.1 + (p.T + p.T) / 2 = p.T := by ring
        rw [this]
        unfold tofIntegrand
        rw [show dedx env (p.withT p.T) t c = .ok v from h]
        rfl
  unfold calculate_tof_from_E
  rw [hI, bind_ok]
  show (Except.ok _ : M ℝ) = Except.ok _
  congr 1
  simp

/-- C58: the time of flight through a given mass thickness is inversely proportional to the density. -/
theorem tof_density (env : Env ℝ) (p : Projectile ℝ) (t : Material ℝ) (c : Config ℝ) (E k : ℝ) : calculate_tof_from_E env p E { t with rho := k * t.rho } c =
      (calculate_tof_from_E env p E t c).map (· / k) := by
  unfold calculate_tof_from_E
  have e : tofIntegrand env p { t with rho := k * t.rho } c = tofIntegrand env p t c := rfl
  rw [e]
  cases integrator.integrate (tofIntegrand env p t c) E p.T with
  | error e => rfl
  | ok I =>
    show (Except.ok _ : M ℝ) = Except.ok _
    congr 1
    dsimp only
    rw [div_div]
    congr 1
    ring

/-- Protons slowing down in water from 9 to 4 MeV. -/
example (env : Env ℝ) : ∃ r, calculate_tof_from_E env ⟨1.00794, 1, 1, 9⟩ 4
    ⟨1, 1, 18.015, 0, [⟨1.008, 1, 2⟩, ⟨15.999, 8, 1⟩]⟩ .default = .ok r ∧ 0 < r :=
  tof_nonneg env _ _ .default 4 (by norm_num) (by norm_num) (by norm_num) (by norm_num)
    fun x h1 h2 => stopping_positive_low env _ 1 ⟨by norm_num [Projectile.withT], by norm_num,
      by norm_num, by norm_num [Projectile.withT]⟩ _ water_sound .default
      (by simp only [Projectile.withT]; linarith) (by
        simp only [Projectile.withT] at h2 ⊢
        linarith)

/-- C58: the table of flight times grows, from one energy of the table to the next, by the time of
flight between the two energies. -/
theorem tof_table (env : Env ℝ) (p : Projectile ℝ) (t : Material ℝ) (c : Config ℝ) (l : List ℝ)
    (h : calculate_tof env p t c = .ok l) :
    l.length = 600 ∧ ∀ k, k + 1 < 600 → ∃ d, l[k + 1]? = (l[k]?).map (· + d) ∧
      calculate_tof_from_E env (p.withT ((energy_table : EnergyTable ℝ).val (k + 1)))
        ((energy_table : EnergyTable ℝ).val k) t c = .ok d := by
  unfold calculate_tof at h
  rw [ok_bind] at h
  obtain ⟨r0, h0, h⟩ := h
  dsimp only at h
  have key : ∀ (n : Nat) (l : List ℝ), (List.range n).foldlM (fun (acc : List ℝ) k => do
      let r ← integrator.integrate (tofIntegrand env p t c) ((energy_table : EnergyTable ℝ).val k)
        ((energy_table : EnergyTable ℝ).val (k + 1))
      let r := r * 10.0 * p.A / (c_light * t.rho)
      return acc ++ [r + acc.getLastD 0.0]) [r0 * 10.0 * p.A / (c_light * t.rho)] = (.ok l : M (List ℝ)) →
      l.length = n + 1 ∧ ∀ k < n, ∃ d, l[k + 1]? = (l[k]?).map (· + d) ∧
      calculate_tof_from_E env (p.withT ((energy_table : EnergyTable ℝ).val (k + 1)))
        ((energy_table : EnergyTable ℝ).val k) t c = .ok d := by
    intro n
    induction n with
    | zero =>
      intro l hl
      cases hl
      exact ⟨rfl, fun k hk => absurd hk (by omega)⟩
    | succ n ih =>
      intro l hl
      rw [List.range_succ, List.foldlM_append, ok_bind] at hl
      obtain ⟨l1, h1, h2⟩ := hl
      obtain ⟨e1, e2⟩ := ih l1 h1
      rw [List.foldlM_cons, ok_bind] at h2
      obtain ⟨l2, h2, h3⟩ := h2
      cases h3
      rw [ok_bind] at h2
      obtain ⟨r, hr, h2⟩ := h2
      cases h2
      refine ⟨by simp [e1], fun k hk => ?_⟩
      rcases Nat.lt_succ_iff_lt_or_eq.mp hk with hk' | rfl
      · obtain ⟨d, hd, hd'⟩ := e2 k hk'
        refine ⟨d, ?_, hd'⟩
        rw [List.getElem?_append_left (by omega), List.getElem?_append_left (by omega)]
        exact hd
      · refine ⟨r * 10.0 * p.A / (c_light * t.rho), ?_, ?_⟩
        · rw [List.getElem?_append_right (by omega), List.getElem?_append_left (by omega)]
          rw [show k + 1 - l1.length = 0 by omega]
          have hne : l1 ≠ [] := by intro h; rw [h] at e1; simp at e1
          have hlast : l1[k]? = some (l1.getLastD 0.0) := by
            rw [List.getLastD_eq_getLast?, List.getLast?_eq_getElem?, show l1.length - 1 = k by omega]
            rw [List.getElem?_eq_getElem (by omega)]
            rfl
          rw [hlast]
          simp [add_comm]
        · unfold calculate_tof_from_E
          have e : tofIntegrand env (p.withT ((energy_table : EnergyTable ℝ).val (k + 1))) t c =
              tofIntegrand env p t c := rfl
          have e' : (p.withT ((energy_table : EnergyTable ℝ).val (k + 1))).T =
            (energy_table : EnergyTable ℝ).val (k + 1) := rfl
          rw [e, e', hr]
          rfl
  obtain ⟨e1, e2⟩ := key 599 l h
  exact ⟨e1, fun k hk => e2 k (by omega)⟩

/-! ## C60 -/

/-- C60: the magnifications in all cases. -/
theorem magnification_cases (env : Env ℝ) (p : Projectile ℝ) (Ein : ℝ) (t : Material ℝ) (c : Config ℝ)
    (w : World ℝ) :
    (t.rho ≤ 0 ∨ t.th ≤ 0 → w_magnification env p Ein t c w = .ok ((1, 1), w)) ∧
    (0 < t.rho → 0 < t.th → ∀ m w', w_magnification env p Ein t c w = .ok (m, w') →
      ∃ e0 e1 e2, energy_out_vec env p [0.99 * Ein, Ein, 1.01 * Ein] t c w = .ok ([e0, e1, e2], w') ∧
        (¬ (0 < e0 ∧ 0 < e1 ∧ 0 < e2) → m = (0, 0)) ∧
        (0 < e0 → 0 < e1 → 0 < e2 →
          m.1 = ((e2 - e0) / e1) / ((1.01 * Ein - 0.99 * Ein) / Ein) ∧
          m.2 = ((p_from_T e2 p.A - p_from_T e0 p.A) / p_from_T e1 p.A) /
            ((p_from_T (1.01 * Ein) p.A - p_from_T (0.99 * Ein) p.A) / p_from_T Ein p.A))) := by
  constructor
  · intro h
    unfold w_magnification
    rw [if_pos]
    · show (Except.ok _ : M _) = Except.ok _
      norm_num
    · simp only [Bool.or_eq_true, le_real]
      norm_num
      exact h
  · intro h1 h2 m w' h
    unfold w_magnification at h
    rw [if_neg (by
      simp only [Bool.or_eq_true, le_real]
      norm_num
      exact ⟨h1, h2⟩)] at h
    rw [api_bind] at h
    obtain ⟨es, w1, hes, h⟩ := h
    have hlen : es.length = 3 := by
      unfold energy_out_vec at hes
      simp only [api_bind, api_pureM, ok_bind] at hes
      obtain ⟨d, w2, hd, ⟨rs, hrs, hm⟩, -⟩ := hes
      simpa using (mapM_forall hm).1
    obtain ⟨e0, e1, e2, rfl⟩ : ∃ e0 e1 e2, es = [e0, e1, e2] := by
      match es, hlen with
      | [e0, e1, e2], _ => exact ⟨e0, e1, e2, rfl⟩
    dsimp only at h
    by_cases hp : 0 < e0 ∧ 0 < e1 ∧ 0 < e2
    · rw [if_pos (by
        simp only [Bool.and_eq_true, lt_real]
        norm_num
        exact ⟨⟨hp.1, hp.2.1⟩, hp.2.2⟩), api_pure] at h
      obtain ⟨rfl, rfl⟩ := h
      refine ⟨e0, e1, e2, hes, fun h => absurd hp h, fun _ _ _ => ⟨?_, ?_⟩⟩
      · dsimp only
        rw [div_div_div_eq, mul_comm]
      · dsimp only
        rw [div_div_div_eq, mul_comm]
    · rw [if_neg (by
        simp only [Bool.and_eq_true, lt_real]
        norm_num
        intro a b
        by_contra hc
        exact hp ⟨a, b, by linarith⟩), api_pure] at h
      obtain ⟨rfl, rfl⟩ := h
      refine ⟨e0, e1, e2, hes, fun _ => by norm_num, fun a b c => absurd ⟨a, b, c⟩ hp⟩

/-- C60: the magnification of a computable projectile and material is defined, after any history. -/
theorem magnification_defined (env : Env ℝ) (hdbg : env.debug = false) (w : World ℝ)
    (hr : ReachableW env w) (p : Projectile ℝ) (n : Int) (Ein : ℝ) (t : Material ℝ) (c : Config ℝ)
    (h : Computable p n t c) (hk : NonDefault p t c) :
    ∃ m w', w_magnification env p Ein t c w = .ok (m, w') := by
  obtain ⟨d0, rs, -, -, -, trs, hview⟩ := range_spline env p n t c h hk
  obtain ⟨d, w', hd, hrs⟩ := hview w hr p.T t.th
  have hd' : get_data env p t c w = .ok (d, w') := hd
  obtain ⟨l, hl⟩ : ∃ l, energy_out_vec env p [0.99 * Ein, Ein, 1.01 * Ein] t c w = .ok (l, w') := by
    obtain ⟨l, hl⟩ : ∃ l, [0.99 * Ein, Ein, 1.01 * Ein].mapM (fun e => if e <? Ezero then pure 0.0
        else energy_out_spline env.debug e t.th rs) = .ok l :=
      mapM_defined fun e _ => by
        split
        · exact ⟨_, rfl⟩
        · rw [hdbg]; exact trs.2 e t.th
    refine ⟨l, ?_⟩
    unfold energy_out_vec
    simp only [api_bind, api_pureM, ok_bind]
    exact ⟨d, w', hd', ⟨rs, hrs, hl⟩, rfl⟩
  have hlen : l.length = 3 := by
    unfold energy_out_vec at hl
    simp only [api_bind, api_pureM, ok_bind] at hl
    obtain ⟨_, _, _, ⟨_, _, hm⟩, -⟩ := hl
    simpa using (mapM_forall hm).1
  obtain ⟨e0, e1, e2, rfl⟩ : ∃ e0 e1 e2, l = [e0, e1, e2] := by
    match l, hlen with
    | [e0, e1, e2], _ => exact ⟨e0, e1, e2, rfl⟩
  unfold w_magnification
  split
  · exact ⟨_, _, rfl⟩
  · have e : ∀ {β : Type} (k : List ℝ → Api ℝ β),
        (energy_out_vec env p [0.99 * Ein, Ein, 1.01 * Ein] t c >>= k) w = k [e0, e1, e2] w' := by
      intro β k
      show (energy_out_vec env p [0.99 * Ein, Ein, 1.01 * Ein] t c w >>= fun s => k s.1 s.2) = _
      rw [hl]; rfl
    dsimp only
    rw [e]
    dsimp only
    split
    · exact ⟨_, _, rfl⟩
    · exact ⟨_, _, rfl⟩

/-- C60 applies to protons in water in a fresh process. -/
example (env : Env ℝ) (hdbg : env.debug = false) : ∃ m w', w_magnification env ⟨1.00794, 1, 1, 100⟩ 90
    (⟨1, 1, 18.015, 0, [⟨1.00794, 1, 2⟩, ⟨15.9994, 8, 1⟩]⟩ : Material ℝ) .default .init = .ok (m, w') :=
  magnification_defined env hdbg .init ⟨[], rfl⟩ _ 1 90 _ .default proton_water_computable
    proton_water_nonDefault

end Catima
