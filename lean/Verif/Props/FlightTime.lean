import Verif.Props.Flight
import Verif.Props.RangeIncreasing
import Verif.Props.Wrapper
import Verif.Props.IonRanges
import Verif.Props.PositiveRanges

/-!
# C131: ions fly through matter with speeds between the one before and the one behind it
-/

namespace Catima

/-- The speed `b`, in units of the speed of light, of an ion with the kinetic energy `T` MeV/u. -/
def SpeedOf (T b : ℝ) : Prop := 0 ≤ b ∧ b < 1 ∧ (1 + T / 931.4940954) ^ 2 * (1 - b ^ 2) = 1

/-- The time in ns to cover `l` cm with the speed `b` (299.792458 mm/ns is the speed of light). -/
noncomputable def timeFor (l b : ℝ) : ℝ := 10 * l / (299.792458 * b)

theorem speed_unique {T b : ℝ} (hT : 0 < T) (h : SpeedOf T b) : b = beta_from_T T := by
  obtain ⟨h0, h1, h2⟩ := h
  have hu : (atomic_mass_unit : ℝ) = 931.4940954 := by norm_num [atomic_mass_unit]
  unfold beta_from_T gamma_from_T
  rw [hu, sqrt_real, show (1.0 : ℝ) = 1 by norm_num]
  have hg : (0 : ℝ) < 1 + T / 931.4940954 := by positivity
  generalize 1 + T / 931.4940954 = g at *
  rw [show 1 - 1 / (g * g) = b ^ 2 by field_simp; linarith, Real.sqrt_sq h0]

theorem speed_of_beta {T : ℝ} (hT : 0 < T) : SpeedOf T (beta_from_T T) := by
  obtain ⟨-, h1, h2⟩ := gamma_beta_bounds T hT
  refine ⟨h1.le, h2, ?_⟩
  have hu : (atomic_mass_unit : ℝ) = 931.4940954 := by norm_num [atomic_mass_unit]
  have hg : (1 : ℝ) ≤ 1 + T / 931.4940954 := by
    have : 0 < T / 931.4940954 := by positivity
    linarith
  unfold beta_from_T gamma_from_T
  rw [hu, sqrt_real, show (1.0 : ℝ) = 1 by norm_num]
  generalize 1 + T / 931.4940954 = g at *
  rw [Real.sq_sqrt]
  · field_simp
    ring
  · rw [sub_nonneg, div_le_one (by positivity)]
    nlinarith

theorem speed_le {S T : ℝ} (hS : 0 < S) (h : S ≤ T) : beta_from_T S ≤ beta_from_T T := by
  rcases h.lt_or_eq with h | h
  · exact (gamma_beta_strictMono S T hS.le h).2.le
  · rw [h]

/-- C131: the time of flight between two energies is the time for the way in between at a speed between those before and behind it;
the way is the one that the library's integration of the stopping power gives. -/
theorem flight_between (env : Env ℝ) (p : Projectile ℝ) (t : Material ℝ) (c : Config ℝ) (E : ℝ) (hA : 0 < p.A) (hrho : 0 < t.rho)
    (h0 : 0 < E) (hE : E ≤ p.T) (hpos : ∀ x, Inner E p.T x → ∃ v, dedx env (p.withT x) t c = .ok v ∧ 0 < v) (b1 b2 : ℝ)
    (s1 : SpeedOf p.T b1) (s2 : SpeedOf E b2) :
    ∃ I r, integrator.integrate (fun x => do return 1 / (← dedx env (p.withT x) t c)) E p.T = .ok I ∧
      calculate_tof_from_E env p E t c = .ok r ∧
      timeFor (p.A * I / t.rho) b1 ≤ r ∧ r ≤ timeFor (p.A * I / t.rho) b2 := by
  rw [speed_unique (by linarith) s1, speed_unique h0 s2]
  obtain ⟨g, hg, hI⟩ := integrator_value (fun x => do return 1 / (← dedx env (p.withT x) t c)) E p.T hE (fun v => 0 < v) fun x hx => by
    obtain ⟨v, hv, v0⟩ := hpos x hx
    obtain ⟨h1, h2⟩ := hx
    exact ⟨1 / v, by simp only [hv]; rfl, by positivity⟩
  obtain ⟨f, hf, hJ⟩ := integrator_value (tofIntegrand env p t c) E p.T hE (fun _ => True) fun x hx => by
    obtain ⟨v, hv, -⟩ := hpos x hx
    exact ⟨1.0 / (v * beta_from_T x), by unfold tofIntegrand; rw [hv]; rfl, trivial⟩
  have hfg : ∀ x, Inner E p.T x → f x = g x / beta_from_T x := by
    intro x hx
    have a := (hg x hx).1
    have b := (hf x hx).1
    obtain ⟨v, hv, v0⟩ := hpos x hx
    obtain ⟨h1, h2⟩ := hx
    unfold tofIntegrand at b
    rw [hv] at a b
    have a : 1 / v = g x := Except.ok.inj a
    have b : 1.0 / (v * beta_from_T x) = f x := Except.ok.inj b
    rw [← a, ← b]
    have := (gamma_beta_bounds x (by linarith)).2.1
    norm_num
    field_simp
  have hr : calculate_tof_from_E env p E t c = .ok ((p.T - E) / 2 * (wsum integrator.full fun x => f ((p.T - E) / 2 * x + (p.T + E) / 2)) * 10.0 *
      p.A / (c_light * t.rho)) := by
    unfold calculate_tof_from_E
    rw [hJ, bind_ok]
    rfl
  refine ⟨_, _, hI, hr, ?_⟩
  have hb1 := (gamma_beta_bounds p.T (by linarith)).2.1
  have hb2 := (gamma_beta_bounds E h0).2.1
  have hc : (c_light : ℝ) = 299.792458 := by norm_num [c_light]
  have hw : ∀ e ∈ integrator.full, (0 : ℝ) ≤ e.2 := fun e he => (integrator_nodes e he).2.2.le
  have lo : (beta_from_T p.T)⁻¹ * (wsum integrator.full fun x => g ((p.T - E) / 2 * x + (p.T + E) / 2)) ≤
      wsum integrator.full fun x => f ((p.T - E) / 2 * x + (p.T + E) / 2) := by
    rw [← wsum_mul]
    refine wsum_le _ _ _ hw fun e he => ?_
    have hx := node_inner E p.T hE e he
    rw [hfg _ hx, div_eq_inv_mul (g _)]
    have := (hg _ hx).2
    obtain ⟨h1, h2⟩ := hx
    refine mul_le_mul_of_nonneg_right (inv_anti₀ ?_ (speed_le ?_ ?_)) this.le
    · exact (gamma_beta_bounds _ (by linarith)).2.1
    · linarith
    · linarith
  have hi : wsum integrator.full (fun x => f ((p.T - E) / 2 * x + (p.T + E) / 2)) ≤
      (beta_from_T E)⁻¹ * (wsum integrator.full fun x => g ((p.T - E) / 2 * x + (p.T + E) / 2)) := by
    rw [← wsum_mul]
    refine wsum_le _ _ _ hw fun e he => ?_
    have hx := node_inner E p.T hE e he
    rw [hfg _ hx, div_eq_inv_mul]
    have := (hg _ hx).2
    obtain ⟨h1, h2⟩ := hx
    exact mul_le_mul_of_nonneg_right (inv_anti₀ hb2 (speed_le h0 (by linarith))) this.le
  generalize (wsum integrator.full fun x => g ((p.T - E) / 2 * x + (p.T + E) / 2)) = G at *
  generalize (wsum integrator.full fun x => f ((p.T - E) / 2 * x + (p.T + E) / 2)) = F at *
  rw [hc]
  unfold timeFor
  generalize beta_from_T p.T = b1 at *
  generalize beta_from_T E = b2 at *
  have e : ∀ b, 0 < b → 10 * (p.A * ((p.T - E) / 2 * G) / t.rho) / (299.792458 * b) = (p.T - E) / 2 * (b⁻¹ * G) * 10.0 * p.A / (299.792458 * t.rho) := by
    intro b hb
    norm_num
    field_simp
  rw [e b1 hb1, e b2 hb2]
  have hd : 0 ≤ (p.T - E) / 2 := by linarith
  constructor
  · gcongr
  · gcongr

/-- Protons slowing down in water from 9 to 4 MeV. -/
example (env : Env ℝ) : ∃ I r, integrator.integrate (fun x => do
      return 1 / (← dedx env ((⟨1.00794, 1, 1, 9⟩ : Projectile ℝ).withT x) ⟨1, 1, 18.015, 0, [⟨1.008, 1, 2⟩, ⟨15.999, 8, 1⟩]⟩ .default)) 4 9 = .ok I ∧
    calculate_tof_from_E env ⟨1.00794, 1, 1, 9⟩ 4 ⟨1, 1, 18.015, 0, [⟨1.008, 1, 2⟩, ⟨15.999, 8, 1⟩]⟩ .default = .ok r ∧
    timeFor (1.00794 * I / 1) (beta_from_T 9) ≤ r ∧ r ≤ timeFor (1.00794 * I / 1) (beta_from_T 4) :=
  flight_between env (⟨1.00794, 1, 1, 9⟩ : Projectile ℝ) _ .default 4 (by norm_num) (by norm_num) (by norm_num) (by norm_num)
    (fun x hx => stopping_positive_low env _ 1 ⟨by norm_num [Projectile.withT], by norm_num, by norm_num, by norm_num [Projectile.withT]⟩ _
      water_sound .default (by obtain ⟨h1, h2⟩ := hx; norm_num at h1; show 0 < x; linarith)
      (by obtain ⟨h1, h2⟩ := hx; norm_num at h2; show x ≤ 10; linarith)) _ _ (speed_of_beta (by norm_num)) (speed_of_beta (by norm_num))

/-- One step of the table. -/
theorem flight_step (env : Env ℝ) (p : Projectile ℝ) (n : Int) (t : Material ℝ) (c : Config ℝ) (h : Computable p n t c) (hu : Usual p n t)
    (hrho : 0 < t.rho) (d : DataPoint ℝ) (hd : calculate_DataPoint env p t c = .ok d) :
    d.range.length = 600 ∧ ∀ k < 599, ∃ a b r, d.range[k]? = some a ∧ d.range[k + 1]? = some b ∧
      calculate_tof_from_E env (p.withT ((energy_table : EnergyTable ℝ).val (k + 1))) ((energy_table : EnergyTable ℝ).val k) t c = .ok r ∧
      timeFor ((b - a) / t.rho) (beta_from_T ((energy_table : EnergyTable ℝ).val (k + 1))) ≤ r ∧
      r ≤ timeFor ((b - a) / t.rho) (beta_from_T ((energy_table : EnergyTable ℝ).val k)) := by
  have hb := energy_table_bounds
  have hpos0 := energy_table_pos
  set X := (energy_table : EnergyTable ℝ).val with hX
  have ord : ∀ k, X k < X (k + 1) := fun k => (EnergyTable.val_lt_iff _ hb.1 hb.2.1 k (k + 1)).mpr (by omega)
  have hdef : ∀ k < 599, ∃ I, integrator.integrate (fdedx env p t c) (X k) (X (k + 1)) = .ok I := by
    intro k hk
    refine integrator_defined _ _ _ (ord k).le fun x hx => ?_
    obtain ⟨-, -, -, -, h0, hr⟩ := inner_grid k hk x hx
    obtain ⟨v, hv, -⟩ := stopping_positive_at env p n t c h hu x h0 hr
    exact ⟨1.0 / v, by unfold fdedx; rw [hv]; rfl⟩
  choose! I hI using hdef
  obtain ⟨hl, -, hst⟩ := table_step _ _ _ (data_point_parts _ _ _ _ _ hd).1 I hI
  refine ⟨hl, fun k hk' => ?_⟩
  obtain ⟨a, b, ha, hb', hab⟩ := hst k hk'
  obtain ⟨J, r, hJ, hr, l1, l2⟩ := flight_between env (p.withT (X (k + 1))) t c (X k) h.ion.A hrho (hpos0 k) (ord k).le
    (fun x hx => by
      obtain ⟨-, -, -, -, i1, i2⟩ := inner_grid k hk' x hx
      exact stopping_positive_at env p n t c h hu x i1 i2) _ _ (speed_of_beta (hpos0 (k + 1))) (speed_of_beta (hpos0 k))
  have hJ' : integrator.integrate (fdedx env p t c) (X k) (X (k + 1)) = .ok J := by
    rw [← hJ]
    have : fdedx env p t c = fun x => do return 1 / (← dedx env ((p.withT (X (k + 1))).withT x) t c) := by
      funext x
      unfold fdedx
      rw [show (1.0 : ℝ) = 1 by norm_num]
      rfl
    rw [this]
    rfl
  rw [hI k hk'] at hJ'
  cases hJ'
  rw [show (p.withT (X (k + 1))).A = p.A from rfl, ← hab] at l1 l2
  exact ⟨a, b, r, ha, hb', hr, l1, l2⟩

theorem timeFor_mono {l b1 b2 : ℝ} (hl : 0 ≤ l) (h0 : 0 < b1) (h : b1 ≤ b2) : timeFor l b2 ≤ timeFor l b1 := by
  unfold timeFor
  gcongr

/-- C131 in terms of the ranges: the time of flight between two energies of the table (`calculate_tof`) is the time for the way in
between, the difference of the ranges over the density, at a speed between those before and behind it, and below that of light, after any
history. -/
theorem flight_between_ranges (env : Env ℝ) (w1 w2 w1' w2' : World ℝ) (hr1 : ReachableW env w1) (hr2 : ReachableW env w2)
    (p : Projectile ℝ) (n : Int) (t : Material ℝ) (c : Config ℝ) (h : Computable p n t c) (hu : Usual p n t) (hk : NonDefault p t c)
    (hrho : 0 < t.rho) (i j : Nat) (hij : i < j) (hj : j < 600) (R1 R2 b1 b2 : ℝ)
    (hR1 : range env (p.withT ((energy_table : EnergyTable ℝ).val i)) t c w1 = .ok (R1, w1'))
    (hR2 : range env (p.withT ((energy_table : EnergyTable ℝ).val j)) t c w2 = .ok (R2, w2'))
    (s1 : SpeedOf ((energy_table : EnergyTable ℝ).val i) b1) (s2 : SpeedOf ((energy_table : EnergyTable ℝ).val j) b2) (l : List ℝ)
    (hl : calculate_tof env p t c = .ok l) :
    ∃ u v, l[i]? = some u ∧ l[j]? = some v ∧ timeFor ((R2 - R1) / t.rho) b2 ≤ v - u ∧ v - u ≤ timeFor ((R2 - R1) / t.rho) b1 ∧
      timeFor ((R2 - R1) / t.rho) 1 < v - u := by
  have hb := energy_table_bounds
  obtain ⟨d, s, hd, hs, hv⟩ := range_view env p n t c h hk
  obtain ⟨hlen, hst⟩ := flight_step env p n t c h hu hrho d hd
  obtain ⟨hlen', htab⟩ := tof_table env p t c l hl
  obtain ⟨d', hd', -, -, hpw⟩ := range_table_strict env p n t c h hu
  rw [hd] at hd'
  cases hd'
  have hpos0 := energy_table_pos
  rw [speed_unique (hpos0 i) s1, speed_unique (hpos0 j) s2]
  have knot : ∀ (w w' : World ℝ) (_ : ReachableW env w) k R, k < 600 →
      range env (p.withT ((energy_table : EnergyTable ℝ).val k)) t c w = .ok (R, w') → d.range[k]? = some R := by
    intro w w' hr k R hk hR
    obtain ⟨s', hs', k1⟩ := library_knot env d.range hlen k hk _ (List.getElem?_eq_getElem (by omega))
    rw [hs] at hs'
    cases hs'
    have := (hv w hr _ t.th).1 R w' hR
    rw [k1] at this
    rw [List.getElem?_eq_getElem (by omega), Except.ok.inj this]
  have e1 := knot w1 w1' hr1 i R1 (by omega) hR1
  have e2 := knot w2 w2' hr2 j R2 hj hR2
  clear hR1 hR2 knot
  set X := (energy_table : EnergyTable ℝ).val with hX
  have xle : ∀ a b, a ≤ b → X a ≤ X b := fun a b hab => (EnergyTable.val_le_iff _ hb.1 hb.2.1 a b).mpr (by omega)
  obtain ⟨u, hu'⟩ : ∃ u, l[i]? = some u := ⟨_, List.getElem?_eq_getElem (by omega)⟩
  have key : ∀ m, i + m + 1 < 600 → ∃ v R, l[i + m + 1]? = some v ∧ d.range[i + m + 1]? = some R ∧ R1 < R ∧
      timeFor ((R - R1) / t.rho) (beta_from_T (X (i + m + 1))) ≤ v - u ∧ v - u ≤ timeFor ((R - R1) / t.rho) (beta_from_T (X i)) := by
    intro m
    have step : ∀ k, k < 599 → ∀ a u, d.range[k]? = some a → l[k]? = some u → ∃ v R, l[k + 1]? = some v ∧ d.range[k + 1]? = some R ∧ a < R ∧
        timeFor ((R - a) / t.rho) (beta_from_T (X (k + 1))) ≤ v - u ∧ v - u ≤ timeFor ((R - a) / t.rho) (beta_from_T (X k)) := by
      intro k hk a u ha hu
      obtain ⟨a', R, r, ha', hR, hr, l1, l2⟩ := hst k hk
      rw [ha] at ha'
      cases ha'
      obtain ⟨r', h1, h2⟩ := htab k (by omega)
      rw [hr] at h2
      cases h2
      rw [hu] at h1
      refine ⟨u + r, R, h1, hR, ?_, by linarith, by linarith⟩
      rw [List.getElem?_eq_getElem (by omega)] at ha hR
      have := List.pairwise_iff_getElem.mp hpw k (k + 1) (by omega) (by omega) (by omega)
      rw [Option.some.inj ha, Option.some.inj hR] at this
      exact this
    induction m with
    | zero =>
      intro hm
      exact step i (by omega) R1 u e1 hu'
    | succ m ih =>
      intro hm
      obtain ⟨v, R, hv, hR, lt, l1, l2⟩ := ih (by omega)
      obtain ⟨v', R', hv', hR', lt', l1', l2'⟩ := step (i + m + 1) (by omega) R v hR hv
      refine ⟨v', R', hv', hR', lt.trans lt', ?_, ?_⟩
      · have a1 := timeFor_mono (div_nonneg (sub_pos.mpr lt).le hrho.le) (gamma_beta_bounds _ (hpos0 (i + m + 1))).2.1
          (speed_le (hpos0 (i + m + 1)) (xle (i + m + 1) (i + m + 1 + 1) (by omega)))
        have e : timeFor ((R' - R1) / t.rho) (beta_from_T (X (i + m + 1 + 1))) = timeFor ((R' - R) / t.rho) (beta_from_T (X (i + m + 1 + 1))) +
            timeFor ((R - R1) / t.rho) (beta_from_T (X (i + m + 1 + 1))) := by
          unfold timeFor
          ring
        rw [show i + (m + 1) + 1 = i + m + 1 + 1 by omega, e]
        linarith
      · have a1 := timeFor_mono (div_nonneg (sub_pos.mpr lt').le hrho.le) (gamma_beta_bounds _ (hpos0 i)).2.1
          (speed_le (hpos0 i) (xle i (i + m + 1) (by omega)))
        have e : timeFor ((R' - R1) / t.rho) (beta_from_T (X i)) = timeFor ((R' - R) / t.rho) (beta_from_T (X i)) +
            timeFor ((R - R1) / t.rho) (beta_from_T (X i)) := by
          unfold timeFor
          ring
        rw [e]
        linarith
  obtain ⟨m, rfl⟩ : ∃ m, j = i + m + 1 := ⟨j - i - 1, by omega⟩
  obtain ⟨v, R, hv', hR, lt, l1, l2⟩ := key m hj
  rw [e2] at hR
  cases hR
  refine ⟨u, v, hu', hv', l1, l2, lt_of_lt_of_le ?_ l1⟩
  obtain ⟨-, g1, g2⟩ := gamma_beta_bounds _ (hpos0 (i + m + 1))
  have : 0 < (R2 - R1) / t.rho := div_pos (sub_pos.mpr lt) hrho
  unfold timeFor
  gcongr

/-- The table of flight times is defined. -/
theorem tof_table_defined (env : Env ℝ) (p : Projectile ℝ) (n : Int) (t : Material ℝ) (c : Config ℝ) (h : Computable p n t c) (hu : Usual p n t)
    (hrho : 0 < t.rho) : ∃ l, calculate_tof env p t c = .ok l := by
  obtain ⟨d, hd, -⟩ := data_point_defined env p n t c h
  obtain ⟨-, hst⟩ := flight_step env p n t c h hu hrho d hd
  have h0 : ∃ r0, integrator.integrate (tofIntegrand env p t c) Ezero ((energy_table : EnergyTable ℝ).val 0) = .ok r0 := by
    have hf : ∀ x : ℝ, 9e-4 ≤ x ∧ x ≤ 2e-3 → ∃ v, tofIntegrand env p t c x = .ok v := by
      intro x hx
      norm_num at hx
      obtain ⟨v, hv, -⟩ := stopping_positive_at env p n t c h hu x (by linarith) (.inl (by
        rw [ls_top]
        have := (abs_le.mp energy_table_range.2.2).1
        norm_num at this ⊢
        linarith))
      exact ⟨1.0 / (v * beta_from_T x), by unfold tofIntegrand; rw [hv]; rfl⟩
    choose! g hg using hf
    refine ⟨_, integrator.integrate_eq (integrator.shape (GLData.supported_shape _ integrator_supported)).1 _ g _ _ fun e he => hg _ ?_⟩
    obtain ⟨i1, i2, -⟩ := integrator_nodes e he
    obtain ⟨x1, x2⟩ := abs_le.mp energy_table_range.2.1
    have e0 : (Ezero : ℝ) = 1e-3 := by norm_num [Ezero]
    rw [e0]
    norm_num at x1 x2 i1 i2 ⊢
    generalize (energy_table : EnergyTable ℝ).val 0 = X at *
    constructor <;> nlinarith
  obtain ⟨r0, hr0⟩ := h0
  unfold calculate_tof
  rw [hr0, bind_ok]
  have key : ∀ (m : Nat), m ≤ 599 → ∀ l0 : List ℝ, ∃ l, (List.range m).foldlM (fun (acc : List ℝ) k => do
      let r ← integrator.integrate (tofIntegrand env p t c) ((energy_table : EnergyTable ℝ).val k)
        ((energy_table : EnergyTable ℝ).val (k + 1))
      let r := r * 10.0 * p.A / (c_light * t.rho)
      return acc ++ [r + acc.getLastD 0.0]) l0 = (.ok l : M (List ℝ)) := by
    intro m
    induction m with
    | zero => exact fun _ l0 => ⟨l0, rfl⟩
    | succ m ih =>
      intro hm l0
      obtain ⟨l, hl⟩ := ih (by omega) l0
      obtain ⟨-, -, r, -, -, hr, -⟩ := hst m (by omega)
      unfold calculate_tof_from_E at hr
      rw [ok_bind] at hr
      obtain ⟨I, hI, -⟩ := hr
      have hI : integrator.integrate (tofIntegrand env p t c) ((energy_table : EnergyTable ℝ).val m) ((energy_table : EnergyTable ℝ).val (m + 1)) = .ok I := hI
      rw [List.range_succ, List.foldlM_append, hl, bind_ok, List.foldlM_cons, hI, bind_ok]
      exact ⟨_, rfl⟩
  exact key 599 le_rfl _

/-- Carbon ions in water meet the hypotheses. -/
example (env : Env ℝ) (hdbg : env.debug = false) (w : World ℝ) (hr : ReachableW env w) : ∃ R1 R2 w1 w2 l,
    range env (⟨12, 6, 6, (energy_table : EnergyTable ℝ).val 300⟩ : Projectile ℝ) ⟨1, 0.5, 18.015, 78, [⟨1.00794, 1, 2⟩, ⟨15.9994, 8, 1⟩]⟩ .default w = .ok (R1, w1) ∧
    range env (⟨12, 6, 6, (energy_table : EnergyTable ℝ).val 310⟩ : Projectile ℝ) ⟨1, 0.5, 18.015, 78, [⟨1.00794, 1, 2⟩, ⟨15.9994, 8, 1⟩]⟩ .default w = .ok (R2, w2) ∧
    calculate_tof env (⟨12, 6, 6, 0⟩ : Projectile ℝ) ⟨1, 0.5, 18.015, 78, [⟨1.00794, 1, 2⟩, ⟨15.9994, 8, 1⟩]⟩ .default = .ok l ∧
    Computable (⟨12, 6, 6, 0⟩ : Projectile ℝ) 6 ⟨1, 0.5, 18.015, 78, [⟨1.00794, 1, 2⟩, ⟨15.9994, 8, 1⟩]⟩ .default ∧
    Usual (⟨12, 6, 6, 0⟩ : Projectile ℝ) 6 ⟨1, 0.5, 18.015, 78, [⟨1.00794, 1, 2⟩, ⟨15.9994, 8, 1⟩]⟩ ∧
    NonDefault (⟨12, 6, 6, 0⟩ : Projectile ℝ) ⟨1, 0.5, 18.015, 78, [⟨1.00794, 1, 2⟩, ⟨15.9994, 8, 1⟩]⟩ .default := by
  have hu : Usual (⟨12, 6, 6, 0⟩ : Projectile ℝ) 6 ⟨1, 0.5, 18.015, 78, [⟨1.00794, 1, 2⟩, ⟨15.9994, 8, 1⟩]⟩ :=
    UsualIon.usual (.inr (.inr (carbon_water 0)))
  obtain ⟨w1, R1, -, h1, -⟩ := energy_out_succeeds env hdbg w hr (⟨12, 6, 6, (energy_table : EnergyTable ℝ).val 300⟩ : Projectile ℝ) 6 _ _
    (carbon_water_computable _) (carbon_water_nonDefault _)
  obtain ⟨w2, R2, -, h2, -⟩ := energy_out_succeeds env hdbg w hr (⟨12, 6, 6, (energy_table : EnergyTable ℝ).val 310⟩ : Projectile ℝ) 6 _ _
    (carbon_water_computable _) (carbon_water_nonDefault _)
  obtain ⟨l, hl⟩ := tof_table_defined env _ 6 _ _ (carbon_water_computable 0) hu (by norm_num)
  exact ⟨R1, R2, w1, w2, l, h1, h2, hl, carbon_water_computable 0, hu, carbon_water_nonDefault 0⟩

end Catima
