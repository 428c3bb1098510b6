import Verif.Props.SplineWide
import Verif.Props.RangeIncreasing

/-!
# Helper lemmas: tables of integrals of slowly varying functions
-/

namespace Catima

set_option maxRecDepth 8000 in
/-- The mean slopes of a table of integrals are positive and change by bounded factors, if the integrand is positive and changes
by these factors from an energy to the energy one step higher. -/
theorem table_slopes (A : ℝ) (hA : 0 < A) (f : ℝ → M ℝ) (l : List ℝ) (hl : cumulative 599 A energy_table f = .ok l)
    (hdef : ∀ x, (energy_table : EnergyTable ℝ).val 0 ≤ x → x ≤ (energy_table : EnergyTable ℝ).val 599 → LindhardReadable x →
      ∃ v, f x = .ok v) (N : ℕ) (hN2 : 2 ≤ N) (hN : N ≤ 599) (up down : ℝ)
    (hst : ∀ x, (energy_table : EnergyTable ℝ).val 0 ≤ x → gridRatio * x ≤ (energy_table : EnergyTable ℝ).val N → LindhardReadable x →
      LindhardReadable (gridRatio * x) → ∀ u v, f x = .ok u → f (gridRatio * x) = .ok v → 0 < u ∧ 0 < v ∧ v ≤ up * u ∧ u ≤ down * v) :
    l.length = 600 ∧ l.getD 0 0 = 0 ∧ (∀ i < N, 0 < meanSlope l i) ∧
      ∀ i, i + 1 < N → meanSlope l (i + 1) ≤ up * meanSlope l i ∧ meanSlope l i ≤ down * meanSlope l (i + 1) := by
  have hb := energy_table_bounds
  set X := (energy_table : EnergyTable ℝ).val with hX
  have ord : ∀ k, X k < X (k + 1) := fun k => (EnergyTable.val_lt_iff _ hb.1 hb.2.1 k (k + 1)).mpr (by omega)
  have mono : ∀ j k, j ≤ k → X j ≤ X k := fun j k h => (EnergyTable.val_le_iff _ hb.1 hb.2.1 j k).mpr h
  have hgeo : ∀ k, X (k + 1) = gridRatio * X k := grid_geometric
  have key : ∀ k < 599, ∃ g : ℝ → ℝ, (∀ x, Inner (X k) (X (k + 1)) x → f x = .ok (g x)) ∧
      integrator.integrate f (X k) (X (k + 1)) = .ok ((X (k + 1) - X k) / 2 *
        wsum integrator.full fun x => g ((X (k + 1) - X k) / 2 * x + (X (k + 1) + X k) / 2)) := by
    intro k hk
    obtain ⟨g, hg, hI⟩ := integrator_value f (X k) (X (k + 1)) (ord k).le (fun _ => True) fun x hx => by
      obtain ⟨-, -, ha, hb, h0, hr⟩ := inner_grid k hk x hx
      obtain ⟨v, hv⟩ := hdef x ha hb hr
      exact ⟨v, hv, trivial⟩
    exact ⟨g, fun x hx => (hg x hx).1, hI⟩
  choose! g hg hI using key
  obtain ⟨hlen, hz, hs⟩ := table_step A _ _ hl _ hI
  have hm : ∀ k < 599, meanSlope l k = A * (1 / 2 * wsum integrator.full fun x =>
      g k ((X (k + 1) - X k) / 2 * x + (X (k + 1) + X k) / 2)) := by
    intro k hk
    obtain ⟨a, b, ha, hb, hab⟩ := hs k hk
    have hne : X (k + 1) - X k ≠ 0 := by linarith [ord k]
    unfold meanSlope
    rw [List.getD_eq_getElem?_getD, List.getD_eq_getElem?_getD, ha, hb]
    simp only [Option.getD_some]
    rw [hab, ← hX]
    field_simp
  have wpos : ∀ e ∈ integrator.full, (0 : ℝ) < e.2 := fun e he => (integrator_nodes e he).2.2
  have steady : ∀ k, k + 1 < N → ∀ e ∈ integrator.full, ∃ u v, 0 < u ∧ 0 < v ∧ v ≤ up * u ∧ u ≤ down * v ∧
      g k ((X (k + 1) - X k) / 2 * e.1 + (X (k + 1) + X k) / 2) = u ∧
      g (k + 1) ((X (k + 1 + 1) - X (k + 1)) / 2 * e.1 + (X (k + 1 + 1) + X (k + 1)) / 2) = v := by
    intro k hk e he
    have i1 := node_inner (X k) (X (k + 1)) (ord k).le e he
    have i2 := node_inner (X (k + 1)) (X (k + 1 + 1)) (ord (k + 1)).le e he
    obtain ⟨-, -, a1, -, -, r1⟩ := inner_grid k (by omega) _ i1
    obtain ⟨-, b1, -, -, -, r2⟩ := inner_grid (k + 1) (by omega) _ i2
    have hu := hg k (by omega) _ i1
    have hv := hg (k + 1) (by omega) _ i2
    have e1 : (X (k + 1 + 1) - X (k + 1)) / 2 * e.1 + (X (k + 1 + 1) + X (k + 1)) / 2 =
        gridRatio * ((X (k + 1) - X k) / 2 * e.1 + (X (k + 1) + X k) / 2) := by
      rw [hgeo (k + 1), hgeo k]; ring
    have hu' := hu
    rw [e1] at hv b1 r2
    have b2 := b1.trans (mono (k + 1 + 1) N (by omega))
    obtain ⟨h1, h2, h3, h4⟩ := hst _ a1 b2 r1 r2 _ _ hu hv
    refine ⟨_, _, h1, h2, h3, h4, rfl, ?_⟩
    rw [e1]
  refine ⟨hlen, ?_, fun k hk => ?_, fun k hk => ?_⟩
  · rw [List.getD_eq_getElem?_getD, hz]; rfl
  · rw [hm k (by omega)]
    refine mul_pos hA (mul_pos (by norm_num) ?_)
    refine sum_pos_of_forall _ _ (fun e he => mul_pos (wpos e he) ?_) integrator_full_ne
    rcases Nat.lt_or_ge (k + 1) N with h1 | h1
    · obtain ⟨u, v, hu, hv, -, -, e1, -⟩ := steady k h1 e he
      show 0 < g k _
      rw [e1]; exact hu
    · obtain ⟨u, v, hu, hv, -, -, -, e1⟩ := steady (k - 1) (by omega) e he
      rw [show k - 1 + 1 = k by omega] at e1
      show 0 < g k _
      rw [e1]; exact hv
  rw [hm k (by omega), hm (k + 1) (by omega)]
  have one : ∀ (r : ℝ) (f f' : ℝ → ℝ), (∀ e ∈ integrator.full, f e.1 ≤ r * f' e.1) →
      A * (1 / 2 * wsum integrator.full f) ≤ r * (A * (1 / 2 * wsum integrator.full f')) := by
    intro r f f' hff
    have := wsum_le integrator.full f (fun x => r * f' x) (fun e he => (wpos e he).le) hff
    rw [wsum_mul] at this
    nlinarith
  constructor
  · refine one _ _ _ fun e he => ?_
    obtain ⟨u, v, hu, hv, h1, h2, e1, e2⟩ := steady k (by omega) e he
    rw [e1, e2]
    exact h1
  · refine one _ _ _ fun e he => ?_
    obtain ⟨u, v, hu, hv, h1, h2, e1, e2⟩ := steady k (by omega) e he
    rw [e1, e2]
    exact h2

/-- The momentum times the velocity increases with the energy, not faster than the energy. -/
theorem scattering_power_step (p : Projectile ℝ) (hA : 0 < p.A) (m : Material ℝ) (c : Config ℝ) (hZ : p.Z ≠ 0)
    (hX : 0 < radiation_length m) (hf : 0 < c.scattering_factor) (x r : ℝ) (hx : 0 < x) (h1 : 1 ≤ r) (h2 : r ≤ 1.0393) :
    0 < da2dx (p.withT x) m c ∧ 0 < da2dx (p.withT (r * x)) m c ∧ da2dx (p.withT (r * x)) m c ≤ da2dx (p.withT x) m c ∧
      da2dx (p.withT x) m c ≤ 1.0802 * da2dx (p.withT (r * x)) m c := by
  have hu : (0 : ℝ) < atomic_mass_unit := by norm_num [atomic_mass_unit]
  have hEs : 0 < Es2_of c := by
    unfold Es2_of
    dsimp only
    split_ifs <;> norm_num [Es_squared, PI, fine_structure_inverted, fine_structure, electron_mass]
  have val : ∀ y, 0 < y → da2dx (p.withT y) m c =
      c.scattering_factor * (Es2_of c * p.Z ^ 2 / (radiation_length m * (p.A * (y * (y + 2 * atomic_mass_unit) / (y + atomic_mass_unit))) ^ 2)) := by
    intro y hy
    unfold da2dx angular_scattering_power
    have hT : ((p.withT y).T ≤? 0.0) = false := by
      rw [le_real_false]
      show (0.0 : ℝ) < y
      norm_num; exact hy
    rw [if_neg (by simp [hT])]
    have hp2 : p_from_T y p.A ^ 2 = p.A ^ 2 * (y * (y + 2 * atomic_mass_unit)) := by
      unfold p_from_T
      simp only [sqrt_real]
      rw [mul_pow, Real.sq_sqrt (by positivity)]
      norm_num
      try ring
    have e : ∀ q : ℝ, q ^ 2 = p.A ^ 2 * (y * (y + 2 * atomic_mass_unit)) →
        q * (q / ((y + atomic_mass_unit) * p.A)) = p.A * (y * (y + 2 * atomic_mass_unit) / (y + atomic_mass_unit)) := by
      intro q hq
      have : q * (q / ((y + atomic_mass_unit) * p.A)) = q ^ 2 / ((y + atomic_mass_unit) * p.A) := by ring
      rw [this, hq]
      field_simp
    have e' := e _ hp2
    show c.scattering_factor * (Es2_of c * ipow p.Z 2 / (radiation_length m * ipow (p_from_T y p.A * (p_from_T y p.A / ((y + atomic_mass_unit) * p.A))) 2)) = _
    have sq : ∀ z : ℝ, ipow z 2 = z ^ 2 := fun z => by
      unfold ipow
      norm_num
      ring
    rw [e', sq, sq]
  have hrx : 0 < r * x := by positivity
  rw [val x hx, val (r * x) hrx]
  generalize (atomic_mass_unit : ℝ) = u at *
  have hxr : x ≤ r * x := by nlinarith
  have ge : x * (x + 2 * u) / (x + u) ≤ r * x * (r * x + 2 * u) / (r * x + u) := by
    rw [div_le_div_iff₀ (by positivity) (by positivity)]
    nlinarith [mul_nonneg (sub_nonneg.mpr hxr) hx.le, mul_nonneg (sub_nonneg.mpr hxr) hu.le, mul_pos hx hu, mul_pos hx hrx,
      mul_nonneg (sub_nonneg.mpr hxr) (mul_pos hx hu).le, mul_nonneg (sub_nonneg.mpr hxr) (mul_pos hx hrx).le,
      mul_nonneg (sub_nonneg.mpr hxr) (mul_pos hu hu).le, mul_nonneg (sub_nonneg.mpr hxr) (mul_pos hrx hu).le]
  have le : r * x * (r * x + 2 * u) / (r * x + u) ≤ 1.0393 * (x * (x + 2 * u) / (x + u)) := by
    have k : (r * x + 2 * u) / (r * x + u) ≤ (x + 2 * u) / (x + u) := by
      rw [div_le_div_iff₀ (by positivity) (by positivity)]
      nlinarith [mul_nonneg (sub_nonneg.mpr hxr) hu.le]
    calc r * x * (r * x + 2 * u) / (r * x + u) = r * x * ((r * x + 2 * u) / (r * x + u)) := by ring
      _ ≤ 1.0393 * x * ((x + 2 * u) / (x + u)) := mul_le_mul (mul_le_mul_of_nonneg_right h2 hx.le) k (by positivity) (by positivity)
      _ = _ := by ring
  have g0 : 0 < x * (x + 2 * u) / (x + u) := by positivity
  generalize x * (x + 2 * u) / (x + u) = g at *
  have g0' : 0 < r * x * (r * x + 2 * u) / (r * x + u) := by positivity
  generalize r * x * (r * x + 2 * u) / (r * x + u) = g' at *
  have hA2 : p.A * g ≤ p.A * g' := mul_le_mul_of_nonneg_left ge hA.le
  refine ⟨by positivity, by positivity, ?_, ?_⟩
  · refine mul_le_mul_of_nonneg_left (div_le_div_of_nonneg_left (by positivity) (by positivity) ?_) hf.le
    exact mul_le_mul_of_nonneg_left (pow_le_pow_left₀ (by positivity) hA2 2) hX.le
  · have e : 1.0802 * (c.scattering_factor * (Es2_of c * p.Z ^ 2 / (radiation_length m * (p.A * g') ^ 2))) =
        c.scattering_factor * (1.0802 * (Es2_of c * p.Z ^ 2) / (radiation_length m * (p.A * g') ^ 2)) := by ring
    rw [e]
    refine mul_le_mul_of_nonneg_left ?_ hf.le
    rw [div_le_div_iff₀ (by positivity) (by positivity)]
    have k : (p.A * g') ^ 2 ≤ 1.0802 * (p.A * g) ^ 2 := by
      have : (p.A * g') ^ 2 ≤ (1.0393 * (p.A * g)) ^ 2 := pow_le_pow_left₀ (by positivity) (by nlinarith) 2
      refine this.trans ?_
      rw [mul_pow]
      exact mul_le_mul_of_nonneg_right (by norm_num) (by positivity)
    have : 0 ≤ Es2_of c * p.Z ^ 2 * radiation_length m := by positivity
    nlinarith [mul_le_mul_of_nonneg_left k this]

end Catima
