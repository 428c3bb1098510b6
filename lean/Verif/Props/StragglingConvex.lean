import Verif.Props.RangeConvex
import Verif.Props.StragglingOption
import Verif.Props.StragglingGrows

/-!
# C144: between 30 and 300 MeV/u the variance of the range grows the faster the higher the energy
-/

namespace Catima

/-- The energies of the table are at least 3.8 % apart. -/
theorem energy_gap_relative (i : Nat) : 0.038 * (energy_table : EnergyTable ℝ).val i ≤ (energy_table : EnergyTable ℝ).val (i + 1) -
    (energy_table : EnergyTable ℝ).val i := by
  have e : (energy_table : EnergyTable ℝ).val (i + 1) =
      Real.exp (LN10 * (energy_table : EnergyTable ℝ).step) * (energy_table : EnergyTable ℝ).val i := by
    rw [EnergyTable.val_eq, EnergyTable.val_eq, ← Real.exp_add]; congr 1; push_cast; ring
  have h1 := Real.add_one_le_exp (LN10 * (energy_table : EnergyTable ℝ).step)
  have h2 : 0 < (energy_table : EnergyTable ℝ).val i := by rw [EnergyTable.val_eq]; exact Real.exp_pos _
  have hs : (energy_table : EnergyTable ℝ).step = 10 / 599 := by
    rw [EnergyTable.step_eq]; norm_num [energy_table, logEmin, logEmax, max_datapoints]
  rw [hs] at h1 e
  have h3 : (0.038 : ℝ) ≤ LN10 * (10 / 599) := by norm_num [LN10]
  rw [e]
  norm_num at h3 ⊢
  nlinarith

theorem power_three (s : ℝ) (hs : 0 < s) : power s (3.0 : ℝ) = s ^ 3 := by
  show Real.exp (Real.log s * 3.0) = s ^ 3
  have : Real.log s * 3.0 = ((3 : ℕ) : ℝ) * Real.log s := by norm_num; ring
  rw [this, Real.exp_nat_mul, Real.exp_log hs]

/-- The integrand of the variance of the range as a growing function. -/
theorem growing_function (env : Env ℝ) {p : Projectile ℝ} {n : Int} {m : Material ℝ} {c : Config ℝ} (h : FallingIn p n m c)
    (hc : c.calculation ≠ 0) (hA : p.A ≤ 3 * element_atomic_weight n) :
    ∃ F G : ℝ → ℝ, ∀ x, 30 ≤ x → x ≤ 300 → dedx env (p.withT x) m c = .ok (F x) ∧ domega2dx env (p.withT x) m c = .ok (G x) ∧
      fomega env p m c x = .ok (G x / F x ^ 3) ∧ 0 < F x ∧ 0 < G x ∧
      ∀ x', x + 1e-6 ≤ x' → x' ≤ 300 → F x' ≤ F x ∧ G x < G x' ∧ G x / F x ^ 3 ≤ G x' / F x' ^ 3 := by
  obtain ⟨F, hF⟩ := falling_function env h
  have hQ : c.z_effective = 0 → 0 < p.Q := fun e => by
    rcases h.case.charge with ⟨h1, -⟩ | ⟨-, h2⟩
    · rw [e] at h1; simp at h1
    · exact h2
  have pZ : 0 ≤ p.Z := by
    have := h.computable.ion.pos
    rw [h.computable.ion.Z]
    exact_mod_cast (by omega : 0 ≤ n)
  have hv : ∀ x, 30 ≤ x → x ≤ 300 → ∃ v, domega2dx env (p.withT x) m c = .ok v ∧ 0 < v := fun x h0 h1 => by
    obtain ⟨v, v', e, e', hlt⟩ := straggling_grows_partial env h.computable hc hA hQ 2 x (.inr ⟨by norm_num, by norm_num; linarith, by linarith⟩)
    obtain ⟨X, X', hX, -, x0, -⟩ := X_gamma_grows env.calcIndex h.computable.ion h.computable.small hA 2 3 (by norm_num) (by norm_num) (by norm_num)
    have g0 := (gamma_beta_bounds 2 (by norm_num)).1
    obtain ⟨u, e2, hu⟩ := straggling_nonneg env (p.withT 2) m h.computable.sound c X (fun t _ => by
      rcases h.computable.charge with h1 | ⟨h1, -⟩
      · exact ⟨_, (z_effective_basic env.debug (p.withT 2) t c).2 h1⟩
      · exact ⟨_, (z_effective_basic env.debug (p.withT 2) t c).1 h1⟩) hX
      (nonneg_of_mul_nonneg_left x0 (by nlinarith)) (show (0 : ℝ) ≤ 2 by norm_num) pZ
    rw [e] at e2
    cases e2
    exact ⟨v', e', by linarith⟩
  choose! G hG G0 using hv
  refine ⟨F, G, fun x h0 h1 => ?_⟩
  obtain ⟨f1, f2, f3⟩ := hF x h0 h1
  refine ⟨f1, hG x h0 h1, ?_, f2, G0 x h0 h1, fun x' hx hx' => ?_⟩
  · unfold fomega
    rw [hG x h0 h1, f1, ← power_three _ f2]
    rfl
  · norm_num at hx
    have x0 : 30 ≤ x' := by linarith
    obtain ⟨v, v', e, e', hlt⟩ := straggling_grows_partial env h.computable hc hA hQ x x' (.inr ⟨by linarith, by norm_num; linarith, by linarith⟩)
    rw [hG x h0 h1] at e
    rw [hG x' x0 hx'] at e'
    cases e
    cases e'
    have g := f3 x' (by norm_num; linarith) hx'
    have F0 := (hF x' x0 hx').2.1
    refine ⟨g, hlt, ?_⟩
    exact div_le_div₀ (G0 x' x0 hx').le hlt.le (pow_pos F0 3) (pow_le_pow_left₀ F0.le g 3)

/-- A step of the table of the variance. -/
theorem variance_slope_step (env : Env ℝ) {p : Projectile ℝ} {n : Int} {m : Material ℝ} {c : Config ℝ} (h : FallingIn p n m c) (H : ℝ → ℝ)
    (hH : ∀ x, 30 ≤ x → x ≤ 300 → fomega env p m c x = .ok (H x) ∧ 0 < H x ∧ ∀ x', x + 1e-6 ≤ x' → x' ≤ 300 → H x ≤ H x')
    (hdef : ∀ k < 599, ∃ I, integrator.integrate (fomega env p m c) ((energy_table : EnergyTable ℝ).val k)
      ((energy_table : EnergyTable ℝ).val (k + 1)) = .ok I)
    (d : DataPoint ℝ) (hd : calculate_DataPoint env p m c = .ok d) :
    d.range_straggling.length = 600 ∧
    ∀ k < 599, 30 ≤ (energy_table : EnergyTable ℝ).val k → (energy_table : EnergyTable ℝ).val (k + 1) ≤ 300 →
      ∃ a b, d.range_straggling[k]? = some a ∧ d.range_straggling[k + 1]? = some b ∧
        p.A / 2 * wsum integrator.full (fun _ => 1) * H ((energy_table : EnergyTable ℝ).val k) *
          ((energy_table : EnergyTable ℝ).val (k + 1) - (energy_table : EnergyTable ℝ).val k) ≤ b - a ∧
        b - a ≤ p.A / 2 * wsum integrator.full (fun _ => 1) * H ((energy_table : EnergyTable ℝ).val (k + 1)) *
          ((energy_table : EnergyTable ℝ).val (k + 1) - (energy_table : EnergyTable ℝ).val k) := by
  have hb := energy_table_bounds
  have hA := h.computable.ion.A
  have gap := energy_gap_relative
  set X := (energy_table : EnergyTable ℝ).val with hX
  have ord : ∀ k, X k < X (k + 1) := fun k => (EnergyTable.val_lt_iff _ hb.1 hb.2.1 k (k + 1)).mpr (by omega)
  choose! I hI using hdef
  obtain ⟨hl, -, hst⟩ := table_step p.A _ _ (data_point_parts env p m c d hd).2.2 I hI
  refine ⟨hl, fun k hk h0 h1 => ?_⟩
  obtain ⟨a, b, ha, hb', e⟩ := hst k hk
  refine ⟨a, b, ha, hb', ?_⟩
  have xk := ord k
  have g : 0.038 * X k ≤ X (k + 1) - X k := gap k
  norm_num at g
  have near : ∀ x, Inner (X k) (X (k + 1)) x → 30 ≤ x ∧ x ≤ 300 ∧ X k + 1e-6 ≤ x ∧ x + 1e-6 ≤ X (k + 1) := by
    rintro x ⟨i1, i2⟩
    norm_num
    refine ⟨?_, ?_, ?_, ?_⟩ <;> linarith
  have val : I k = (X (k + 1) - X k) / 2 * wsum integrator.full fun x => H ((X (k + 1) - X k) / 2 * x + (X (k + 1) + X k) / 2) := by
    have e1 := integrator.integrate_eq (integrator.shape (GLData.supported_shape _ integrator_supported)).1 (fomega env p m c)
      H (X k) (X (k + 1)) fun e he => by
        obtain ⟨n1, n2, -⟩ := near _ (node_inner _ _ xk.le e he)
        exact (hH _ n1 n2).1
    rw [hI k hk] at e1
    exact Except.ok.inj e1
  have hw : ∀ e ∈ integrator.full, (0 : ℝ) ≤ e.2 := fun e he => (integrator_nodes e he).2.2.le
  have lo := wsum_le integrator.full (fun _ => H (X k)) (fun x => H ((X (k + 1) - X k) / 2 * x + (X (k + 1) + X k) / 2)) hw
    fun e he => by
      obtain ⟨n1, n2, n3, n4⟩ := near _ (node_inner _ _ xk.le e he)
      exact (hH _ h0 (by linarith)).2.2 _ n3 n2
  have hi := wsum_le integrator.full (fun x => H ((X (k + 1) - X k) / 2 * x + (X (k + 1) + X k) / 2)) (fun _ => H (X (k + 1))) hw
    fun e he => by
      obtain ⟨n1, n2, n3, n4⟩ := near _ (node_inner _ _ xk.le e he)
      exact (hH _ n1 n2).2.2 _ n4 h1
  rw [wsum_scale_one] at lo hi
  rw [e, val]
  clear val
  generalize (wsum integrator.full fun x => H ((X (k + 1) - X k) / 2 * x + (X (k + 1) + X k) / 2)) = G at *
  generalize wsum integrator.full (fun _ => (1 : ℝ)) = W at *
  generalize H (X k) = f0 at *
  generalize H (X (k + 1)) = f1 at *
  have q : 0 ≤ p.A * ((X (k + 1) - X k) / 2) := by
    have : 0 ≤ (X (k + 1) - X k) / 2 := by linarith
    positivity
  have l1 := mul_le_mul_of_nonneg_left lo q
  have l2 := mul_le_mul_of_nonneg_left hi q
  constructor
  · linarith
  · linarith

/-- The variances at two points of the table. -/
theorem variance_slope_table (env : Env ℝ) {p : Projectile ℝ} {n : Int} {m : Material ℝ} {c : Config ℝ} (h : FallingIn p n m c) (H : ℝ → ℝ)
    (hH : ∀ x, 30 ≤ x → x ≤ 300 → fomega env p m c x = .ok (H x) ∧ 0 < H x ∧ ∀ x', x + 1e-6 ≤ x' → x' ≤ 300 → H x ≤ H x')
    (hdef : ∀ k < 599, ∃ I, integrator.integrate (fomega env p m c) ((energy_table : EnergyTable ℝ).val k)
      ((energy_table : EnergyTable ℝ).val (k + 1)) = .ok I)
    (d : DataPoint ℝ) (hd : calculate_DataPoint env p m c = .ok d) (i : Nat) (h0 : 30 ≤ (energy_table : EnergyTable ℝ).val i) (k : Nat)
    (hk : i + k < 600) (h1 : (energy_table : EnergyTable ℝ).val (i + k) ≤ 300) :
      ∃ a b, d.range_straggling[i]? = some a ∧ d.range_straggling[i + k]? = some b ∧
        p.A / 2 * wsum integrator.full (fun _ => 1) * H ((energy_table : EnergyTable ℝ).val i) *
          ((energy_table : EnergyTable ℝ).val (i + k) - (energy_table : EnergyTable ℝ).val i) ≤ b - a ∧
        b - a ≤ p.A / 2 * wsum integrator.full (fun _ => 1) * H ((energy_table : EnergyTable ℝ).val (i + k)) *
          ((energy_table : EnergyTable ℝ).val (i + k) - (energy_table : EnergyTable ℝ).val i) := by
  obtain ⟨hl, hst⟩ := variance_slope_step env h H hH hdef d hd
  have hA := h.computable.ion.A
  have hb := energy_table_bounds
  have gap := energy_gap
  have ws := (abs_le.mp weights_sum).1
  set X := (energy_table : EnergyTable ℝ).val with hX
  have xle : ∀ a b, a ≤ b → X a ≤ X b := fun a b hab => (EnergyTable.val_le_iff _ hb.1 hb.2.1 a b).mpr (by omega)
  have fl : ∀ a b, i ≤ a → a ≤ b → X b ≤ 300 → H (X a) ≤ H (X b) := by
    intro a b ha hab hb3
    have a0 := xle i a ha
    rcases eq_or_lt_of_le hab with rfl | hlt
    · exact le_rfl
    · have g : 3e-5 ≤ X (a + 1) - X a := gap a
      have b0 := xle (a + 1) b (by omega)
      norm_num at g
      exact (hH _ (by linarith) (by linarith)).2.2 _ (by norm_num; linarith) hb3
  have κ0 : 0 < p.A / 2 * wsum integrator.full (fun _ => 1) := by
    norm_num at ws
    have : 0 < wsum integrator.full (fun _ => (1 : ℝ)) := by linarith
    positivity
  generalize p.A / 2 * wsum integrator.full (fun _ => 1) = κ at *
  induction k with
  | zero => exact ⟨_, _, List.getElem?_eq_getElem (by omega), List.getElem?_eq_getElem (by omega), by simp, by simp⟩
  | succ k ih =>
    have s1 := xle (i + k) (i + (k + 1)) (by omega)
    have s0 := xle i (i + k) (by omega)
    obtain ⟨a, b, ha, hb, l1, l2⟩ := ih (by omega) (by linarith)
    obtain ⟨b', b2, hb', hb2, m1, m2⟩ := hst (i + k) (by omega) (by linarith) h1
    rw [hb] at hb'
    cases hb'
    refine ⟨a, b2, ha, hb2, ?_, ?_⟩
    · have f := fl i (i + k) le_rfl (by omega) (by linarith)
      have : κ * H (X i) * (X (i + k + 1) - X (i + k)) ≤ κ * H (X (i + k)) * (X (i + k + 1) - X (i + k)) := by
        have : 0 ≤ X (i + k + 1) - X (i + k) := by
          change X (i + k) ≤ X (i + k + 1) at s1
          linarith
        gcongr
      change κ * H (X i) * (X (i + k + 1) - X i) ≤ _
      linarith
    · have f := fl (i + k) (i + k + 1) (by omega) (by omega) h1
      have : κ * H (X (i + k)) * (X (i + k) - X i) ≤ κ * H (X (i + k + 1)) * (X (i + k) - X i) := by
        have : 0 ≤ X (i + k) - X i := by linarith
        gcongr
      change _ ≤ κ * H (X (i + k + 1)) * (X (i + k + 1) - X i)
      linarith

/-- The integrals of the table of the variance are defined. -/
theorem variance_integrals (env : Env ℝ) {p : Projectile ℝ} {n : Int} {m : Material ℝ} {c : Config ℝ} (h : Computable p n m c)
    (hc : c.calculation ≠ 0) (k : Nat) (hk : k < 599) :
    ∃ I, integrator.integrate (fomega env p m c) ((energy_table : EnergyTable ℝ).val k) ((energy_table : EnergyTable ℝ).val (k + 1)) = .ok I := by
  have hb := energy_table_bounds
  refine integrator_defined _ _ _ ((EnergyTable.val_lt_iff _ hb.1 hb.2.1 k (k + 1)).mpr (by omega)).le fun x hx => ?_
  obtain ⟨-, -, -, -, x0, hr⟩ := inner_grid k hk x hx
  obtain ⟨u, v, e1, -⟩ := straggling_option_order env (h.withT x) c.calculation hc x0 hr
  obtain ⟨s, hs⟩ := h.dedx env x x0 hr
  change domega2dx env (p.withT x) m c = .ok u at e1
  exact ⟨u / power s 3.0, by unfold fomega; rw [e1, hs]; rfl⟩

/-- Variances at points of the table from any histories belong to one table. -/
theorem variances_of_table (env : Env ℝ) (p : Projectile ℝ) (n : Int) (m : Material ℝ) (c : Config ℝ) (h : Computable p n m c)
    (hk : NonDefault p m c) : ∃ d, calculate_DataPoint env p m c = .ok d ∧ ∀ w, ReachableW env w → ∃ w', ∀ i < 600, ∀ V,
      d.range_straggling[i]? = some V → range_variance env p ((energy_table : EnergyTable ℝ).val i) m c w = .ok (V, w') := by
  obtain ⟨d, s, hd, hl, hs, -, hv⟩ := straggling_view env p n m c h hk
  refine ⟨d, hd, fun w hw => ?_⟩
  obtain ⟨d', w', g, q⟩ := hv w hw
  refine ⟨w', fun i hi V hV => variance_at g q ?_⟩
  obtain ⟨s', hs', k1⟩ := library_knot env d.range_straggling hl i hi V hV
  rw [hs] at hs'
  cases hs'
  exact k1

/-- C144: with the option bohr the variance that the range gains between two energies of the table, both between 30 and 300 MeV/u, lies
between the one that the energy-loss variance and the stopping power at the lower energy give and the one that those at the higher
energy give, up to the error 1e-6 of the sum of the weights of the quadrature. -/
theorem variance_between (env : Env ℝ) (p : Projectile ℝ) (n : Int) (m : Material ℝ) (c : Config ℝ) (h : FallingIn p n m c)
    (hc : c.calculation ≠ 0) (hA : p.A ≤ 3 * element_atomic_weight n) (hk : NonDefault p m c) (i j : Nat) (hij : i < j) (hj : j < 600)
    (h0 : 30 ≤ (energy_table : EnergyTable ℝ).val i) (h1 : (energy_table : EnergyTable ℝ).val j ≤ 300) (w1 w2 : World ℝ)
    (hw1 : ReachableW env w1) (hw2 : ReachableW env w2) :
    ∃ V1 V2 w1' w2' s1 s2 o1 o2, range_variance env p ((energy_table : EnergyTable ℝ).val i) m c w1 = .ok (V1, w1') ∧
      range_variance env p ((energy_table : EnergyTable ℝ).val j) m c w2 = .ok (V2, w2') ∧
      dedx env (p.withT ((energy_table : EnergyTable ℝ).val i)) m c = .ok s1 ∧
      dedx env (p.withT ((energy_table : EnergyTable ℝ).val j)) m c = .ok s2 ∧
      domega2dx env (p.withT ((energy_table : EnergyTable ℝ).val i)) m c = .ok o1 ∧
      domega2dx env (p.withT ((energy_table : EnergyTable ℝ).val j)) m c = .ok o2 ∧
      0 < s2 ∧ s2 ≤ s1 ∧ 0 < o1 ∧ o1 < o2 ∧ V1 < V2 ∧
      0.999999 * (p.A * ((energy_table : EnergyTable ℝ).val j - (energy_table : EnergyTable ℝ).val i)) * o1 / s1 ^ 3 ≤ V2 - V1 ∧
      V2 - V1 ≤ 1.000001 * (p.A * ((energy_table : EnergyTable ℝ).val j - (energy_table : EnergyTable ℝ).val i)) * o2 / s2 ^ 3 := by
  obtain ⟨F, G, hF⟩ := growing_function env h hc hA
  obtain ⟨d, hd, hres⟩ := variances_of_table env p n m c h.computable hk
  obtain ⟨k, rfl⟩ : ∃ k, j = i + k := ⟨j - i, by omega⟩
  obtain ⟨V1, V2, e1, e2, l1, l2⟩ := variance_slope_table env h (fun x => G x / F x ^ 3)
    (fun x hx hx' => by
      obtain ⟨-, -, f3, f4, f5, f6⟩ := hF x hx hx'
      exact ⟨f3, by positivity, fun x' a b => (f6 x' a b).2.2⟩) (variance_integrals env h.computable hc) d hd i h0 k hj h1
  have hb := energy_table_bounds
  have A0 := h.computable.ion.A
  obtain ⟨w0, w0'⟩ := abs_le.mp weights_sum
  have xle : (energy_table : EnergyTable ℝ).val (i + 1) ≤ (energy_table : EnergyTable ℝ).val (i + k) :=
    (EnergyTable.val_le_iff _ hb.1 hb.2.1 _ _).mpr (by omega)
  have g := energy_gap i
  obtain ⟨w1', b1⟩ := hres w1 hw1
  obtain ⟨w2', b2⟩ := hres w2 hw2
  have a1 := b1 i (by omega) V1 e1
  have a2 := b2 (i + k) hj V2 e2
  clear hres e1 e2 b1 b2
  generalize (energy_table : EnergyTable ℝ).val (i + k) = Y at *
  generalize (energy_table : EnergyTable ℝ).val i = X at *
  norm_num at g w0 w0'
  obtain ⟨u1, u2, -, u3, u4, u5⟩ := hF X h0 (by linarith)
  obtain ⟨v1, v2, -, v3, v4, -⟩ := hF Y (by linarith) h1
  obtain ⟨y1, y2, -⟩ := u5 Y (by norm_num; linarith) h1
  clear u5 hF
  generalize F X = s1 at *
  generalize F Y = s2 at *
  generalize G X = o1 at *
  generalize G Y = o2 at *
  generalize wsum integrator.full (fun _ => (1 : ℝ)) = W at *
  have q0 : 0 < p.A * (Y - X) := mul_pos A0 (by linarith)
  have r1 : 0 < o1 / s1 ^ 3 := by positivity
  have r2 : 0 < o2 / s2 ^ 3 := by positivity
  have t1 := mul_pos q0 r1
  have t2 := mul_pos q0 r2
  refine ⟨V1, V2, w1', w2', s1, s2, o1, o2, a1, a2, u1, v1, u2, v2, v3, y1, u4, y2, ?_, ?_, ?_⟩
  · have : 0 < p.A / 2 * W * (o1 / s1 ^ 3) * (Y - X) := by
      have : 0 < Y - X := by linarith
      have : 0 < W := by linarith
      positivity
    linarith
  · rw [mul_div_assoc]
    norm_num
    nlinarith
  · rw [mul_div_assoc]
    norm_num
    nlinarith

/-- C144: the variance of the range as a function of the energy is convex on the energies of the table between 30 and 300 MeV/u. -/
theorem variance_convex (env : Env ℝ) (p : Projectile ℝ) (n : Int) (m : Material ℝ) (c : Config ℝ) (h : FallingIn p n m c)
    (hc : c.calculation ≠ 0) (hA : p.A ≤ 3 * element_atomic_weight n) (hk : NonDefault p m c) (i j k l : Nat) (hij : i < j) (hjk : j ≤ k)
    (hkl : k < l) (hl : l < 600) (h0 : 30 ≤ (energy_table : EnergyTable ℝ).val i) (h1 : (energy_table : EnergyTable ℝ).val l ≤ 300)
    (w : World ℝ) (hw : ReachableW env w) :
    ∃ V1 V2 V3 V4 w', range_variance env p ((energy_table : EnergyTable ℝ).val i) m c w = .ok (V1, w') ∧
      range_variance env p ((energy_table : EnergyTable ℝ).val j) m c w = .ok (V2, w') ∧
      range_variance env p ((energy_table : EnergyTable ℝ).val k) m c w = .ok (V3, w') ∧
      range_variance env p ((energy_table : EnergyTable ℝ).val l) m c w = .ok (V4, w') ∧
      (V2 - V1) / ((energy_table : EnergyTable ℝ).val j - (energy_table : EnergyTable ℝ).val i) ≤
        (V4 - V3) / ((energy_table : EnergyTable ℝ).val l - (energy_table : EnergyTable ℝ).val k) := by
  obtain ⟨F, G, hF⟩ := growing_function env h hc hA
  obtain ⟨d, hd, hres⟩ := variances_of_table env p n m c h.computable hk
  have hH : ∀ x, 30 ≤ x → x ≤ 300 → fomega env p m c x = .ok ((fun x => G x / F x ^ 3) x) ∧ 0 < (fun x => G x / F x ^ 3) x ∧
      ∀ x', x + 1e-6 ≤ x' → x' ≤ 300 → (fun x => G x / F x ^ 3) x ≤ (fun x => G x / F x ^ 3) x' := fun x hx hx' => by
    obtain ⟨-, -, f3, f4, f5, f6⟩ := hF x hx hx'
    exact ⟨f3, by positivity, fun x' a b => (f6 x' a b).2.2⟩
  have hdef := variance_integrals env h.computable hc
  generalize (fun x => G x / F x ^ 3) = H at hH
  have hb := energy_table_bounds
  have A0 := h.computable.ion.A
  have w0 := (abs_le.mp weights_sum).1
  have xle : ∀ a b, a ≤ b → (energy_table : EnergyTable ℝ).val a ≤ (energy_table : EnergyTable ℝ).val b :=
    fun a b hab => (EnergyTable.val_le_iff _ hb.1 hb.2.1 a b).mpr (by omega)
  have xlt : ∀ a b, a < b → (energy_table : EnergyTable ℝ).val a < (energy_table : EnergyTable ℝ).val b :=
    fun a b hab => (EnergyTable.val_lt_iff _ hb.1 hb.2.1 a b).mpr (by omega)
  obtain ⟨k1, rfl⟩ : ∃ k, j = i + k := ⟨j - i, by omega⟩
  obtain ⟨k2, rfl⟩ : ∃ x, l = k + x := ⟨l - k, by omega⟩
  have c1 := xle (i + k1) k hjk
  have c2 := xlt i (i + k1) hij
  have c3 := xlt k (k + k2) hkl
  obtain ⟨V1, V2, e1, e2, -, l2⟩ := variance_slope_table env h H hH hdef d hd i h0 k1 (by omega) (by linarith)
  obtain ⟨V3, V4, e3, e4, l3, -⟩ := variance_slope_table env h H hH hdef d hd k (by linarith) k2 (by omega) h1
  obtain ⟨w', b⟩ := hres w hw
  refine ⟨V1, V2, V3, V4, w', b i (by omega) V1 e1, b _ (by omega) V2 e2, b k (by omega) V3 e3, b _ (by omega) V4 e4, ?_⟩
  have mono : H ((energy_table : EnergyTable ℝ).val (i + k1)) ≤ H ((energy_table : EnergyTable ℝ).val k) := by
    rcases eq_or_lt_of_le hjk with e | hlt
    · rw [e]
    · have g := energy_gap (i + k1)
      have := xle (i + k1 + 1) k hlt
      norm_num at g
      exact (hH _ (by linarith) (by linarith)).2.2 _ (by norm_num; linarith) (by linarith)
  norm_num at w0
  rw [div_le_div_iff₀ (by linarith) (by linarith)]
  have W0 : 0 < p.A / 2 * wsum integrator.full (fun _ => 1) := by
    have : 0 < wsum integrator.full (fun _ => (1 : ℝ)) := by linarith
    positivity
  exact slopes_combine _ _ _ _ _ _ _ W0.le (sub_pos.mpr c2).le (sub_pos.mpr c3).le l2 l3 mono

/-- Protons in water. The points 280 (about 47 MeV/u) and 300 (about 102 MeV/u) of the table lie between 30 and 300 MeV/u, as shown for C134. -/
example (env : Env ℝ) (w : World ℝ) (hw : ReachableW env w) (i j : Nat) (hij : i < j) (hj : j < 600)
    (h0 : 30 ≤ (energy_table : EnergyTable ℝ).val i) (h1 : (energy_table : EnergyTable ℝ).val j ≤ 300) :
    ∃ V1 V2 w1 w2, range_variance env (⟨1.007, 1, 1, 0⟩ : Projectile ℝ) ((energy_table : EnergyTable ℝ).val i)
        ⟨1, 1, 18.015, 0, [⟨1.00794, 1, 2⟩, ⟨15.9994, 8, 1⟩]⟩ .default w = .ok (V1, w1) ∧
      range_variance env (⟨1.007, 1, 1, 0⟩ : Projectile ℝ) ((energy_table : EnergyTable ℝ).val j)
        ⟨1, 1, 18.015, 0, [⟨1.00794, 1, 2⟩, ⟨15.9994, 8, 1⟩]⟩ .default w = .ok (V2, w2) ∧ V1 < V2 := by
  have hk : NonDefault (⟨1.007, 1, 1, 0⟩ : Projectile ℝ) ⟨1, 1, 18.015, 0, [⟨1.00794, 1, 2⟩, ⟨15.9994, 8, 1⟩]⟩ .default := by
    simp only [NonDefault, Key.eq, Key.default, Projectile.eq, Projectile.default]
    simp
    intro h
    norm_num at h
  have e1 : element_atomic_weights[1]? = some ⟨100794, 5⟩ := rfl
  obtain ⟨V1, V2, w1, w2, _, _, _, _, a1, a2, -, -, -, -, -, -, -, -, hlt, -⟩ := variance_between env _ 1 _ _ proton_water_falling (by decide)
    (by norm_num [element_atomic_weight, e1, Dec.toScalar]) hk i j hij hj h0 h1 w w hw hw
  exact ⟨V1, V2, w1, w2, a1, a2, hlt⟩

end Catima
