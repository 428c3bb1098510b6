import Verif.Lemmas.PowerLaw
import Verif.Props.StoppingFalls
import Verif.Props.CompoundRange

/-!
# C134: between 30 and 300 MeV/u the range grows the faster the higher the energy
-/

namespace Catima

/-- The ions, materials and configurations of C132 and C88. -/
structure FallingIn (p : Projectile ℝ) (n : Int) (m : Material ℝ) (c : Config ℝ) : Prop where
  computable : Computable p n m c
  usual : Usual p n m
  case : FallCase p n c
  nucleons : p.Z ≤ p.A
  weights : ∀ t ∈ m.atoms, (t.Z : ℝ) ≤ t.A

theorem FallingIn.withT {p : Projectile ℝ} {n : Int} {m : Material ℝ} {c : Config ℝ} (h : FallingIn p n m c) (x : ℝ) :
    FallingIn (p.withT x) n m c :=
  ⟨h.computable.withT x, h.usual.withT x, ⟨h.case.charge, h.case.correction⟩, h.nucleons, h.weights⟩

/-- The stopping power as a falling function. -/
theorem falling_function (env : Env ℝ) {p : Projectile ℝ} {n : Int} {m : Material ℝ} {c : Config ℝ} (h : FallingIn p n m c) :
    ∃ F : ℝ → ℝ, ∀ x, 30 ≤ x → x ≤ 300 → dedx env (p.withT x) m c = .ok (F x) ∧ 0 < F x ∧
      ∀ x', x + 1e-7 ≤ x' → x' ≤ 300 → F x' ≤ F x := by
  have hv : ∀ x, 30 ≤ x → x ≤ 300 → ∃ v, dedx env (p.withT x) m c = .ok v ∧ 0 < v := fun x h0 h1 =>
    stopping_positive_at env p n m c h.computable h.usual x (by linarith) (Or.inl (below_top x (by linarith)))
  choose! F hF F0 using hv
  refine ⟨F, fun x h0 h1 => ⟨hF x h0 h1, F0 x h0 h1, fun x' hx hx' => ?_⟩⟩
  obtain ⟨v, v', e, e', hlt⟩ := stopping_falls env h.computable.ion h.computable.small h.nucleons h.computable.sound h.computable.known
    h.weights h.usual.excitation c h.case x x' h0 hx hx'
  rw [hF x h0 h1] at e
  rw [hF x' (by norm_num at hx; linarith) hx'] at e'
  rw [Except.ok.inj e, Except.ok.inj e']
  exact hlt.le

/-- A step of the range table between the ranges that both stopping powers at its ends give. -/
theorem range_slope_step (env : Env ℝ) {p : Projectile ℝ} {n : Int} {m : Material ℝ} {c : Config ℝ} (h : FallingIn p n m c) (F : ℝ → ℝ)
    (hF : ∀ x, 30 ≤ x → x ≤ 300 → dedx env (p.withT x) m c = .ok (F x) ∧ 0 < F x ∧ ∀ x', x + 1e-7 ≤ x' → x' ≤ 300 → F x' ≤ F x)
    (d : DataPoint ℝ) (hd : calculate_DataPoint env p m c = .ok d) :
    d.range.length = 600 ∧ ∀ k < 599, 30 ≤ (energy_table : EnergyTable ℝ).val k → (energy_table : EnergyTable ℝ).val (k + 1) ≤ 300 →
      ∃ a b, d.range[k]? = some a ∧ d.range[k + 1]? = some b ∧
        p.A / 2 * wsum integrator.full (fun _ => 1) * (1 / F ((energy_table : EnergyTable ℝ).val k)) *
          ((energy_table : EnergyTable ℝ).val (k + 1) - (energy_table : EnergyTable ℝ).val k) ≤ b - a ∧
        b - a ≤ p.A / 2 * wsum integrator.full (fun _ => 1) * (1 / F ((energy_table : EnergyTable ℝ).val (k + 1))) *
          ((energy_table : EnergyTable ℝ).val (k + 1) - (energy_table : EnergyTable ℝ).val k) := by
  have hb := energy_table_bounds
  have hA := h.computable.ion.A
  have gap := energy_gap
  set X := (energy_table : EnergyTable ℝ).val with hX
  have ord : ∀ k, X k < X (k + 1) := fun k => (EnergyTable.val_lt_iff _ hb.1 hb.2.1 k (k + 1)).mpr (by omega)
  have hdef : ∀ k < 599, ∃ I, integrator.integrate (fdedx env p m c) (X k) (X (k + 1)) = .ok I := by
    intro k hk
    refine integrator_defined _ _ _ (ord k).le fun x hx => ?_
    obtain ⟨-, -, -, -, x0, hr⟩ := inner_grid k hk x hx
    obtain ⟨v, hv, -⟩ := stopping_positive_at env p n m c h.computable h.usual x x0 hr
    exact ⟨1.0 / v, by unfold fdedx; rw [hv]; rfl⟩
  choose! I hI using hdef
  obtain ⟨hl, -, hst⟩ := table_step p.A _ _ (data_point_parts env p m c d hd).1 I hI
  refine ⟨hl, fun k hk h0 h1 => ?_⟩
  obtain ⟨a, b, ha, hb', e⟩ := hst k hk
  refine ⟨a, b, ha, hb', ?_⟩
  have xk := ord k
  have g := gap k
  change 3e-5 ≤ X (k + 1) - X k at g
  norm_num at g
  have near : ∀ x, Inner (X k) (X (k + 1)) x → 30 ≤ x ∧ x ≤ 300 ∧ X k + 1e-7 ≤ x ∧ x + 1e-7 ≤ X (k + 1) := by
    rintro x ⟨i1, i2⟩
    norm_num
    refine ⟨?_, ?_, ?_, ?_⟩ <;> linarith
  have val : I k = (X (k + 1) - X k) / 2 * wsum integrator.full fun x => 1 / F ((X (k + 1) - X k) / 2 * x + (X (k + 1) + X k) / 2) := by
    have e1 := integrator.integrate_eq (integrator.shape (GLData.supported_shape _ integrator_supported)).1 (fdedx env p m c)
      (fun x => 1 / F x) (X k) (X (k + 1)) fun e he => by
        obtain ⟨n1, n2, -⟩ := near _ (node_inner _ _ xk.le e he)
        unfold fdedx
        rw [(hF _ n1 n2).1]
        norm_num [pure, Except.pure]
    rw [hI k hk] at e1
    exact Except.ok.inj e1
  have hw : ∀ e ∈ integrator.full, (0 : ℝ) ≤ e.2 := fun e he => (integrator_nodes e he).2.2.le
  have lo := wsum_le integrator.full (fun _ => 1 / F (X k)) (fun x => 1 / F ((X (k + 1) - X k) / 2 * x + (X (k + 1) + X k) / 2)) hw
    fun e he => by
      obtain ⟨n1, n2, n3, n4⟩ := near _ (node_inner _ _ xk.le e he)
      exact one_div_le_one_div_of_le (hF _ n1 n2).2.1 ((hF _ h0 (by linarith)).2.2 _ n3 n2)
  have hi := wsum_le integrator.full (fun x => 1 / F ((X (k + 1) - X k) / 2 * x + (X (k + 1) + X k) / 2)) (fun _ => 1 / F (X (k + 1))) hw
    fun e he => by
      obtain ⟨n1, n2, n3, n4⟩ := near _ (node_inner _ _ xk.le e he)
      exact one_div_le_one_div_of_le (hF _ (by linarith) h1).2.1 ((hF _ n1 n2).2.2 _ n4 h1)
  rw [wsum_scale_one] at lo hi
  rw [e, val]
  clear val
  generalize (wsum integrator.full fun x => 1 / F ((X (k + 1) - X k) / 2 * x + (X (k + 1) + X k) / 2)) = G at *
  generalize wsum integrator.full (fun _ => (1 : ℝ)) = W at *
  generalize 1 / F (X k) = f0 at *
  generalize 1 / F (X (k + 1)) = f1 at *
  have q : 0 ≤ p.A * ((X (k + 1) - X k) / 2) := by
    have : 0 ≤ (X (k + 1) - X k) / 2 := by linarith
    positivity
  have l1 := mul_le_mul_of_nonneg_left lo q
  have l2 := mul_le_mul_of_nonneg_left hi q
  constructor
  · linarith
  · linarith

/-- The ranges at two points of the table. -/
theorem range_slope_table (env : Env ℝ) {p : Projectile ℝ} {n : Int} {m : Material ℝ} {c : Config ℝ} (h : FallingIn p n m c) (F : ℝ → ℝ)
    (hF : ∀ x, 30 ≤ x → x ≤ 300 → dedx env (p.withT x) m c = .ok (F x) ∧ 0 < F x ∧ ∀ x', x + 1e-7 ≤ x' → x' ≤ 300 → F x' ≤ F x)
    (d : DataPoint ℝ) (hd : calculate_DataPoint env p m c = .ok d) (i : Nat) (h0 : 30 ≤ (energy_table : EnergyTable ℝ).val i) (k : Nat)
    (hk : i + k < 600) (h1 : (energy_table : EnergyTable ℝ).val (i + k) ≤ 300) :
      ∃ a b, d.range[i]? = some a ∧ d.range[i + k]? = some b ∧
        p.A / 2 * wsum integrator.full (fun _ => 1) * (1 / F ((energy_table : EnergyTable ℝ).val i)) *
          ((energy_table : EnergyTable ℝ).val (i + k) - (energy_table : EnergyTable ℝ).val i) ≤ b - a ∧
        b - a ≤ p.A / 2 * wsum integrator.full (fun _ => 1) * (1 / F ((energy_table : EnergyTable ℝ).val (i + k))) *
          ((energy_table : EnergyTable ℝ).val (i + k) - (energy_table : EnergyTable ℝ).val i) := by
  obtain ⟨hl, hst⟩ := range_slope_step env h F hF d hd
  have hA := h.computable.ion.A
  have hb := energy_table_bounds
  have gap := energy_gap
  have ws := (abs_le.mp weights_sum).1
  set X := (energy_table : EnergyTable ℝ).val with hX
  have xle : ∀ a b, a ≤ b → X a ≤ X b := fun a b hab => (EnergyTable.val_le_iff _ hb.1 hb.2.1 a b).mpr (by omega)
  have fl : ∀ a b, i ≤ a → a ≤ b → X b ≤ 300 → 1 / F (X a) ≤ 1 / F (X b) ∧ 0 < 1 / F (X a) := by
    intro a b ha hab hb3
    have a0 := xle i a ha
    rcases eq_or_lt_of_le hab with rfl | hlt
    · exact ⟨le_rfl, one_div_pos.mpr (hF _ (by linarith) hb3).2.1⟩
    · have g : 3e-5 ≤ X (a + 1) - X a := gap a
      have b0 := xle (a + 1) b (by omega)
      norm_num at g
      refine ⟨one_div_le_one_div_of_le (hF _ (by linarith) hb3).2.1 ((hF _ (by linarith) (by linarith)).2.2 _ ?_ hb3),
        one_div_pos.mpr (hF _ (by linarith) (by linarith)).2.1⟩
      norm_num
      linarith
  have κ0 : 0 < p.A / 2 * wsum integrator.full (fun _ => 1) := by
    norm_num at ws
    have : 0 < wsum integrator.full (fun _ => (1 : ℝ)) := by linarith
    positivity
  generalize p.A / 2 * wsum integrator.full (fun _ => 1) = κ at *
  induction k with
  | zero => exact ⟨_, _, List.getElem?_eq_getElem (by omega), List.getElem?_eq_getElem (by omega), by simp, by simp⟩
  | succ k ih =>
    have s1 := xle (i + k) (i + (k + 1)) (by omega)
    have s0 := xle i (i + k) (by omega)
    obtain ⟨a, b, ha, hb, l1, l2⟩ := ih (by omega) (by linarith)
    obtain ⟨b', b2, hb', hb2, m1, m2⟩ := hst (i + k) (by omega) (by linarith) h1
    rw [hb] at hb'
    cases hb'
    refine ⟨a, b2, ha, hb2, ?_, ?_⟩
    · have f := (fl i (i + k) le_rfl (by omega) (by linarith)).1
      have : κ * (1 / F (X i)) * (X (i + k + 1) - X (i + k)) ≤ κ * (1 / F (X (i + k))) * (X (i + k + 1) - X (i + k)) := by
        have : 0 ≤ X (i + k + 1) - X (i + k) := by
          change X (i + k) ≤ X (i + k + 1) at s1
          linarith
        gcongr
      change κ * (1 / F (X i)) * (X (i + k + 1) - X i) ≤ _
      linarith
    · have f := (fl (i + k) (i + k + 1) (by omega) (by omega) h1).1
      have : κ * (1 / F (X (i + k))) * (X (i + k) - X i) ≤ κ * (1 / F (X (i + k + 1))) * (X (i + k) - X i) := by
        have : 0 ≤ X (i + k) - X i := by linarith
        gcongr
      change _ ≤ κ * (1 / F (X (i + k + 1))) * (X (i + k + 1) - X i)
      linarith

/-- Ranges at points of the table from any histories belong to one table. -/
theorem ranges_of_table (env : Env ℝ) (p : Projectile ℝ) (n : Int) (m : Material ℝ) (c : Config ℝ) (h : Computable p n m c)
    (hk : NonDefault p m c) : ∃ d, calculate_DataPoint env p m c = .ok d ∧ ∀ w, ReachableW env w → ∀ i < 600, ∀ R,
      d.range[i]? = some R → (Call.range (p.withT ((energy_table : EnergyTable ℝ).val i)) m c).respond env w = .ok (.num R) := by
  obtain ⟨d, hd, -⟩ := data_point_defined env p n m c h
  refine ⟨d, hd, fun w hw i hi R hR => ?_⟩
  obtain ⟨d1, R1, hd1, e1, r1⟩ := range_at_knot env w hw _ n m c (h.withT ((energy_table : EnergyTable ℝ).val i)) hk i hi rfl
  have t1 : cumulative 599 p.A energy_table (fdedx env p m c) = .ok d1.range := (data_point_parts env _ m c d1 hd1).1
  have t2 : cumulative 599 p.A energy_table (fdedx env p m c) = .ok d.range := (data_point_parts env _ m c d hd).1
  rw [t1] at t2
  rw [← Except.ok.inj t2, e1] at hR
  rw [r1, Option.some.inj hR]

/-- C134: an ion that is slowed down from one energy of the table to another, both between 30 and 300 MeV/u, loses on its way (the
difference of the ranges) at least the stopping power in the beginning times the way and at most the stopping power in the end times
the way, up to the error 1e-6 of the sum of the weights of the quadrature. -/
theorem loss_between (env : Env ℝ) (p : Projectile ℝ) (n : Int) (m : Material ℝ) (c : Config ℝ) (h : FallingIn p n m c)
    (hk : NonDefault p m c) (i j : Nat) (hij : i < j) (hj : j < 600) (h0 : 30 ≤ (energy_table : EnergyTable ℝ).val i)
    (h1 : (energy_table : EnergyTable ℝ).val j ≤ 300) (w1 w2 : World ℝ) (hw1 : ReachableW env w1) (hw2 : ReachableW env w2) :
    ∃ R1 R2 u v, (Call.range (p.withT ((energy_table : EnergyTable ℝ).val i)) m c).respond env w1 = .ok (.num R1) ∧
      (Call.range (p.withT ((energy_table : EnergyTable ℝ).val j)) m c).respond env w2 = .ok (.num R2) ∧
      dedx env (p.withT ((energy_table : EnergyTable ℝ).val i)) m c = .ok u ∧
      dedx env (p.withT ((energy_table : EnergyTable ℝ).val j)) m c = .ok v ∧ 0 < v ∧ v ≤ u ∧ R1 < R2 ∧
      0.999999 * v * (R2 - R1) ≤ p.A * ((energy_table : EnergyTable ℝ).val j - (energy_table : EnergyTable ℝ).val i) ∧
      p.A * ((energy_table : EnergyTable ℝ).val j - (energy_table : EnergyTable ℝ).val i) ≤ 1.000001 * u * (R2 - R1) := by
  obtain ⟨F, hF⟩ := falling_function env h
  obtain ⟨d, hd, hres⟩ := ranges_of_table env p n m c h.computable hk
  obtain ⟨k, rfl⟩ : ∃ k, j = i + k := ⟨j - i, by omega⟩
  obtain ⟨R1, R2, e1, e2, l1, l2⟩ := range_slope_table env h F hF d hd i h0 k hj h1
  have hb := energy_table_bounds
  have hA := h.computable.ion.A
  obtain ⟨w0, w0'⟩ := abs_le.mp weights_sum
  have xle : (energy_table : EnergyTable ℝ).val (i + 1) ≤ (energy_table : EnergyTable ℝ).val (i + k) :=
    (EnergyTable.val_le_iff _ hb.1 hb.2.1 _ _).mpr (by omega)
  have g := energy_gap i
  have a1 := hres w1 hw1 i (by omega) R1 e1
  have a2 := hres w2 hw2 (i + k) hj R2 e2
  clear hres e1 e2
  generalize (energy_table : EnergyTable ℝ).val (i + k) = Y at *
  generalize (energy_table : EnergyTable ℝ).val i = X at *
  norm_num at g w0 w0'
  obtain ⟨u1, u2, u3⟩ := hF X h0 (by linarith)
  obtain ⟨v1, v2, -⟩ := hF Y (by linarith) h1
  have uv := u3 Y (by norm_num; linarith) h1
  generalize F X = u at *
  generalize F Y = v at *
  generalize wsum integrator.full (fun _ => (1 : ℝ)) = W at *
  refine ⟨R1, R2, u, v, a1, a2, u1, v1, v2, uv, ?_, ?_, ?_⟩
  · have : 0 < p.A / 2 * W * (1 / u) * (Y - X) := by
      have : 0 < Y - X := by linarith
      have : 0 < W := by linarith
      positivity
    linarith
  · have e : v * (p.A / 2 * W * (1 / v) * (Y - X)) = p.A * (Y - X) * (W / 2) := by field_simp
    have q := mul_le_mul_of_nonneg_left l2 v2.le
    rw [e] at q
    have q0 : 0 < p.A * (Y - X) := mul_pos hA (by linarith)
    norm_num
    nlinarith
  · have e : u * (p.A / 2 * W * (1 / u) * (Y - X)) = p.A * (Y - X) * (W / 2) := by field_simp
    have q := mul_le_mul_of_nonneg_left l1 u2.le
    rw [e] at q
    have q0 : 0 < p.A * (Y - X) := mul_pos hA (by linarith)
    norm_num
    nlinarith

theorem slopes_combine (κ f f' a b R R' : ℝ) (κ0 : 0 ≤ κ) (a0 : 0 ≤ a) (b0 : 0 ≤ b) (h1 : R ≤ κ * f * a) (h2 : κ * f' * b ≤ R')
    (hf : f ≤ f') : R * b ≤ R' * a := by
  have q1 := mul_le_mul_of_nonneg_right h1 b0
  have q2 := mul_le_mul_of_nonneg_right h2 a0
  have q3 := mul_le_mul_of_nonneg_left hf (mul_nonneg κ0 (mul_nonneg a0 b0))
  linarith

/-- C134: the range as a function of the energy is convex on the energies of the table between 30 and 300 MeV/u. -/
theorem range_convex (env : Env ℝ) (p : Projectile ℝ) (n : Int) (m : Material ℝ) (c : Config ℝ) (h : FallingIn p n m c)
    (hk : NonDefault p m c) (i j k l : Nat) (hij : i < j) (hjk : j ≤ k) (hkl : k < l) (hl : l < 600)
    (h0 : 30 ≤ (energy_table : EnergyTable ℝ).val i) (h1 : (energy_table : EnergyTable ℝ).val l ≤ 300) (w : World ℝ) (hw : ReachableW env w) :
    ∃ R1 R2 R3 R4, (Call.range (p.withT ((energy_table : EnergyTable ℝ).val i)) m c).respond env w = .ok (.num R1) ∧
      (Call.range (p.withT ((energy_table : EnergyTable ℝ).val j)) m c).respond env w = .ok (.num R2) ∧
      (Call.range (p.withT ((energy_table : EnergyTable ℝ).val k)) m c).respond env w = .ok (.num R3) ∧
      (Call.range (p.withT ((energy_table : EnergyTable ℝ).val l)) m c).respond env w = .ok (.num R4) ∧
      (R2 - R1) / ((energy_table : EnergyTable ℝ).val j - (energy_table : EnergyTable ℝ).val i) ≤
        (R4 - R3) / ((energy_table : EnergyTable ℝ).val l - (energy_table : EnergyTable ℝ).val k) := by
  obtain ⟨F, hF⟩ := falling_function env h
  obtain ⟨d, hd, hres⟩ := ranges_of_table env p n m c h.computable hk
  have hb := energy_table_bounds
  have hA := h.computable.ion.A
  have w0 := (abs_le.mp weights_sum).1
  have xle : ∀ a b, a ≤ b → (energy_table : EnergyTable ℝ).val a ≤ (energy_table : EnergyTable ℝ).val b :=
    fun a b hab => (EnergyTable.val_le_iff _ hb.1 hb.2.1 a b).mpr (by omega)
  have xlt : ∀ a b, a < b → (energy_table : EnergyTable ℝ).val a < (energy_table : EnergyTable ℝ).val b :=
    fun a b hab => (EnergyTable.val_lt_iff _ hb.1 hb.2.1 a b).mpr (by omega)
  obtain ⟨k1, rfl⟩ : ∃ k, j = i + k := ⟨j - i, by omega⟩
  obtain ⟨k2, rfl⟩ : ∃ x, l = k + x := ⟨l - k, by omega⟩
  have c1 := xle (i + k1) k hjk
  have c2 := xlt i (i + k1) hij
  have c3 := xlt k (k + k2) hkl
  obtain ⟨R1, R2, e1, e2, -, l2⟩ := range_slope_table env h F hF d hd i h0 k1 (by omega) (by linarith)
  obtain ⟨R3, R4, e3, e4, l3, -⟩ := range_slope_table env h F hF d hd k (by linarith) k2 (by omega) h1
  refine ⟨R1, R2, R3, R4, hres w hw i (by omega) R1 e1, hres w hw _ (by omega) R2 e2, hres w hw k (by omega) R3 e3,
    hres w hw _ (by omega) R4 e4, ?_⟩
  have mono : 1 / F ((energy_table : EnergyTable ℝ).val (i + k1)) ≤ 1 / F ((energy_table : EnergyTable ℝ).val k) := by
    rcases eq_or_lt_of_le hjk with e | hlt
    · rw [e]
    · have g := energy_gap (i + k1)
      have := xle (i + k1 + 1) k hlt
      norm_num at g
      refine one_div_le_one_div_of_le (hF _ (by linarith) (by linarith)).2.1 ((hF _ (by linarith) (by linarith)).2.2 _ ?_ (by linarith))
      norm_num
      linarith
  norm_num at w0
  rw [div_le_div_iff₀ (by linarith) (by linarith)]
  have W0 : 0 < p.A / 2 * wsum integrator.full (fun _ => 1) := by
    have : 0 < wsum integrator.full (fun _ => (1 : ℝ)) := by linarith
    positivity
  exact slopes_combine _ _ _ _ _ _ _ W0.le (sub_pos.mpr c2).le (sub_pos.mpr c3).le l2 l3 mono

/-- Protons in water in the default configuration. -/
theorem proton_water_falling : FallingIn (⟨1.007, 1, 1, 0⟩ : Projectile ℝ) 1 ⟨1, 1, 18.015, 0, [⟨1.00794, 1, 2⟩, ⟨15.9994, 8, 1⟩]⟩ .default := by
  obtain ⟨hc, hu⟩ := carbon_water_usual 0 100
  have w : (element_atomic_weight 1 : ℝ) = 1.00794 := by
    have : (element_atomic_weight 1 : ℝ) = (Dec.toScalar ⟨100794, 5⟩ : ℝ) := rfl
    rw [this, Dec.toScalar_real]; norm_num
  refine ⟨⟨⟨by norm_num, by norm_num, by norm_num, by norm_num⟩, by norm_num, hc.sound, hc.known, Or.inl rfl⟩, ⟨?_, hu.excitation⟩,
    ⟨Or.inl ⟨rfl, by norm_num⟩, Or.inl ⟨by norm_num, ?_⟩⟩, by norm_num, ?_⟩
  · rw [w]; norm_num
  · rw [w]; norm_num
  · intro t ht
    simp at ht
    rcases ht with rfl | rfl <;> norm_num

example (env : Env ℝ) (w : World ℝ) (hw : ReachableW env w) (i j : Nat) (hij : i < j) (hj : j < 600)
    (h0 : 30 ≤ (energy_table : EnergyTable ℝ).val i) (h1 : (energy_table : EnergyTable ℝ).val j ≤ 300) :
    ∃ R1 R2 u v, (Call.range (⟨1.007, 1, 1, (energy_table : EnergyTable ℝ).val i⟩ : Projectile ℝ)
        ⟨1, 1, 18.015, 0, [⟨1.00794, 1, 2⟩, ⟨15.9994, 8, 1⟩]⟩ .default).respond env w = .ok (.num R1) ∧
      (Call.range (⟨1.007, 1, 1, (energy_table : EnergyTable ℝ).val j⟩ : Projectile ℝ)
        ⟨1, 1, 18.015, 0, [⟨1.00794, 1, 2⟩, ⟨15.9994, 8, 1⟩]⟩ .default).respond env w = .ok (.num R2) ∧
      dedx env (⟨1.007, 1, 1, (energy_table : EnergyTable ℝ).val i⟩ : Projectile ℝ) ⟨1, 1, 18.015, 0, [⟨1.00794, 1, 2⟩, ⟨15.9994, 8, 1⟩]⟩
        .default = .ok u ∧
      dedx env (⟨1.007, 1, 1, (energy_table : EnergyTable ℝ).val j⟩ : Projectile ℝ) ⟨1, 1, 18.015, 0, [⟨1.00794, 1, 2⟩, ⟨15.9994, 8, 1⟩]⟩
        .default = .ok v ∧ 0 < v ∧ v ≤ u ∧ R1 < R2 ∧
      0.999999 * v * (R2 - R1) ≤ 1.007 * ((energy_table : EnergyTable ℝ).val j - (energy_table : EnergyTable ℝ).val i) ∧
      1.007 * ((energy_table : EnergyTable ℝ).val j - (energy_table : EnergyTable ℝ).val i) ≤ 1.000001 * u * (R2 - R1) := by
  have hk : NonDefault (⟨1.007, 1, 1, 0⟩ : Projectile ℝ) ⟨1, 1, 18.015, 0, [⟨1.00794, 1, 2⟩, ⟨15.9994, 8, 1⟩]⟩ .default := by
    simp only [NonDefault, Key.eq, Key.default, Projectile.eq, Projectile.default]
    simp
    intro h
    norm_num at h
  exact loss_between env _ 1 _ _ proton_water_falling hk i j hij hj h0 h1 w w hw hw

/-- There are such energies of the table: the points 280 (about 47 MeV/u) and 300 (about 102 MeV/u) are among them. -/
example : 30 ≤ (energy_table : EnergyTable ℝ).val 280 ∧ (energy_table : EnergyTable ℝ).val 300 ≤ 300 := by
  have e1 := Real.exp_one_gt_d9
  have e2 := Real.exp_one_lt_d9
  constructor
  · rw [EnergyTable.val_eq]
    have h : (30 : ℝ) ≤ Real.exp 3.8 := by
      have e : Real.exp (3.8 : ℝ) = Real.exp 1 ^ 3 * Real.exp 0.8 := by
        rw [← Real.exp_nat_mul, ← Real.exp_add]; norm_num
      have h5 := Real.add_one_le_exp (0.8 : ℝ)
      rw [e]
      calc (30 : ℝ) ≤ 2.718 ^ 3 * 1.8 := by norm_num
        _ ≤ Real.exp 1 ^ 3 * Real.exp 0.8 := by
          gcongr
          · norm_num at e1 ⊢; linarith
          · norm_num at h5 ⊢; linarith
    refine h.trans (Real.exp_le_exp.mpr ?_)
    rw [EnergyTable.step_eq]
    norm_num [energy_table, LN10, logEmin, logEmax, max_datapoints]
  · rw [EnergyTable.val_eq]
    have h : Real.exp 5 ≤ (300 : ℝ) := by
      have e : Real.exp (5 : ℝ) = Real.exp 1 ^ 5 := by
        rw [← Real.exp_nat_mul]; norm_num
      rw [e]
      calc Real.exp 1 ^ 5 ≤ 2.72 ^ 5 := by
            gcongr
            norm_num at e2 ⊢; linarith
        _ ≤ (300 : ℝ) := by norm_num
    refine (Real.exp_le_exp.mpr ?_).trans h
    rw [EnergyTable.step_eq]
    norm_num [energy_table, LN10, logEmin, logEmax, max_datapoints]

end Catima
