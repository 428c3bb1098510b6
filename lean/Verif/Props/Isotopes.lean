import Verif.Lemmas.IsotopeMass
import Verif.Props.CompoundRange

/-!
# C133: of two isotopes with the same energy per nucleon the heavier one goes farther
-/

namespace Catima

/-- Two isotopes of one element in the same charge state and with the same energy per nucleon: `A'` is at least `A`, `A` at least
the charge number, and `A'` at most five atomic weights. -/
structure Isotopes (p : Projectile ℝ) (n : Int) (A' : ℝ) : Prop where
  light : (n : ℝ) ≤ p.A
  order : p.A ≤ A'
  heavy : A' ≤ 5 * element_atomic_weight n

/-- The atomic weights of the components are at least their charge numbers. -/
def Material.Weighty (m : Material ℝ) : Prop := ∀ t ∈ m.atoms, (t.Z : ℝ) ≤ t.A

/-- From 2 MeV/u on the reduced energy exceeds 30. -/
theorem reduced_energy_large (n Z A B T : ℝ) (n0 : 1 ≤ n) (n1 : n ≤ 108) (z0 : 1 ≤ Z) (z1 : Z ≤ 120) (hA : n ≤ A) (hB : Z ≤ B) (hT : 2 ≤ T) :
    30 * (n * Z * (A + B) * (n ^ (0.23 : ℝ) + Z ^ (0.23 : ℝ))) < 32530 * B * A * T := by
  have root : ∀ x : ℝ, 1 ≤ x → x ≤ 120 → x ^ (0.23 : ℝ) ≤ 3.4 := by
    intro x h1 h2
    calc x ^ (0.23 : ℝ) ≤ x ^ ((1 : ℝ) / 4) := Real.rpow_le_rpow_of_exponent_le h1 (by norm_num)
      _ ≤ (3.4 ^ (4 : ℕ) : ℝ) ^ ((1 : ℝ) / 4) := Real.rpow_le_rpow (by linarith) (by norm_num; linarith) (by norm_num)
      _ = 3.4 := by
        rw [← Real.rpow_natCast, ← Real.rpow_mul (by norm_num)]
        norm_num
  have s1 := root n n0 (by linarith)
  have s2 := root Z z0 z1
  have s0 : 0 ≤ n ^ (0.23 : ℝ) + Z ^ (0.23 : ℝ) :=
    add_nonneg (Real.rpow_nonneg (by linarith) _) (Real.rpow_nonneg (by linarith) _)
  have s3 : n ^ (0.23 : ℝ) + Z ^ (0.23 : ℝ) ≤ 6.8 := by norm_num at s1 s2 ⊢; linarith
  generalize n ^ (0.23 : ℝ) + Z ^ (0.23 : ℝ) = s at *
  have q0 : 0 < B * A := mul_pos (by linarith) (by linarith)
  have q1 : n * Z * A ≤ 108 * (B * A) := by
    have : n * Z ≤ 108 * B := mul_le_mul n1 hB (by linarith) (by norm_num)
    nlinarith
  have q2 : n * Z * B ≤ 120 * (B * A) := by
    have : n * Z ≤ A * 120 := mul_le_mul hA z1 (by linarith) (by linarith)
    nlinarith
  have q3 : n * Z * (A + B) ≤ 228 * (B * A) := by linarith
  have q4 : n * Z * (A + B) * s ≤ 228 * (B * A) * 6.8 := mul_le_mul q3 s3 s0 (by linarith)
  have q5 : B * A * 2 ≤ B * A * T := mul_le_mul_of_nonneg_left hT q0.le
  norm_num at q4
  nlinarith

theorem isotope_ion {p : Projectile ℝ} {n : Int} {m : Material ℝ} {c : Config ℝ} (h : Computable p n m c) {A' : ℝ}
    (hi : Isotopes p n A') : Computable { p with A := A' } n m c :=
  ⟨⟨h.ion.Z, h.ion.pos, h.ion.int, lt_of_lt_of_le h.ion.A hi.order⟩, h.small, h.sound, h.known, h.charge⟩

/-- C133 for the stopping power: from 2 MeV/u on the stopping power per mass is smaller for the heavier isotope, in every
configuration and every build. -/
theorem isotope_stopping (env : Env ℝ) (p : Projectile ℝ) (n : Int) (m : Material ℝ) (c : Config ℝ) (h : Computable p n m c)
    (hu : Usual p n m) (hm : m.Weighty) (A' : ℝ) (hi : Isotopes p n A') (hT : 2 ≤ p.T) (hr : LindhardReadable p.T) :
    ∃ v v', dedx env p m c = .ok v ∧ dedx env { p with A := A' } m c = .ok v' ∧ 0 < v ∧ 0 < v' ∧ v' / A' ≤ v / p.A := by
  have h' := isotope_ion h hi
  have hu' : Usual { p with A := A' } n m := ⟨hi.heavy, hu.excitation⟩
  have A0 := h.ion.A
  have A0' : 0 < A' := h'.ion.A
  have hZ := h.posZ
  have hT0 : 0 < p.T := by linarith
  obtain ⟨v, hv, v0⟩ := stopping_positive env p n m c h hu hT0 hr
  obtain ⟨v', hv', v0'⟩ := stopping_positive env { p with A := A' } n m c h' hu' hT0 hr
  refine ⟨v, v', hv, hv', v0, v0', ?_⟩
  rw [div_le_div_iff₀ A0' A0, mul_comm v', mul_comm v]
  -- both parts component by component
  have two : ∀ (f f' : Target ℝ → M ℝ), (∀ t ∈ m.atoms, ∃ x x', f t = .ok x ∧ f' t = .ok x' ∧ p.A * x' ≤ A' * x) →
      ∃ x x', componentSum m f = .ok x ∧ componentSum m f' = .ok x' ∧ p.A * x' ≤ A' * x := by
    intro f f' hf
    choose! g g' hg hg' hgg using hf
    refine ⟨_, _, componentSum_ok m f g hg, componentSum_ok m f' g' hg', ?_⟩
    rw [← List.sum_map_mul_left, ← List.sum_map_mul_left]
    refine List.sum_le_sum fun t ht => ?_
    have := mul_le_mul_of_nonneg_left (hgg t ht) (m.wfrac_pos h.sound t ht).le
    linarith
  obtain ⟨N, N', hN, hN', hNN⟩ := two (dedx_n_target env.debug p) (dedx_n_target env.debug { p with A := A' }) fun t ht => by
    refine nuclear_mass env.debug p t hZ (h.sound.Z t ht) (h.sound.A t ht) hT0 p.A A' A0 hi.order ?_
    have hl := hi.light
    rw [h.ion.Z]
    exact reduced_energy_large n t.Z p.A t.A p.T (by exact_mod_cast h.ion.pos) (by exact_mod_cast h.small)
      (by exact_mod_cast h.sound.Z t ht) (by exact_mod_cast h.known t ht) hl (hm t ht) hT
  obtain ⟨s, hs, s0⟩ := sezi_pos h.ion h.sound c hT0
  have hs' : sezi_dedx_e { p with A := A' } m c = .ok s := hs
  have hss : p.A * s ≤ A' * s := mul_le_mul_of_nonneg_right hi.order s0.le
  have bethe : 10 ≤ p.T → ∃ x x', bethek_dedx_e env p m c = .ok x ∧ bethek_dedx_e env { p with A := A' } m c = .ok x' ∧
      p.A * x' ≤ A' * x := fun h10 =>
    two _ _ fun t ht => by
      obtain ⟨z, hz, hz0⟩ : ∃ z, (∀ a, z_effective env.debug { p with A := a } t c = .ok z) ∧ 0 ≤ z := by
        rcases h.charge with hc | ⟨hc, hq⟩
        · exact ⟨_, fun a => (z_effective_basic env.debug { p with A := a } t c).2 hc,
            (pierce_blann_bounds p.Z _ hZ (gamma_beta_bounds p.T hT0).2.1.le).1⟩
        · exact ⟨_, fun a => (z_effective_basic env.debug { p with A := a } t c).1 hc, hq⟩
      exact bethe_mass env h.ion h.small t (h.sound.Z t ht) (h.sound.A t ht) c m.i_potential h10 hr (hu.excitation t ht) z hz hz0 p.A A' A0
        hi.order hi.heavy
  have el : ∃ e e', electronic env p m c = .ok e ∧ electronic env { p with A := A' } m c = .ok e' ∧ p.A * e' ≤ A' * e := by
    unfold electronic
    dsimp only
    split
    · exact ⟨s, s, hs, hs', hss⟩
    · rename_i h10
      rw [le_real] at h10
      norm_num at h10
      obtain ⟨b, b', hb, hb', hbb⟩ := bethe h10.le
      split
      · rename_i h30
        rw [Bool.and_eq_true, lt_real, lt_real] at h30
        norm_num at h30
        rw [hs, hs', hb, hb']
        refine ⟨_, _, rfl, rfl, ?_⟩
        have h4 : 0 ≤ 1 - 1 / 20 * (p.T - 10) := by linarith
        have h5 : 0 ≤ 1 / 20 * (p.T - 10) := by linarith
        have := mul_le_mul_of_nonneg_left hss h4
        have := mul_le_mul_of_nonneg_left hbb h5
        norm_num
        linarith
      · exact ⟨b, b', hb, hb', hbb⟩
  obtain ⟨e, e', he, he', hee⟩ := el
  rw [dedx_eq env p m c hT0, he] at hv
  rw [dedx_eq env { p with A := A' } m c hT0, he'] at hv'
  unfold dedx_n at hv hv'
  rw [hN] at hv
  rw [hN'] at hv'
  rw [← Except.ok.inj hv, ← Except.ok.inj hv']
  linarith

/-- C133 for the tables. -/
theorem isotope_table (env : Env ℝ) (p : Projectile ℝ) (n : Int) (m : Material ℝ) (c : Config ℝ) (h : Computable p n m c)
    (hu : Usual p n m) (hm : m.Weighty) (A' : ℝ) (hi : Isotopes p n A') (d d' : DataPoint ℝ)
    (hd : calculate_DataPoint env p m c = .ok d) (hd' : calculate_DataPoint env { p with A := A' } m c = .ok d') (i : Nat)
    (h2 : 2 ≤ (energy_table : EnergyTable ℝ).val i) (k : Nat) (hk : i + k < 600) : ∃ R R' S S', d.range[i]? = some R ∧
      d.range[i + k]? = some R' ∧ d'.range[i]? = some S ∧ d'.range[i + k]? = some S' ∧ R' - R ≤ S' - S := by
  have h' := isotope_ion h hi
  have hu' : Usual { p with A := A' } n m := ⟨hi.heavy, hu.excitation⟩
  have A0 := h.ion.A
  have A0' : 0 < A' := h'.ion.A
  have hb := energy_table_bounds
  have ord : ∀ k, (energy_table : EnergyTable ℝ).val k < (energy_table : EnergyTable ℝ).val (k + 1) :=
    fun k => (EnergyTable.val_lt_iff _ hb.1 hb.2.1 k (k + 1)).mpr (by omega)
  have key : ∀ k < 599, ∃ I J : ℝ,
      integrator.integrate (fdedx env p m c) ((energy_table : EnergyTable ℝ).val k) ((energy_table : EnergyTable ℝ).val (k + 1)) = .ok I ∧
      integrator.integrate (fdedx env { p with A := A' } m c) ((energy_table : EnergyTable ℝ).val k)
        ((energy_table : EnergyTable ℝ).val (k + 1)) = .ok J ∧ (i ≤ k → p.A * I ≤ A' * J) := by
    intro k hk
    have f1 : ∀ x, Inner ((energy_table : EnergyTable ℝ).val k) ((energy_table : EnergyTable ℝ).val (k + 1)) x → ∃ v v',
        dedx env (p.withT x) m c = .ok v ∧ dedx env ({ p with A := A' }.withT x) m c = .ok v' ∧ (i ≤ k → 1 / v ≤ A' / p.A * (1 / v')) := by
      intro x hx
      obtain ⟨xk, -, -, -, x0, hr⟩ := inner_grid k hk x hx
      by_cases hik : i ≤ k
      · have := (EnergyTable.val_le_iff _ hb.1 hb.2.1 i k).mpr hik
        obtain ⟨v, v', e1, e2, v0, v0', hvv⟩ := isotope_stopping env (p.withT x) n m c (h.withT x) (hu.withT x) hm A'
          ⟨hi.light, hi.order, hi.heavy⟩ (by show 2 ≤ x; linarith) hr
        refine ⟨v, v', e1, e2, fun _ => ?_⟩
        have hvv : v' / A' ≤ v / p.A := hvv
        rw [div_le_div_iff₀ A0' A0] at hvv
        rw [div_mul_div_comm, mul_one, div_le_div_iff₀ v0 (mul_pos A0 v0')]
        linarith
      · obtain ⟨v, e1, -⟩ := stopping_positive_at env p n m c h hu x x0 hr
        obtain ⟨v', e2, -⟩ := stopping_positive_at env _ n m c h' hu' x x0 hr
        exact ⟨v, v', e1, e2, fun h => absurd h hik⟩
    by_cases hik : i ≤ k
    · obtain ⟨I, J, hI, hJ, hIJ⟩ := integrator_le_sum [()] (fun _ => A' / p.A) (fdedx env p m c) (fun _ => fdedx env { p with A := A' } m c) _ _
        (ord k) fun x hx => by
          obtain ⟨v, v', e1, e2, l⟩ := f1 x hx
          refine ⟨1 / v, fun _ => 1 / v', ?_, fun _ _ => ?_, by simpa using l hik⟩
          · unfold fdedx; rw [e1]; norm_num [pure, Except.pure]
          · unfold fdedx; rw [e2]; norm_num [pure, Except.pure]
      refine ⟨I, J (), hI, hJ () (by simp), fun _ => ?_⟩
      have : I ≤ A' / p.A * J () := by simpa using hIJ
      rw [div_mul_eq_mul_div, le_div_iff₀ A0] at this
      linarith
    · obtain ⟨I, hI⟩ := integrator_defined (fdedx env p m c) _ _ (ord k).le fun x hx => by
        obtain ⟨v, v', e1, -⟩ := f1 x hx
        exact ⟨1.0 / v, by unfold fdedx; rw [e1]; rfl⟩
      obtain ⟨J, hJ⟩ := integrator_defined (fdedx env { p with A := A' } m c) _ _ (ord k).le fun x hx => by
        obtain ⟨v, v', -, e2, -⟩ := f1 x hx
        exact ⟨1.0 / v', by unfold fdedx; rw [e2]; rfl⟩
      exact ⟨I, J, hI, hJ, fun h => absurd h hik⟩
  choose! I J hI hJ hle using key
  obtain ⟨hl, -, hst⟩ := table_step p.A _ _ (data_point_parts env p m c d hd).1 I hI
  obtain ⟨hl', -, hst'⟩ := table_step A' _ _ (data_point_parts env { p with A := A' } m c d' hd').1 J hJ
  refine ⟨d.range[i]'(by omega), d.range[i + k]'(by omega), d'.range[i]'(by omega), d'.range[i + k]'(by omega),
    List.getElem?_eq_getElem _, List.getElem?_eq_getElem _, List.getElem?_eq_getElem _, List.getElem?_eq_getElem _, ?_⟩
  induction k with
  | zero => simp
  | succ k ih =>
    have ih := ih (by omega)
    obtain ⟨a, b, ha, hb, e⟩ := hst (i + k) (by omega)
    obtain ⟨a', b', ha', hb', e'⟩ := hst' (i + k) (by omega)
    rw [List.getElem?_eq_getElem (by omega)] at ha hb ha' hb'
    have l := hle (i + k) (by omega) (by omega)
    have q1 : d.range[i + (k + 1)]'(by omega) = b := Option.some.inj hb
    have q2 : d'.range[i + (k + 1)]'(by omega) = b' := Option.some.inj hb'
    rw [Option.some.inj ha, Option.some.inj ha'] at ih
    rw [q1, q2]
    linarith

/-- C133: between two energies of the table from 2 MeV/u on the heavier of two isotopes goes at least as far as the lighter one:
the differences of the ranges that the library reports, after any histories, are in this order. -/
theorem isotope_range (env : Env ℝ) (p : Projectile ℝ) (n : Int) (m : Material ℝ) (c : Config ℝ) (h : Computable p n m c)
    (hu : Usual p n m) (hm : m.Weighty) (A' : ℝ) (hi : Isotopes p n A') (hk : NonDefault p m c) (hk' : NonDefault { p with A := A' } m c)
    (i j : Nat) (hij : i < j) (hj : j < 600) (h2 : 2 ≤ (energy_table : EnergyTable ℝ).val i) (w1 w2 w3 w4 : World ℝ)
    (hw1 : ReachableW env w1) (hw2 : ReachableW env w2) (hw3 : ReachableW env w3) (hw4 : ReachableW env w4) : ∃ R1 R2 S1 S2,
      (Call.range (p.withT ((energy_table : EnergyTable ℝ).val i)) m c).respond env w1 = .ok (.num R1) ∧
      (Call.range (p.withT ((energy_table : EnergyTable ℝ).val j)) m c).respond env w2 = .ok (.num R2) ∧
      (Call.range ({ p with A := A' }.withT ((energy_table : EnergyTable ℝ).val i)) m c).respond env w3 = .ok (.num S1) ∧
      (Call.range ({ p with A := A' }.withT ((energy_table : EnergyTable ℝ).val j)) m c).respond env w4 = .ok (.num S2) ∧
      R1 < R2 ∧ R2 - R1 ≤ S2 - S1 := by
  have h' := isotope_ion h hi
  obtain ⟨d1, R1, hd1, e1, r1⟩ := range_at_knot env w1 hw1 _ n m c (h.withT ((energy_table : EnergyTable ℝ).val i)) hk i (by omega) rfl
  obtain ⟨d2, R2, hd2, e2, r2⟩ := range_at_knot env w2 hw2 _ n m c (h.withT ((energy_table : EnergyTable ℝ).val j)) hk j hj rfl
  obtain ⟨d3, S1, hd3, e3, r3⟩ := range_at_knot env w3 hw3 _ n m c (h'.withT ((energy_table : EnergyTable ℝ).val i)) hk' i (by omega) rfl
  obtain ⟨d4, S2, hd4, e4, r4⟩ := range_at_knot env w4 hw4 _ n m c (h'.withT ((energy_table : EnergyTable ℝ).val j)) hk' j hj rfl
  refine ⟨R1, R2, S1, S2, r1, r2, r3, r4, ?_⟩
  have t1 : cumulative 599 p.A energy_table (fdedx env p m c) = .ok d1.range := (data_point_parts env _ m c d1 hd1).1
  have t2 : cumulative 599 p.A energy_table (fdedx env p m c) = .ok d2.range := (data_point_parts env _ m c d2 hd2).1
  have t3 : cumulative 599 A' energy_table (fdedx env { p with A := A' } m c) = .ok d3.range := (data_point_parts env _ m c d3 hd3).1
  have t4 : cumulative 599 A' energy_table (fdedx env { p with A := A' } m c) = .ok d4.range := (data_point_parts env _ m c d4 hd4).1
  rw [t1] at t2
  rw [t3] at t4
  rw [← Except.ok.inj t2] at e2
  rw [← Except.ok.inj t4] at e4
  obtain ⟨d, hd, hlen, -, hpw⟩ := range_table_strict env _ n m c (h.withT ((energy_table : EnergyTable ℝ).val i))
    (hu.withT ((energy_table : EnergyTable ℝ).val i))
  rw [hd1] at hd
  cases hd
  constructor
  · rw [List.getElem?_eq_getElem (by omega)] at e1 e2
    have := List.pairwise_iff_getElem.mp hpw i j (by omega) (by omega) hij
    rwa [Option.some.inj e1, Option.some.inj e2] at this
  · obtain ⟨k, rfl⟩ : ∃ k, j = i + k := ⟨j - i, by omega⟩
    obtain ⟨a, b, a', b', f1, f2, f3, f4, hle⟩ := isotope_table env (p.withT ((energy_table : EnergyTable ℝ).val i)) n m c (h.withT _)
      (hu.withT _) hm A' ⟨hi.light, hi.order, hi.heavy⟩ d1 d3 hd1 hd3 i h2 k hj
    rw [e1] at f1
    rw [e2] at f2
    rw [e3] at f3
    rw [e4] at f4
    rw [Option.some.inj f1, Option.some.inj f2, Option.some.inj f3, Option.some.inj f4]
    exact hle

/-- Carbon-12 and carbon-14 in water. -/
example (env : Env ℝ) (w : World ℝ) (hw : ReachableW env w) (i j : Nat) (hij : i < j) (hj : j < 600)
    (h2 : 2 ≤ (energy_table : EnergyTable ℝ).val i) : ∃ R1 R2 S1 S2,
      (Call.range (⟨12, 6, 6, (energy_table : EnergyTable ℝ).val i⟩ : Projectile ℝ) ⟨1, 1, 18.015, 0, [⟨1.00794, 1, 2⟩, ⟨15.9994, 8, 1⟩]⟩
        .default).respond env w = .ok (.num R1) ∧
      (Call.range (⟨12, 6, 6, (energy_table : EnergyTable ℝ).val j⟩ : Projectile ℝ) ⟨1, 1, 18.015, 0, [⟨1.00794, 1, 2⟩, ⟨15.9994, 8, 1⟩]⟩
        .default).respond env w = .ok (.num R2) ∧
      (Call.range (⟨14, 6, 6, (energy_table : EnergyTable ℝ).val i⟩ : Projectile ℝ) ⟨1, 1, 18.015, 0, [⟨1.00794, 1, 2⟩, ⟨15.9994, 8, 1⟩]⟩
        .default).respond env w = .ok (.num S1) ∧
      (Call.range (⟨14, 6, 6, (energy_table : EnergyTable ℝ).val j⟩ : Projectile ℝ) ⟨1, 1, 18.015, 0, [⟨1.00794, 1, 2⟩, ⟨15.9994, 8, 1⟩]⟩
        .default).respond env w = .ok (.num S2) ∧ R1 < R2 ∧ R2 - R1 ≤ S2 - S1 := by
  have hk : ∀ (A : ℝ) (m : Material ℝ), NonDefault ⟨A, 6, 6, 0⟩ m .default := by
    intro A m
    simp only [NonDefault, Key.eq, Key.default, Projectile.eq, Projectile.default]
    simp
    intro _ h
    norm_num at h
  have hc := carbon_water_usual 6 0
  refine isotope_range env (⟨12, 6, 6, 0⟩ : Projectile ℝ) 6 _ _ hc.1 hc.2 ?_ 14 ⟨by norm_num, by norm_num, ?_⟩ (hk _ _) (hk _ _) i j hij hj h2
    w w w w hw hw hw hw
  · simp [Material.Weighty]
    norm_num
  · have : (element_atomic_weight 6 : ℝ) = (Dec.toScalar ⟨120107, 4⟩ : ℝ) := rfl
    rw [this, Dec.toScalar_real]; norm_num

end Catima
