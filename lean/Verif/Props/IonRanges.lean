import Verif.Lemmas.HeavySteady
import Verif.Props.CalculateDefined

/-!
# C111: ranges of ions from lithium to uranium increase with the energy

`range_increasing` and its companions ask for a stopping power that changes by at most 37 % over one step of the energy
table.  For the ions of the elements 3 to 92 this holds, with the effective charge of Pierce and Blann, in every material made
of elements up to uranium (without 85, 87 and 91) with usual mean excitation energies, so the statements are unconditional
there.  From nickel on the proof also uses that the Barkas correction is on.
-/

namespace Catima

/-- An ion of the element `n` between lithium and uranium (of mass between `n/2` and three atomic weights) in a material of the
elements up to uranium without 85, 87 and 91 and with a usual mean excitation energy (if given, at least 10 eV, and at least
120 eV in materials that contain zinc or heavier elements), effective charge by Pierce and Blann.  For ions from nickel on, the
Barkas correction is on and the square of a given mean excitation energy is at most 8620 times the atomic number of every
component (the values of the table satisfy this). -/
structure IonIn (p : Projectile ℝ) (n : Int) (m : Material ℝ) (c : Config ℝ) : Prop where
  computable : Computable p n m c
  lithium : 3 ≤ n
  uranium : n ≤ 92
  heavy : (n : ℝ) ≤ 2 * p.A
  light : p.A ≤ 3 * element_atomic_weight n
  charge : c.z_effective = 1
  excitation : ∀ t ∈ m.atoms, TypicalI m.i_potential t.Z
  excitation' : 0 < m.i_potential → 10 ≤ m.i_potential
  excitation'' : ∀ t ∈ m.atoms, 0 < m.i_potential → 30 ≤ t.Z → 120 ≤ m.i_potential
  barkas : 28 ≤ n → c.corrections.testBit 0 = false
  excitation_heavy : 28 ≤ n → ∀ t ∈ m.atoms, 0 < m.i_potential → m.i_potential ^ 2 ≤ 8620 * t.Z
  elements : ∀ t ∈ m.atoms, t.Z ≤ 92 ∧ t.Z ≠ 85 ∧ t.Z ≠ 87 ∧ t.Z ≠ 91

/-- C111: over one step of the energy table the stopping power of an ion from lithium to uranium changes by at most 37 %. -/
theorem ion_stopping_steady (env : Env ℝ) (p : Projectile ℝ) (n : Int) (m : Material ℝ) (c : Config ℝ) (h : IonIn p n m c) :
    SteadyStopping env p m c :=
  ion_steady_stopping env p h.lithium h.uranium m c h.computable h.light h.heavy h.charge h.barkas h.excitation h.excitation' h.excitation''
    h.excitation_heavy h.elements

/-- C111: after any histories, with at most 0.02 in the uninitialised cells, the range of an ion from lithium to uranium increases with
the energy: strictly for the searched index (up to 9.9e6 MeV/u), and over distances of at least 2e-13 MeV/u otherwise. -/
theorem ion_range_increasing (env : Env ℝ) (hj : SmallJunk env.junk) (p : Projectile ℝ) (n : Int) (t : Material ℝ)
    (c : Config ℝ) (h : IonIn p n t c) (hk : NonDefault p t c) (w1 w2 : World ℝ)
    (r1 : ReachableW env w1) (r2 : ReachableW env w2) (T1 T2 R1 R2 : ℝ) (w1' w2' : World ℝ)
    (hT : T1 + 2e-13 ≤ T2 ∨ env.calcIndex = false ∧ T1 < T2 ∧ T2 ≤ 9.9e6)
    (h1 : range env (p.withT T1) t c w1 = .ok (R1, w1')) (h2 : range env (p.withT T2) t c w2 = .ok (R2, w2')) : R1 < R2 :=
  range_increasing env hj p n t c h.computable hk (ion_stopping_steady env p n t c h) w1 w2 r1 r2 T1 T2 R1 R2 w1' w2' hT h1 h2

/-- C111: the energy of such an ion behind a layer of at least 1e-5 g/cm2 is not above the energy in front of it. -/
theorem ion_energy_out_below (env : Env ℝ) (hj : SmallJunk env.junk) (p : Projectile ℝ) (n : Int) (t : Material ℝ)
    (c : Config ℝ) (h : IonIn p n t c) (hk : NonDefault p t c) (w w' : World ℝ)
    (hr : ReachableW env w) (hT : 0 ≤ p.T) (hth : 1e-5 ≤ t.th) (E : ℝ) (hE : energy_out env p t c w = .ok (E, w')) :
    E < p.T + 2e-13 :=
  energy_out_below env hj p n t c h.computable hk (ion_stopping_steady env p n t c h) w w' hr hT hth E hE

/-- C111: behind more material (by at least 2e-5 g/cm2) such an ion has a lower energy, for results other than the
codes 0 and -1. -/
theorem ion_energy_out_decreasing (env : Env ℝ) (hj : SmallJunk env.junk) (p : Projectile ℝ) (n : Int) (t : Material ℝ)
    (c : Config ℝ) (h : IonIn p n t c) (hk : NonDefault p t c) (w1 w2 w1' w2' : World ℝ)
    (r1 : ReachableW env w1) (r2 : ReachableW env w2) (th1 th2 E1 E2 : ℝ) (hth : th1 + 2e-5 ≤ th2)
    (h1 : energy_out env p { t with th := th1 } c w1 = .ok (E1, w1'))
    (h2 : energy_out env p { t with th := th2 } c w2 = .ok (E2, w2'))
    (n1 : E1 ≠ 0 ∧ E1 ≠ -1) (n2 : E2 ≠ 0 ∧ E2 ≠ -1) : E2 < E1 + 2e-13 :=
  energy_out_decreasing env hj p n t c h.computable hk (ion_stopping_steady env p n t c h) w1 w2 w1' w2' r1 r2 th1 th2 E1 E2 hth h1 h2 n1 n2

/-- C111: `calculate` returns for every such ion of at most 9.9e6 MeV/u and every layer of at least 1e-5 g/cm2, after
any history, in builds without assertions and with at most 0.02 in the uninitialised cells. -/
theorem ion_calculate_returns (env : Env ℝ) (hdbg : env.debug = false) (hj : SmallJunk env.junk) (w : World ℝ)
    (hr : ReachableW env w) (p : Projectile ℝ) (n : Int) (t : Material ℝ) (c : Config ℝ) (h : IonIn p n t c)
    (hdef : Computable p n t w.default_config) (hk : NonDefault p t c) (hsc : ScatteringReadable t c)
    (hT : 0 ≤ p.T) (hT' : p.T ≤ 9.9e6) (hth : 1e-5 ≤ t.th) : ∃ r w', calculate env p t c w = .ok (r, w') := by
  have top : (9.95e6 : ℝ) ≤ (ls_energy_table : EnergyTable ℝ).val 199 - 10 * 2⁻¹ ^ 52 := by
    rw [ls_top]
    have := (abs_le.mp energy_table_range.2.2).1
    norm_num at this ⊢
    linarith
  refine calculate_succeeds env hdbg w hr p n t c h.computable hdef hk hsc ?_ fun E w' hE => ?_
  · norm_num at hT' top ⊢; linarith
  · have := ion_energy_out_below env hj p n t c h hk w w' hr hT hth E hE
    norm_num at hT' top this ⊢
    linarith

/-- Carbon-12 ions in water. -/
theorem carbon_water_computable (T : ℝ) : Computable (⟨12, 6, 6, T⟩ : Projectile ℝ) 6
    (⟨1, 0.5, 18.015, 78, [⟨1.00794, 1, 2⟩, ⟨15.9994, 8, 1⟩]⟩ : Material ℝ) .default where
  ion := ⟨by norm_num, by norm_num, by norm_num, by norm_num⟩
  small := by norm_num
  sound := ⟨by simp, by simp, by simp; norm_num, by simp, by norm_num⟩
  known := by simp
  charge := Or.inl rfl

theorem carbon_water (T : ℝ) : IonIn (⟨12, 6, 6, T⟩ : Projectile ℝ) 6
    (⟨1, 0.5, 18.015, 78, [⟨1.00794, 1, 2⟩, ⟨15.9994, 8, 1⟩]⟩ : Material ℝ) .default where
  computable := carbon_water_computable T
  lithium := by norm_num
  uranium := by norm_num
  heavy := by norm_num
  light := by
    have : (element_atomic_weight 6 : ℝ) = (Dec.toScalar ⟨120107, 4⟩ : ℝ) := rfl
    rw [this, Dec.toScalar_real]; norm_num
  charge := rfl
  excitation := by simp [TypicalI]; norm_num
  excitation' := by norm_num
  excitation'' := by simp
  barkas := by norm_num
  excitation_heavy := by norm_num
  elements := by simp

theorem carbon_water_nonDefault (T : ℝ) : NonDefault (⟨12, 6, 6, T⟩ : Projectile ℝ)
    (⟨1, 0.5, 18.015, 78, [⟨1.00794, 1, 2⟩, ⟨15.9994, 8, 1⟩]⟩ : Material ℝ) .default := by
  simp only [NonDefault, Key.eq, Key.default, Projectile.eq, Projectile.default]
  simp
  intro h
  norm_num at h

/-- Ranges of carbon ions in water at two energies, in every build without assertions, after any histories. -/
example (env : Env ℝ) (hdbg : env.debug = false) (hj : SmallJunk env.junk) (w1 w2 : World ℝ) (r1 : ReachableW env w1)
    (r2 : ReachableW env w2) : ∃ R1 R2 w1' w2',
    range env (⟨12, 6, 6, 200⟩ : Projectile ℝ) ⟨1, 0.5, 18.015, 78, [⟨1.00794, 1, 2⟩, ⟨15.9994, 8, 1⟩]⟩ .default w1 = .ok (R1, w1') ∧
    range env (⟨12, 6, 6, 201⟩ : Projectile ℝ) ⟨1, 0.5, 18.015, 78, [⟨1.00794, 1, 2⟩, ⟨15.9994, 8, 1⟩]⟩ .default w2 = .ok (R2, w2') ∧
    R1 < R2 := by
  obtain ⟨w1', R1, -, h1, -⟩ := energy_out_succeeds env hdbg w1 r1 _ 6 _ _ (carbon_water_computable 200) (carbon_water_nonDefault 200)
  obtain ⟨w2', R2, -, h2, -⟩ := energy_out_succeeds env hdbg w2 r2 _ 6 _ _ (carbon_water_computable 201) (carbon_water_nonDefault 201)
  exact ⟨R1, R2, w1', w2', h1, h2, ion_range_increasing env hj _ 6 _ _ (carbon_water 200) (carbon_water_nonDefault 200) w1 w2 r1 r2 200 201 R1 R2 w1' w2'
    (Or.inl (by norm_num)) h1 h2⟩

/-- The energy of a carbon ion of 200 MeV/u behind 5 mm of water. -/
example (env : Env ℝ) (hdbg : env.debug = false) (hj : SmallJunk env.junk) (w : World ℝ) (r : ReachableW env w) : ∃ E w',
    energy_out env (⟨12, 6, 6, 200⟩ : Projectile ℝ) ⟨1, 0.5, 18.015, 78, [⟨1.00794, 1, 2⟩, ⟨15.9994, 8, 1⟩]⟩ .default w = .ok (E, w') ∧
    E < 200 + 2e-13 := by
  obtain ⟨w', -, E, -, h⟩ := energy_out_succeeds env hdbg w r _ 6 _ _ (carbon_water_computable 200) (carbon_water_nonDefault 200)
  exact ⟨E, w', h, ion_energy_out_below env hj _ 6 _ _ (carbon_water 200) (carbon_water_nonDefault 200) w w' r (by norm_num) (by norm_num) E h⟩

/-- Iron ions in lead with the mean excitation energy of the table. -/
example (T : ℝ) : IonIn (⟨55.93, 26, 26, T⟩ : Projectile ℝ) 26 (⟨11.34, 0.1, 207.2, 0, [⟨207.2, 82, 1⟩]⟩ : Material ℝ) .default where
  computable := {
    ion := ⟨by norm_num, by norm_num, by norm_num, by norm_num⟩
    small := by norm_num
    sound := ⟨by simp, by simp, by simp; norm_num, by simp, by norm_num⟩
    known := by simp
    charge := Or.inl rfl }
  lithium := by norm_num
  uranium := by norm_num
  heavy := by norm_num
  light := by
    have : (element_atomic_weight 26 : ℝ) = (Dec.toScalar ⟨55845, 3⟩ : ℝ) := rfl
    rw [this, Dec.toScalar_real]; norm_num
  charge := rfl
  excitation := by simp [TypicalI]
  excitation' := by norm_num
  excitation'' := by norm_num
  barkas := by norm_num
  excitation_heavy := by norm_num
  elements := by simp

/-- Uranium ions in water. -/
theorem uranium_water_computable (T : ℝ) : Computable (⟨238, 92, 92, T⟩ : Projectile ℝ) 92
    (⟨1, 0.5, 18.015, 78, [⟨1.00794, 1, 2⟩, ⟨15.9994, 8, 1⟩]⟩ : Material ℝ) .default where
  ion := ⟨by norm_num, by norm_num, by norm_num, by norm_num⟩
  small := by norm_num
  sound := ⟨by simp, by simp, by simp; norm_num, by simp, by norm_num⟩
  known := by simp
  charge := Or.inl rfl

theorem uranium_water (T : ℝ) : IonIn (⟨238, 92, 92, T⟩ : Projectile ℝ) 92
    (⟨1, 0.5, 18.015, 78, [⟨1.00794, 1, 2⟩, ⟨15.9994, 8, 1⟩]⟩ : Material ℝ) .default where
  computable := uranium_water_computable T
  lithium := by norm_num
  uranium := by norm_num
  heavy := by norm_num
  light := by
    have : (element_atomic_weight 92 : ℝ) = (Dec.toScalar ⟨238029, 3⟩ : ℝ) := rfl
    rw [this, Dec.toScalar_real]; norm_num
  charge := rfl
  excitation := by simp [TypicalI]; norm_num
  excitation' := by norm_num
  excitation'' := by simp
  barkas := fun _ => rfl
  excitation_heavy := by simp; norm_num
  elements := by simp

/-- `calculate` returns for uranium ions of up to 9.9e6 MeV/u in 5 mm of water. -/
example (env : Env ℝ) (hdbg : env.debug = false) (hj : SmallJunk env.junk) (T : ℝ) (h0 : 0 ≤ T) (h1 : T ≤ 9.9e6)
    (w : World ℝ) (hr : ReachableW env w) (hw : w.default_config = .default) : ∃ r w',
    calculate env (⟨238, 92, 92, T⟩ : Projectile ℝ) ⟨1, 0.5, 18.015, 78, [⟨1.00794, 1, 2⟩, ⟨15.9994, 8, 1⟩]⟩ .default w = .ok (r, w') :=
  ion_calculate_returns env hdbg hj w hr _ 92 _ _ (uranium_water T) (hw ▸ uranium_water_computable T)
    (by
      simp only [NonDefault, Key.eq, Key.default, Projectile.eq, Projectile.default]
      simp
      intro h
      norm_num at h) (fun h => by simp; norm_num) h0 h1 (by norm_num)

end Catima
