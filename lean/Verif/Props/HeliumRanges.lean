import Verif.Lemmas.HeliumSteady
import Verif.Props.CalculateDefined

/-!
# C110: ranges of helium ions increase with the energy

`range_increasing` and its companions ask for a stopping power that changes by at most 37 % over one step of the energy
table.  For helium ions this holds, with the effective charge of Pierce and Blann, in every material without astatine and
francium with usual mean excitation energies, so the statements are unconditional there.
-/

namespace Catima

/-- A helium ion (of mass between 1 u and three atomic weights) in a material without the elements 85 and 87 and with a
usual mean excitation energy (if given, at least 10 eV), effective charge by Pierce and Blann. -/
structure HeliumIn (p : Projectile ℝ) (m : Material ℝ) (c : Config ℝ) : Prop where
  computable : Computable p 2 m c
  heavy : 2 ≤ 2 * p.A
  light : p.A ≤ 3 * element_atomic_weight 2
  charge : c.z_effective = 1
  excitation : ∀ t ∈ m.atoms, TypicalI m.i_potential t.Z
  excitation' : 0 < m.i_potential → 10 ≤ m.i_potential
  elements : ∀ t ∈ m.atoms, t.Z ≠ 85 ∧ t.Z ≠ 87

/-- C110: over one step of the energy table the stopping power of a helium ion changes by at most 37 %. -/
theorem helium_stopping_steady (env : Env ℝ) (p : Projectile ℝ) (m : Material ℝ) (c : Config ℝ) (h : HeliumIn p m c) :
    SteadyStopping env p m c :=
  helium_steady_stopping env p m c h.computable h.light h.heavy h.charge h.excitation h.excitation' h.elements

/-- C110: after any histories, with at most 0.02 in the uninitialised cells, the range of a helium ion increases with the energy:
strictly for the searched index (up to 9.9e6 MeV/u), and over distances of at least 2e-13 MeV/u otherwise. -/
theorem helium_range_increasing (env : Env ℝ) (hj : SmallJunk env.junk) (p : Projectile ℝ) (t : Material ℝ)
    (c : Config ℝ) (h : HeliumIn p t c) (hk : NonDefault p t c) (w1 w2 : World ℝ)
    (r1 : ReachableW env w1) (r2 : ReachableW env w2) (T1 T2 R1 R2 : ℝ) (w1' w2' : World ℝ)
    (hT : T1 + 2e-13 ≤ T2 ∨ env.calcIndex = false ∧ T1 < T2 ∧ T2 ≤ 9.9e6)
    (h1 : range env (p.withT T1) t c w1 = .ok (R1, w1')) (h2 : range env (p.withT T2) t c w2 = .ok (R2, w2')) : R1 < R2 :=
  range_increasing env hj p 2 t c h.computable hk (helium_stopping_steady env p t c h) w1 w2 r1 r2 T1 T2 R1 R2 w1' w2' hT h1 h2

/-- C110: the energy of a helium ion behind a layer of at least 1e-5 g/cm2 is not above the energy in front of it. -/
theorem helium_energy_out_below (env : Env ℝ) (hj : SmallJunk env.junk) (p : Projectile ℝ) (t : Material ℝ)
    (c : Config ℝ) (h : HeliumIn p t c) (hk : NonDefault p t c) (w w' : World ℝ)
    (hr : ReachableW env w) (hT : 0 ≤ p.T) (hth : 1e-5 ≤ t.th) (E : ℝ) (hE : energy_out env p t c w = .ok (E, w')) :
    E < p.T + 2e-13 :=
  energy_out_below env hj p 2 t c h.computable hk (helium_stopping_steady env p t c h) w w' hr hT hth E hE

/-- C110: behind more material (by at least 2e-5 g/cm2) a helium ion has a lower energy, for results other than the
codes 0 and -1. -/
theorem helium_energy_out_decreasing (env : Env ℝ) (hj : SmallJunk env.junk) (p : Projectile ℝ) (t : Material ℝ)
    (c : Config ℝ) (h : HeliumIn p t c) (hk : NonDefault p t c) (w1 w2 w1' w2' : World ℝ)
    (r1 : ReachableW env w1) (r2 : ReachableW env w2) (th1 th2 E1 E2 : ℝ) (hth : th1 + 2e-5 ≤ th2)
    (h1 : energy_out env p { t with th := th1 } c w1 = .ok (E1, w1'))
    (h2 : energy_out env p { t with th := th2 } c w2 = .ok (E2, w2'))
    (n1 : E1 ≠ 0 ∧ E1 ≠ -1) (n2 : E2 ≠ 0 ∧ E2 ≠ -1) : E2 < E1 + 2e-13 :=
  energy_out_decreasing env hj p 2 t c h.computable hk (helium_stopping_steady env p t c h) w1 w2 w1' w2' r1 r2 th1 th2 E1 E2 hth h1 h2 n1 n2

/-- C110: `calculate` returns for every helium ion of at most 9.9e6 MeV/u and every layer of at least 1e-5 g/cm2, after
any history, in builds without assertions and with at most 0.02 in the uninitialised cells. -/
theorem helium_calculate_returns (env : Env ℝ) (hdbg : env.debug = false) (hj : SmallJunk env.junk) (w : World ℝ)
    (hr : ReachableW env w) (p : Projectile ℝ) (t : Material ℝ) (c : Config ℝ) (h : HeliumIn p t c)
    (hdef : Computable p 2 t w.default_config) (hk : NonDefault p t c) (hsc : ScatteringReadable t c)
    (hT : 0 ≤ p.T) (hT' : p.T ≤ 9.9e6) (hth : 1e-5 ≤ t.th) : ∃ r w', calculate env p t c w = .ok (r, w') := by
  have top : (9.95e6 : ℝ) ≤ (ls_energy_table : EnergyTable ℝ).val 199 - 10 * 2⁻¹ ^ 52 := by
    rw [ls_top]
    have := (abs_le.mp energy_table_range.2.2).1
    norm_num at this ⊢
    linarith
  refine calculate_succeeds env hdbg w hr p 2 t c h.computable hdef hk hsc ?_ fun E w' hE => ?_
  · norm_num at hT' top ⊢; linarith
  · have := helium_energy_out_below env hj p t c h hk w w' hr hT hth E hE
    norm_num at hT' top this ⊢
    linarith

theorem alpha_mylar_computable (T : ℝ) : Computable (⟨4.002602, 2, 2, T⟩ : Projectile ℝ) 2
    (⟨1.4, 0.01, 192.17, 78.7, [⟨12.0107, 6, 10⟩, ⟨1.00794, 1, 8⟩, ⟨15.9994, 8, 4⟩]⟩ : Material ℝ) .default where
  ion := ⟨by norm_num, by norm_num, by norm_num, by norm_num⟩
  small := by norm_num
  sound := ⟨by simp, by simp, by simp; norm_num, by simp, by norm_num⟩
  known := by simp
  charge := Or.inl rfl

theorem alpha_mylar (T : ℝ) : HeliumIn (⟨4.002602, 2, 2, T⟩ : Projectile ℝ)
    (⟨1.4, 0.01, 192.17, 78.7, [⟨12.0107, 6, 10⟩, ⟨1.00794, 1, 8⟩, ⟨15.9994, 8, 4⟩]⟩ : Material ℝ) .default where
  computable := alpha_mylar_computable T
  heavy := by norm_num
  light := by
    have : (element_atomic_weight 2 : ℝ) = (Dec.toScalar ⟨40026, 4⟩ : ℝ) := rfl
    rw [this, Dec.toScalar_real]; norm_num
  charge := rfl
  excitation := by simp [TypicalI]; norm_num
  excitation' := by norm_num
  elements := by simp

theorem alpha_mylar_nonDefault (T : ℝ) : NonDefault (⟨4.002602, 2, 2, T⟩ : Projectile ℝ)
    (⟨1.4, 0.01, 192.17, 78.7, [⟨12.0107, 6, 10⟩, ⟨1.00794, 1, 8⟩, ⟨15.9994, 8, 4⟩]⟩ : Material ℝ) .default := by
  simp only [NonDefault, Key.eq, Key.default, Projectile.eq, Projectile.default]
  simp
  intro h
  norm_num at h

/-- Ranges of alpha particles in Mylar with a given mean excitation energy at two energies, in every build without
assertions, after any histories. -/
example (env : Env ℝ) (hdbg : env.debug = false) (hj : SmallJunk env.junk) (w1 w2 : World ℝ) (r1 : ReachableW env w1)
    (r2 : ReachableW env w2) : ∃ R1 R2 w1' w2',
    range env (⟨4.002602, 2, 2, 1⟩ : Projectile ℝ) ⟨1.4, 0.01, 192.17, 78.7, [⟨12.0107, 6, 10⟩, ⟨1.00794, 1, 8⟩, ⟨15.9994, 8, 4⟩]⟩ .default w1 = .ok (R1, w1') ∧
    range env (⟨4.002602, 2, 2, 1.2⟩ : Projectile ℝ) ⟨1.4, 0.01, 192.17, 78.7, [⟨12.0107, 6, 10⟩, ⟨1.00794, 1, 8⟩, ⟨15.9994, 8, 4⟩]⟩ .default w2 = .ok (R2, w2') ∧
    R1 < R2 := by
  obtain ⟨w1', R1, -, h1, -⟩ := energy_out_succeeds env hdbg w1 r1 _ 2 _ _ (alpha_mylar_computable 1) (alpha_mylar_nonDefault 1)
  obtain ⟨w2', R2, -, h2, -⟩ := energy_out_succeeds env hdbg w2 r2 _ 2 _ _ (alpha_mylar_computable 1.2) (alpha_mylar_nonDefault 1.2)
  exact ⟨R1, R2, w1', w2', h1, h2, helium_range_increasing env hj _ _ _ (alpha_mylar 1) (alpha_mylar_nonDefault 1) w1 w2 r1 r2 1 1.2 R1 R2 w1' w2'
    (Or.inl (by norm_num)) h1 h2⟩

/-- The energy of an alpha particle of 1 MeV/u behind 0.01 g/cm2 of Mylar. -/
example (env : Env ℝ) (hdbg : env.debug = false) (hj : SmallJunk env.junk) (w : World ℝ) (r : ReachableW env w) : ∃ E w',
    energy_out env (⟨4.002602, 2, 2, 1⟩ : Projectile ℝ) ⟨1.4, 0.01, 192.17, 78.7, [⟨12.0107, 6, 10⟩, ⟨1.00794, 1, 8⟩, ⟨15.9994, 8, 4⟩]⟩ .default w = .ok (E, w') ∧
    E < 1 + 2e-13 := by
  obtain ⟨w', -, E, -, h⟩ := energy_out_succeeds env hdbg w r _ 2 _ _ (alpha_mylar_computable 1) (alpha_mylar_nonDefault 1)
  exact ⟨E, w', h, helium_energy_out_below env hj _ _ _ (alpha_mylar 1) (alpha_mylar_nonDefault 1) w w' r (by norm_num) (by norm_num) E h⟩

end Catima
