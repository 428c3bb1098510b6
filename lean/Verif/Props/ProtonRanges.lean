import Verif.Lemmas.SteadyComponent
import Verif.Props.CalculateDefined

/-!
# C108: ranges of protons, deuterons and tritons increase with the energy

`range_increasing` and its companions ask for a stopping power that changes by at most 37 % over one step of the energy
table.  For hydrogen ions this holds, with the effective charge of Pierce and Blann, in every material without astatine and
francium with usual mean excitation energies, so the statements are unconditional there.
-/

namespace Catima

/-- A hydrogen ion (of mass between 0.5 u and three atomic weights) in a material without the elements 85 and 87 and with a
usual mean excitation energy (if given, at least 10 eV), effective charge by Pierce and Blann. -/
structure HydrogenIn (p : Projectile ℝ) (m : Material ℝ) (c : Config ℝ) : Prop where
  computable : Computable p 1 m c
  heavy : 1 ≤ 2 * p.A
  light : p.A ≤ 3 * element_atomic_weight 1
  charge : c.z_effective = 1
  excitation : ∀ t ∈ m.atoms, TypicalI m.i_potential t.Z
  excitation' : 0 < m.i_potential → 10 ≤ m.i_potential
  elements : ∀ t ∈ m.atoms, t.Z ≠ 85 ∧ t.Z ≠ 87

/-- C108: over one step of the energy table the stopping power of a hydrogen ion changes by at most 37 %. -/
theorem proton_stopping_steady (env : Env ℝ) (p : Projectile ℝ) (m : Material ℝ) (c : Config ℝ) (h : HydrogenIn p m c) :
    SteadyStopping env p m c :=
  proton_steady_stopping env p m c h.computable h.light h.heavy h.charge h.excitation h.excitation' h.elements

/-- C108: after any histories, with at most 0.02 in the uninitialised cells, the range of a hydrogen ion increases with the energy:
strictly for the searched index (up to 9.9e6 MeV/u), and over distances of at least 2e-13 MeV/u otherwise. -/
theorem proton_range_increasing (env : Env ℝ) (hj : SmallJunk env.junk) (p : Projectile ℝ) (t : Material ℝ)
    (c : Config ℝ) (h : HydrogenIn p t c) (hk : NonDefault p t c) (w1 w2 : World ℝ)
    (r1 : ReachableW env w1) (r2 : ReachableW env w2) (T1 T2 R1 R2 : ℝ) (w1' w2' : World ℝ)
    (hT : T1 + 2e-13 ≤ T2 ∨ env.calcIndex = false ∧ T1 < T2 ∧ T2 ≤ 9.9e6)
    (h1 : range env (p.withT T1) t c w1 = .ok (R1, w1')) (h2 : range env (p.withT T2) t c w2 = .ok (R2, w2')) : R1 < R2 :=
  range_increasing env hj p 1 t c h.computable hk (proton_stopping_steady env p t c h) w1 w2 r1 r2 T1 T2 R1 R2 w1' w2' hT h1 h2

/-- C108: the energy of a hydrogen ion behind a layer of at least 1e-5 g/cm2 is not above the energy in front of it. -/
theorem proton_energy_out_below (env : Env ℝ) (hj : SmallJunk env.junk) (p : Projectile ℝ) (t : Material ℝ)
    (c : Config ℝ) (h : HydrogenIn p t c) (hk : NonDefault p t c) (w w' : World ℝ)
    (hr : ReachableW env w) (hT : 0 ≤ p.T) (hth : 1e-5 ≤ t.th) (E : ℝ) (hE : energy_out env p t c w = .ok (E, w')) :
    E < p.T + 2e-13 :=
  energy_out_below env hj p 1 t c h.computable hk (proton_stopping_steady env p t c h) w w' hr hT hth E hE

/-- C108: behind more material (by at least 2e-5 g/cm2) a hydrogen ion has a lower energy, for results other than the
codes 0 and -1. -/
theorem proton_energy_out_decreasing (env : Env ℝ) (hj : SmallJunk env.junk) (p : Projectile ℝ) (t : Material ℝ)
    (c : Config ℝ) (h : HydrogenIn p t c) (hk : NonDefault p t c) (w1 w2 w1' w2' : World ℝ)
    (r1 : ReachableW env w1) (r2 : ReachableW env w2) (th1 th2 E1 E2 : ℝ) (hth : th1 + 2e-5 ≤ th2)
    (h1 : energy_out env p { t with th := th1 } c w1 = .ok (E1, w1'))
    (h2 : energy_out env p { t with th := th2 } c w2 = .ok (E2, w2'))
    (n1 : E1 ≠ 0 ∧ E1 ≠ -1) (n2 : E2 ≠ 0 ∧ E2 ≠ -1) : E2 < E1 + 2e-13 :=
  energy_out_decreasing env hj p 1 t c h.computable hk (proton_stopping_steady env p t c h) w1 w2 w1' w2' r1 r2 th1 th2 E1 E2 hth h1 h2 n1 n2

/-- C108: `calculate` returns for every hydrogen ion of at most 9.9e6 MeV/u and every layer of at least 1e-5 g/cm2, after
any history, in builds without assertions and with at most 0.02 in the uninitialised cells. -/
theorem proton_calculate_returns (env : Env ℝ) (hdbg : env.debug = false) (hj : SmallJunk env.junk) (w : World ℝ)
    (hr : ReachableW env w) (p : Projectile ℝ) (t : Material ℝ) (c : Config ℝ) (h : HydrogenIn p t c)
    (hdef : Computable p 1 t w.default_config) (hk : NonDefault p t c) (hsc : ScatteringReadable t c)
    (hT : 0 ≤ p.T) (hT' : p.T ≤ 9.9e6) (hth : 1e-5 ≤ t.th) : ∃ r w', calculate env p t c w = .ok (r, w') := by
  have top : (9.95e6 : ℝ) ≤ (ls_energy_table : EnergyTable ℝ).val 199 - 10 * 2⁻¹ ^ 52 := by
    rw [ls_top]
    have := (abs_le.mp energy_table_range.2.2).1
    norm_num at this ⊢
    linarith
  refine calculate_succeeds env hdbg w hr p 1 t c h.computable hdef hk hsc ?_ fun E w' hE => ?_
  · norm_num at hT' top ⊢; linarith
  · have := proton_energy_out_below env hj p t c h hk w w' hr hT hth E hE
    norm_num at hT' top this ⊢
    linarith

theorem proton_water_hydrogen : HydrogenIn ⟨1.00794, 1, 1, 100⟩
    (⟨1, 1, 18.015, 0, [⟨1.00794, 1, 2⟩, ⟨15.9994, 8, 1⟩]⟩ : Material ℝ) .default where
  computable := proton_water_computable
  heavy := by norm_num
  light := by
    have : (element_atomic_weight 1 : ℝ) = (Dec.toScalar ⟨100794, 5⟩ : ℝ) := rfl
    rw [this, Dec.toScalar_real]; norm_num
  charge := rfl
  excitation := by simp [TypicalI]
  excitation' := by norm_num
  elements := by simp

/-- Ranges of protons in water at two energies, in every build without assertions, after any histories. -/
example (env : Env ℝ) (hdbg : env.debug = false) (hj : SmallJunk env.junk) (w1 w2 : World ℝ) (r1 : ReachableW env w1)
    (r2 : ReachableW env w2) : ∃ R1 R2 w1' w2',
    range env (⟨1.00794, 1, 1, 100⟩ : Projectile ℝ) ⟨1, 1, 18.015, 0, [⟨1.00794, 1, 2⟩, ⟨15.9994, 8, 1⟩]⟩ .default w1 = .ok (R1, w1') ∧
    range env (⟨1.00794, 1, 1, 101⟩ : Projectile ℝ) ⟨1, 1, 18.015, 0, [⟨1.00794, 1, 2⟩, ⟨15.9994, 8, 1⟩]⟩ .default w2 = .ok (R2, w2') ∧ R1 < R2 := by
  obtain ⟨w1', R1, -, h1, -⟩ := energy_out_succeeds env hdbg w1 r1 _ 1 _ _ proton_water_computable proton_water_nonDefault
  have hc : Computable (⟨1.00794, 1, 1, 101⟩ : Projectile ℝ) 1 ⟨1, 1, 18.015, 0, [⟨1.00794, 1, 2⟩, ⟨15.9994, 8, 1⟩]⟩ .default :=
    ⟨⟨by norm_num, by norm_num, by norm_num, by norm_num⟩, by norm_num, proton_water_computable.sound, proton_water_computable.known, Or.inl rfl⟩
  obtain ⟨w2', R2, -, h2, -⟩ := energy_out_succeeds env hdbg w2 r2 _ 1 _ _ hc proton_water_nonDefault
  exact ⟨R1, R2, w1', w2', h1, h2, proton_range_increasing env hj _ _ _ proton_water_hydrogen proton_water_nonDefault w1 w2 r1 r2 100 101 R1 R2 w1' w2'
    (Or.inl (by norm_num)) h1 h2⟩

/-- The energy of a proton of 100 MeV/u behind 1 g/cm2 of water. -/
example (env : Env ℝ) (hdbg : env.debug = false) (hj : SmallJunk env.junk) (w : World ℝ) (r : ReachableW env w) : ∃ E w',
    energy_out env (⟨1.00794, 1, 1, 100⟩ : Projectile ℝ) ⟨1, 1, 18.015, 0, [⟨1.00794, 1, 2⟩, ⟨15.9994, 8, 1⟩]⟩ .default w = .ok (E, w') ∧
    E < 100 + 2e-13 := by
  obtain ⟨w', -, E, -, h⟩ := energy_out_succeeds env hdbg w r _ 1 _ _ proton_water_computable proton_water_nonDefault
  exact ⟨E, w', h, proton_energy_out_below env hj _ _ _ proton_water_hydrogen proton_water_nonDefault w w' r (by norm_num) (by norm_num) E h⟩

end Catima
