import Verif.Lemmas.RealScalar
import Verif.Model.Structures
import Verif.Model.EnergyTable

/-!
# Specifications for stopping powers
-/

namespace Catima

/-- A material that describes real matter: at least one component, every component with atomic
number at least 1, positive mass and positive amount, and a positive molar mass. -/
structure Material.Sound (m : Material ℝ) : Prop where
  nonempty : m.atoms ≠ []
  Z : ∀ t ∈ m.atoms, 1 ≤ t.Z
  A : ∀ t ∈ m.atoms, 0 < t.A
  stn : ∀ t ∈ m.atoms, 0 < t.stn
  molar : 0 < m.molar_mass

/-- A projectile of positive mass with the integer charge number `n ≥ 1`. -/
structure Projectile.Ion (p : Projectile ℝ) (n : Int) : Prop where
  Z : p.Z = n
  pos : 1 ≤ n
  int : n ≤ 2147483647
  A : 0 < p.A

/-- The material consisting of the single component `t`, given by its weight fraction 1 in the
sense of the library (`stn = 1`, `molar_mass = A`), with the mean excitation energy of `m`. -/
noncomputable def Material.only (m : Material ℝ) (t : Target ℝ) : Material ℝ :=
  { m with atoms := [{ t with stn := 1 }], molar_mass := t.A }

/-- Energies at which the Lindhard tables can be read: not in the window of `10 * 2^-52` MeV/u just
below their last energy (10 TeV/u), where the lookup reads past the energy table
(`interpolate_last_window`).  No `double` lies inside that window. -/
def LindhardReadable (T : ℝ) : Prop :=
  T < (ls_energy_table : EnergyTable ℝ).val 199 - 10 * 2⁻¹ ^ 52 ∨
    (ls_energy_table : EnergyTable ℝ).val 199 ≤ T

/-- Conditions under which everything in the range calculation is defined: an ion up to Z = 108 in a
sound material with known mean excitation energies and radiation lengths, effective charge by Pierce
and Blann or a given non-negative charge. -/
structure Computable (p : Projectile ℝ) (n : Int) (m : Material ℝ) (c : Config ℝ) : Prop where
  ion : p.Ion n
  small : n ≤ 108
  sound : m.Sound
  known : ∀ t ∈ m.atoms, t.Z ≤ 120
  charge : c.z_effective = 1 ∨ c.z_effective = 0 ∧ 0 ≤ p.Q

/-- A usual mean excitation energy `I` for a component of atomic number `z`: if one is given it is at
most 1170 eV with `I² ≤ 11500 z` (for hydrogen 107 eV, for carbon 262 eV, for lead 971 eV); without
one the element is among the 120 tabulated ones. -/
def TypicalI (I : ℝ) (z : Int) : Prop :=
  (0 < I → I ≤ 1170 ∧ I ^ 2 ≤ 11500 * z) ∧ (I ≤ 0 → z ≤ 120)

/-- An ion of at most five times the atomic weight of its element (every known nucleus except
hydrogen-6 and hydrogen-7) and a material with usual mean excitation energies. -/
structure Usual (p : Projectile ℝ) (n : Int) (m : Material ℝ) : Prop where
  mass : p.A ≤ 5 * element_atomic_weight n
  excitation : ∀ t ∈ m.atoms, TypicalI m.i_potential t.Z

end Catima
