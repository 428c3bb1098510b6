import Verif.Lemmas.RealScalar
import Verif.Model.Structures

/-!
# Specification: reactions in a compound
-/

namespace Catima

/-- Atoms of the component `a` per cm² of the material, from its weight fraction and atomic weight.  A
component is given by its weight fraction (below 1) or by its number of atoms. -/
noncomputable def atomsPerArea (m : Material ℝ) (a : Target ℝ) : ℝ :=
  6.022140857e23 * m.th * (if a.stn < 1 then a.stn else a.stn * a.A / m.molar_mass) / a.A

/-- Number of atoms per formula unit; for compounds given by weight fractions the formula unit has the
stated molar mass. -/
noncomputable def atomsPerUnit (m : Material ℝ) : ℝ :=
  (m.atoms.map fun a => if a.stn < 1 then a.stn * m.molar_mass / a.A else a.stn).sum

/-- Expected number of reactions of one projectile, if `σ` is the cross section in mb (10⁻²⁷ cm²) for
each component. -/
noncomputable def expectedReactions (m : Material ℝ) (σ : Target ℝ → ℝ) : ℝ :=
  (m.atoms.map fun a => atomsPerArea m a * (σ a * 1e-27)).sum

end Catima
