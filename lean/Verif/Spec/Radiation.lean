import Mathlib.Analysis.SpecialFunctions.Log.Basic
import Mathlib.Analysis.Real.Sqrt

/-!
# Specification: Dahl's formula for the radiation length
-/

namespace Catima

/-- The radiation length (g/cm²) of an element of charge `z` and atomic weight `a` in the compact
fit of O. I. Dahl that the Particle Data Group gives ("better than 2.5 % for all elements except
helium, where it is about 5 % low"). -/
noncomputable def dahlLength (z : Int) (a : ℝ) : ℝ :=
  716.4 * a / ((z : ℝ) * (z + 1) * Real.log (287 / √(z : ℝ)))

end Catima
