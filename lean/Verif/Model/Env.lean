import Verif.Model.Spline

/-!
# Build options and uninitialised memory
-/

namespace Catima

/-- The compile-time options of `/repo/build_config.in` and `/repo/CMakeLists.txt:17-28`
that the model covers, whether `assert` is active (no `NDEBUG`), and the contents of the two
uninitialised matrix cells read by `trig_solve` (see `Junk`).  Not covered: `GLOBAL`,
`GSL_INTEGRATION`, `GSL_INTERPOLATION`, `NUREX`; `REACTIONS` is always on. -/
structure Env (α : Type) where
  /-- `assert` is active -/
  debug : Bool
  /-- `ET_CALCULATED_INDEX` -/
  calcIndex : Bool
  /-- `THIN_TARGET_APPROXIMATION` -/
  thin : Bool
  /-- `STORE_SPLINES` -/
  storeSplines : Bool
  /-- stack contents seen by every spline construction -/
  junk : Junk α

/-- The default CMake build: Release, all three options on; zeroed stack. -/
def Env.default {α : Type} [Scalar α] : Env α := ⟨false, true, true, true, ⟨0.0, 0.0⟩⟩

end Catima
