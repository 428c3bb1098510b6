import Verif.Model.Scalar

/-!
# Physical and numerical constants (`/repo/include/catima/constants.h:8-39`)

The C++ `constexpr` expressions are kept as expressions.
-/

namespace Catima
variable {α : Type} [Scalar α]

/-- constants.h:8 -/
def Ezero : α := 1.0e-3
/-- constants.h:9 -/
def logEmin : α := -3.0
/-- constants.h:10 -/
def logEmax : α := 7.0
/-- constants.h:11 -/
def max_datapoints : Nat := 600
/-- constants.h:12 -/
def max_storage_data : Nat := 60
/-- constants.h:13 -/
def numeric_epsilon : α := 10.0 * dblEps
/-- constants.h:14 -/
def Eout_th_epsilon : α := 1.0e-5
/-- constants.h:16 -/
def thin_target_limit : α := 1.0 - 1.0e-3
/-- constants.h:19 -/
def emin_reaction : α := 30.0
/-- constants.h:26 -/
def PI : α := 3.1415926535897932384626433832795
/-- constants.h:27 -/
def LN10 : α := 2.30258509299404568401799145468
/-- constants.h:28 -/
def Avogadro : α := 6.022140857
/-- constants.h:29 -/
def electron_mass : α := 0.510998928
/-- constants.h:30 -/
def atomic_mass_unit : α := 931.4940954
/-- constants.h:32 -/
def fine_structure : α := 1.0 / 137.035999139
/-- constants.h:33 -/
def fine_structure_inverted : α := 1.0 / fine_structure
/-- constants.h:34 -/
def c_light : α := 299.792458
/-- constants.h:35 -/
def bohr_velocity : α := 2.19 / c_light
/-- constants.h:36 -/
def hbar : α := 6.582119514
/-- constants.h:37 -/
def Es_squared : α := 2.0 * PI * fine_structure_inverted * electron_mass * electron_mass
/-- constants.h:38 -/
def dedx_constant : α := 0.3070749187
/-- constants.h:39 -/
def domega2dx_constant : α := dedx_constant * electron_mass

end Catima
