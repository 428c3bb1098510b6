import Verif.Model.Calculations

/-!
# Effective charge in builds with the GLOBAL library (`/repo/src/calculations.cpp:749-838`)

`global_qmean(pz, tz, E)` belongs to an external library, of which nothing is assumed: it is the
parameter `qmean`.
-/

namespace Catima
variable {α : Type} [Scalar α]

/-- calculations.cpp:749-763, build with `GLOBAL`. -/
def z_eff_global_lib (qmean : α → α → α → α) (pz E tz : α) : α :=
  if E >? 2000.0 then pz
  else if (E <? 30.0) || (pz <? 29.0) then z_eff_Pierce_Blann pz E
  else qmean pz tz E

/-- calculations.cpp:799 and 803: the charge at high energies. -/
def qHigh (pz beta gamma tz : α) : α :=
  pz * (1.0 - Scalar.exp (-180.0 * beta * Scalar.pow gamma 0.18 * Scalar.pow pz (-0.82)
    * Scalar.pow tz 0.1))

/-- calculations.cpp:778-838, build with `GLOBAL`.  `qglobal` is 0 unless the condition of line 788
holds. -/
def z_eff_atima14_lib (qmean : α → α → α → α) (pz T tz : α) : α :=
  let beta := beta_from_T T
  let gamma := gamma_from_T T
  let qpb := z_eff_Pierce_Blann pz beta
  let qglobal :=
    if (T >? 30.0) && (T <? 1500.0) && (pz >? 28.0) then
      (z_eff_global_lib qmean pz T tz - qpb) * 1.4 / Scalar.pow (tz + 1.0) 0.28
        * (1.0 - Scalar.exp (-0.04 * T)) + qpb
    else 0.0
  if T >? 1500.0 then qHigh pz beta gamma tz
  else if (T ≥? 1000.0) && (T ≤? 1500.0) then
    let qhigh := qHigh pz beta gamma tz
    if pz ≤? 28.0 then
      ((1500.0 - T) * z_eff_Winger pz beta tz + (T - 1000.0) * qhigh) / (1500.0 - 1000.0)
    else ((1500.0 - T) * qglobal + (T - 1000.0) * qhigh) / (1500.0 - 1000.0)
  else if pz ≤? 28.0 then z_eff_Winger pz beta tz
  else if T ≥? 70.0 then qglobal
  else if T <? 30.0 then z_eff_Winger pz beta tz
  else ((70.0 - T) * z_eff_Winger pz beta tz + (T - 30.0) * qglobal) / (70.0 - 30.0)

end Catima
