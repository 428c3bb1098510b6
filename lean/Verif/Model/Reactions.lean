import Verif.Model.Catima
import Verif.Model.Abundance

/-!
# Reaction rates (`/repo/src/reactions.cpp`, `/repo/include/catima/reactions.h`)

Build with `REACTIONS`, without `NUREX`.
-/

namespace Catima
variable {α : Type} [Scalar α]

/-- reactions.h:32-34 -/
def reaction_rate (sigma t : α) : α := 1.0 - Scalar.exp (-sigma * t * 0.0001)

/-- reactions.h:41-43 -/
def nonreaction_rate_sigma (sigma t : α) : α := Scalar.exp (-sigma * t * 0.0001)

/-- reactions.h:45-50 -/
def reaction_rate_f (f : α → M α) (t : α) : M α := do
  let i ← GL_data8.integrate f 0.0 t
  return 1.0 - Scalar.exp (-i * 0.0001)

/-- reactions.h:56-58: a second `catima::p_from_T(double,double)`, inline, next to the one of
calculations.cpp:469-471. -/
def p_from_T_reactions (T M : α) : α :=
  M * Scalar.sqrt (T * T + 2.0 * T * atomic_mass_unit)

/-- reactions.h:61-63 -/
def Ecm_from_T (T Ap At : α) : α := T * Ap * At / (Ap + At)

/-- reactions.cpp:72-94.  `5.0*(At-2*Zt)*Zp/(Ap*At)`: the inner integer expressions are
`int`; they are kept as integers here and converted. -/
def SigmaR_Kox (Ap Zp : Int) (E : α) (At Zt : Int) : α :=
  let rc : α := 1.3
  let r0 : α := 1.1
  let a : α := 1.85
  let c1 : α := 2.0 - (10.0 / (1.5 * 1.5 * 1.5 * 1.5 * 1.5))
  let Ap13 : α := Scalar.pow (ofInt Ap) (1.0 / 3.0)
  let At13 : α := Scalar.pow (ofInt At) (1.0 / 3.0)
  let D : α := 5.0 * ofInt (At - 2 * Zt) * ofInt Zp / ofInt (Ap * At)
  let Bc := ofInt (Zp * Zt) / (rc * (Ap13 + At13))
  let logE := Scalar.log10 E
  let c :=
    if logE <? 1.5 then c1 * Scalar.pow (logE / 1.5) 3.0
    else (-10.0 / Scalar.pow logE 5.0) + 2.0
  let Rs := r0 * ((a * Ap13 * At13) / (Ap13 + At13) - c) + D
  let Rv := r0 * (Ap13 + At13)
  let Ri := Rv + Rs
  let Ecm := Ecm_from_T E (ofInt Ap) (ofInt At)
  10.0 * PI * Ri * Ri * (1.0 - (Bc / Ecm))

/-- reactions.cpp:30-40: the lambda `sigma_r` -/
def sigma_r (debug : Bool) (p : Projectile α) (target : Material α) (ap zp : Int) (rs : Spline α)
    (th : α) : M α := do
  let e ← energy_out_spline debug p.T th rs
  let (stn_sum, sum) ← target.atoms.foldlM (fun (acc : α × α) t => do
    let at_ ← get_isotope_a t.Z 0
    return (acc.1 + target.mfrac t, acc.2 + target.mfrac t * SigmaR_Kox ap zp e at_ t.Z)) (0.0, 0.0)
  return sum / stn_sum

/-- reactions.cpp:28-56: given the range interpolator -/
def nonreaction_rate_from (env : Env α) (p : Projectile α) (target : Material α) (rs : Spline α) :
    M α := do
  let ap := Scalar.lround p.A
  let zp := Scalar.lround p.Z
  if (← energy_out_spline env.debug p.T target.th rs) <? emin_reaction then return -1.0
  let sig := sigma_r env.debug p target ap zp rs
  let cs0 ← sig 0.0
  let cs1 ← sig target.th
  let cs ←
    if Scalar.fabs (cs0 - cs1) / cs0 <? 0.05 then
      pure (target.number_density_cm2 * (cs0 + cs1) / 2.0)
    else do
      let i ← integrator.integrate sig 0.0 target.th
      pure (Avogadro * i / target.molar_mass)
  return Scalar.exp (-cs * 0.0001)

/-- reactions.cpp:18-57 -/
def nonreaction_rate (env : Env α) (p : Projectile α) (target : Material α) (c : Config α) :
    Api α α := do
  if p.T <? emin_reaction then return -1.0
  if target.th ≤? 0.0 then return 1.0
  let data ← get_data env p target c
  pureM do nonreaction_rate_from env p target (← get_range_spline env data)

/-- reactions.cpp:59-69 -/
def production_rate (cs rcs_projectile rcs_product : α) (target : Material α) : α :=
  let t := target.number_density_cm2
  if Scalar.fabs (rcs_product - rcs_projectile) <? 5.0 then
    0.0001 * cs * t * (Scalar.exp (-0.0001 * rcs_product * t))
  else
    cs * (Scalar.exp (-0.0001 * rcs_projectile * t) - Scalar.exp (-0.0001 * rcs_product * t))
      / (rcs_product - rcs_projectile)

end Catima
